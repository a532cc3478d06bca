import Verif.EndToEnd.EntryLemmas
import Verif.Pilot.Props
import Verif.Cloister.PropsBox
/-!
# The exported projection and boundaries (C167, C168)
-/
set_option autoImplicit false
set_option linter.unusedSectionVars false

namespace Verif.EndToEnd

open Verif (Num)
open Verif.Pipeline (Stg Name outputs defaultStages runner modelOf)
open Verif.Metadata (Table Squeezed fromDataFrame)
open Verif.Runner (Dict)
open Verif.Export (Export saveCsv Fits Holds)

variable {V W α : Type} {lower : String → String} {numeric : Squeezed V → Bool} {str : V → V}
  {num : V → Num} {env : Env V W} {le : Nat → Late V W} {t : Table V} {d : Dict Name (Val V W)}
  {tx : Text V α} {files : List (String × Export.File α)}

/-! ### C167 -/

/-- The three files about the projection fit together: names, features, processed features `x`, matrix `a`,
and coordinates. -/
structure Projection (tx : Text V α) (files : List (String × Export.File α)) (names feats : List String)
    (x a : Nat → Nat → ℚ) : Prop where
  features : Numbers tx files "feature_process.csv" feats names x
  matrix : ShowsMatrix tx files feats a
  coordinates : Numbers tx files "coordinates.csv" ["z_1", "z_2"] names
    fun i k => ∑ j ∈ Finset.range feats.length, a k j * x i j

/-- What C167 and C168 use. -/
theorem late_projection (hc : Complete env le) (h : Succeeds lower numeric str num env t d)
    (hs : SavedLate tx d files) (h0 : ∀ feats, d .feat_labels = some (.names feats) → "0" ∉ feats) :
    ∃ (junk : α × α) (e : Export α) (x : Preprocessing.Mat Num)
      (a : Matrix (Fin 2) (Fin x.ncols) ℚ), files = (saveCsv junk true e).files ∧ Fits e ∧
      d .feat_labels = some (.names e.featLabels) ∧ e.featLabels.length = x.ncols ∧
      d .x = some (.table x) ∧ x.rows.length = e.instLabels.length ∧
      d .a = some (.table (tableOf a)) ∧
      Projection tx files e.instLabels e.featLabels (ent x.rows) (ent (tableOf a).rows) := by
  obtain ⟨junk, e, rfl, hfit, ⟨k, x, y, o, p1, p2, p3, p4, p5, p6, p7, p8⟩, -, -⟩ :=
    savedLate_common hc h hs
  obtain ⟨s1, s2, s3⟩ := Pilot.C109_summary p6
  have hlen : e.featLabels.length = x.ncols := by
    by_contra hne
    rcases Nat.lt_or_gt_of_ne hne with hlt | hgt
    · obtain ⟨l, hl, -⟩ := s3 ⟨e.featLabels.length, hlt⟩
      simp at hl
    · have hz : ∀ n m, Pilot.summary (n := n) m e.featLabels = .ok o.summary → e.featLabels.length = n := by
        intro n m hm
        unfold Pilot.summary at hm
        split at hm
        · assumption
        · cases hm
      cases hm : ((le k).pilotOpts x.ncols y.ncols).analytic with
      | true =>
        obtain ⟨_, _, _, _, _, _, _, _, _, hs⟩ := Pilot.analytic_ok hm p6
        exact hne (hz _ _ hs)
      | false =>
        obtain ⟨_, _, _, _, _, _, _, _, _, _, _, _, _, _, _, _, _, _, _, hs⟩ := Pilot.numerical_ok hm p6
        exact hne (hz _ _ hs)
  have hrows : x.rows.length = e.instLabels.length := by
    rw [← hfit.x.1, p4, List.length_map]
  refine ⟨junk, e, x, o.a, rfl, hfit, p1, hlen, p2, hrows, p5, ?_, ?_, ?_⟩
  · have := (Export.C111_matrices junk e hfit).2.1
    rw [p4] at this
    exact numbers_of_holds this (isFinite_mem p3).2
  · obtain ⟨tr, pi, py, -, g1, -, -, g2, -, -, g3, -⟩ := Export.C111_summaries junk e hfit
    have hl : pi.length = x.ncols + 1 := by
      have := congrArg List.length g2
      rw [List.length_map, List.length_map, p8, List.length_map, List.length_cons, List.length_map,
        s2] at this
      exact this
    have hget : ∀ (i : Nat) (c : String × List α), e.pilotSummary[i]? = some c →
        pi[i]? = some (if c.1 = "0" then "Row" else c.1, c.2) := by
      intro i c hi
      have q1 := congrArg (fun l => l[i]?) g2
      have q2 := congrArg (fun l => l[i]?) g3
      simp only [List.getElem?_map, hi, Option.map_some] at q1 q2
      cases hp : pi[i]? with
      | none => rw [hp] at q1; cases q1
      | some c' =>
        rw [hp] at q1 q2
        simp only [Option.map_some, Option.some.injEq] at q1 q2
        rw [← q1, ← q2]
    refine ⟨pi, g1, by rw [hl, hlen], ?_, ?_⟩
    · have := hget 0 ("0", [tx.word "Z_{1}", tx.word "Z_{2}"]) (by rw [p8, s1]; rfl)
      simpa using this
    · intro j l hl
      have hj : j < x.ncols := hlen ▸ (List.getElem?_eq_some_iff.1 hl).1
      obtain ⟨l', q1, q2⟩ := s3 ⟨j, hj⟩
      simp only at q1 q2
      rw [hl] at q1
      cases q1
      have hne : l ≠ "0" := fun hz => h0 _ p1 (hz ▸ List.mem_of_getElem? hl)
      have := hget (j + 1) (l, [tx.num (.fin (o.a 0 ⟨j, hj⟩)), tx.num (.fin (o.a 1 ⟨j, hj⟩))])
        (by rw [p8]; simp [q2, Text.entry])
      rw [if_neg hne] at this
      rw [this, ← ent_tableOf o.a 0 ⟨j, hj⟩, ← ent_tableOf o.a 1 ⟨j, hj⟩]
      rfl
  · have := (Export.C111_matrices junk e hfit).1
    rw [p7] at this
    refine (numbers_of_holds this (tableOf_fin _)).congr ?_
    intro i hi k' hk'
    have hi' : i < x.rows.length := by rw [hrows]; exact hi
    have hz := pilot_projects p6 ⟨i, hi'⟩ ⟨k', hk'⟩
    have he := ent_tableOf o.z ⟨i, hi'⟩ ⟨k', hk'⟩
    simp only at he
    rw [he, hz, hlen, Finset.sum_range]
    refine Finset.sum_congr rfl fun j _ => ?_
    rw [mul_comm, ← ent_tableOf o.a ⟨k', hk'⟩ j]
    rfl

/-- **C167.**  The exported files about the projection fit together: the lines of `coordinates.csv` are
about the same instances, in the same order, as those of `feature_process.csv`; `projection_matrix.csv` has
a column for every feature, in the same order; and coordinate `k` of an instance is the combination of its
processed features with the coefficients in row `k` of that matrix. -/
theorem C167_projection (hc : Complete env le) (h : Succeeds lower numeric str num env t d)
    (hs : SavedLate tx d files) (h0 : ∀ feats, d .feat_labels = some (.names feats) → "0" ∉ feats) :
    ∃ names feats x a, d .feat_labels = some (.names feats) ∧ Projection tx files names feats x a := by
  obtain ⟨junk, e, x, a, rfl, -, g1, -, -, -, -, g2⟩ := late_projection hc h hs h0
  exact ⟨_, _, _, _, g1, g2⟩

/-! ### C168 -/

/-- **C168.**  The boundary in `bounds.csv` encloses every instance of `coordinates.csv`; it is the outline
of exactly those points of the plane onto which some choice of feature values is projected, each feature
between its least and its greatest value in `feature_process.csv`; and the boundary in
`bounds_prunned.csv` lies inside it. -/
theorem C168_boundaries (hc : Complete env le) (h : Succeeds lower numeric str num env t d)
    (hs : SavedLate tx d files) (h0 : ∀ feats, d .feat_labels = some (.names feats) → "0" ∉ feats)
    (hq : ∀ k, Cloister.HullCorrect (le k).qhull) :
    ∃ (names feats bNames pNames : List String) (x a b p : Nat → Nat → ℚ),
      Projection tx files names feats x a ∧
      Numbers tx files "bounds.csv" ["z_1", "z_2"] bNames b ∧
      Numbers tx files "bounds_prunned.csv" ["z_1", "z_2"] pNames p ∧
      (∀ i < names.length, point (fun i k => ∑ j ∈ Finset.range feats.length, a k j * x i j) i ∈
        convexHull ℚ (points b bNames.length)) ∧
      (∀ q : Fin 2 → ℚ, q ∈ convexHull ℚ (points b bNames.length) ↔ ∃ v : Nat → ℚ,
        (∀ j < feats.length, (∃ i < names.length, x i j ≤ v j) ∧ ∃ i < names.length, v j ≤ x i j) ∧
        ∀ k : Fin 2, q k = ∑ j ∈ Finset.range feats.length, a k j * v j) ∧
      convexHull ℚ (points p pNames.length) ⊆ convexHull ℚ (points b bNames.length) := by
  obtain ⟨junk, e, x, a, hfiles, hfit, hfe, hlen, hx, hrows, ha, hproj⟩ := late_projection hc h hs h0
  obtain ⟨junk', e', hfiles', hfit', ⟨-, -, -, -, f1, -⟩, ⟨k, x', a', r, l, c1, c2, c3, c4, c5⟩, -⟩ :=
    savedLate_common hc h hs
  rw [hx] at c1
  rw [ha] at c2
  cases c1; cases c2
  have hA : entries (tableOf a) 2 x.ncols = a := by
    funext i j
    exact ent_tableOf a i j
  rw [hA] at c4 c5
  generalize hout : Cloister.cloister (le k).qhull ((le k).pearson (r :: l)) (le k).pThr (le k).cThr
    a r l = out at c4 c5
  have hne : out.1 ≠ [] := by
    intro hz
    apply hfit'.zEdge.1
    rw [c4, hz]
    rfl
  have hhull : (le k).qhull ((Cloister.xEdge r l).map (Cloister.project a)) ≠ none := by
    intro hz
    apply hne
    rw [← hout]
    simp only [Cloister.cloister, Cloister.hullPoints, hz]
  obtain ⟨⟨bn, -, b1, b2⟩, ⟨pn, -, d1, d2⟩, -⟩ := Export.C111_points junk' e' hfit'
  rw [← hfiles', c4] at b2
  rw [← hfiles', c5] at d2
  have hb : bn.length = out.1.length := by rw [b1, c4]; simp [pointsOf]
  have hp : pn.length = out.2.length := by rw [d1, c5]; simp [pointsOf]
  have hshadow := Cloister.C148_shadow (le k).qhull (hq k) ((le k).pearson (r :: l)) (le k).pThr
    (le k).cThr a r l hhull
  have hin := Cloister.C92_inside (le k).qhull (hq k) ((le k).pearson (r :: l)) (le k).pThr
    (le k).cThr a r l hhull
  rw [hout] at hshadow hin
  -- rows of the feature matrix
  have hmem : ∀ i, i < e.instLabels.length → ∃ r' ∈ r :: l, ∀ j : Fin x.ncols, r' j = ent x.rows i j := by
    intro i hi
    rw [← hrows] at hi
    refine ⟨entries x x.rows.length x.ncols ⟨i, hi⟩, ?_, fun j => rfl⟩
    rw [← c3]
    exact List.mem_ofFn.2 ⟨⟨i, hi⟩, rfl⟩
  have hmem' : ∀ r' ∈ r :: l, ∃ i, i < e.instLabels.length ∧ ∀ j : Fin x.ncols, r' j = ent x.rows i j := by
    intro r' hr'
    rw [← c3] at hr'
    obtain ⟨i, rfl⟩ := List.mem_ofFn.1 hr'
    exact ⟨i, by rw [← hrows]; exact i.2, fun j => rfl⟩
  have hplace : ∀ (w : Nat → ℚ) (k : Fin 2), Cloister.place a (fun j => w j) k =
      ∑ j ∈ Finset.range e.featLabels.length, ent (tableOf a).rows k j * w j := by
    intro w k
    rw [hlen, Finset.sum_range]
    have : Cloister.place a (fun j => w j) k = ∑ j, a k j * w j := by
      match k with
      | 0 => rfl
      | 1 => rfl
    rw [this]
    refine Finset.sum_congr rfl fun j _ => ?_
    rw [ent_tableOf a k j]
  have hiff : ∀ q : Fin 2 → ℚ, q ∈ convexHull ℚ (points (ent (pointsOf out.1).rows) bn.length) ↔
      ∃ v : Nat → ℚ,
        (∀ j < e.featLabels.length, (∃ i < e.instLabels.length, ent x.rows i j ≤ v j) ∧
          ∃ i < e.instLabels.length, v j ≤ ent x.rows i j) ∧
        ∀ k : Fin 2, q k = ∑ j ∈ Finset.range e.featLabels.length, ent (tableOf a).rows k j * v j := by
    intro q
    rw [hb, points_pointsOf, hshadow]
    constructor
    · rintro ⟨v, hv, rfl⟩
      refine ⟨fun j => if hj : j < x.ncols then v ⟨j, hj⟩ else 0, ?_, ?_⟩
      · intro j hj
        rw [hlen] at hj
        obtain ⟨⟨r1, hr1, h1⟩, r2, hr2, h2⟩ := hv ⟨j, hj⟩
        obtain ⟨i1, hi1, e1⟩ := hmem' r1 hr1
        obtain ⟨i2, hi2, e2⟩ := hmem' r2 hr2
        rw [e1] at h1
        rw [e2] at h2
        exact ⟨⟨i1, hi1, by simpa [hj] using h1⟩, i2, hi2, by simpa [hj] using h2⟩
      · intro k'
        rw [← hplace]
        simp
    · rintro ⟨v, hv, hq'⟩
      refine ⟨fun j => v j, ?_, ?_⟩
      · intro j
        obtain ⟨⟨i1, hi1, h1⟩, i2, hi2, h2⟩ := hv j (by rw [hlen]; exact j.2)
        obtain ⟨r1, hr1, e1⟩ := hmem i1 hi1
        obtain ⟨r2, hr2, e2⟩ := hmem i2 hi2
        exact ⟨⟨r1, hr1, by rw [e1]; exact h1⟩, r2, hr2, by rw [e2]; exact h2⟩
      · funext k'
        rw [hq', ← hplace]
  refine ⟨e.instLabels, e.featLabels, bn, pn, _, _, _, _, hproj,
    numbers_of_holds b2 (pointsOf_fin _), numbers_of_holds d2 (pointsOf_fin _), ?_, hiff, ?_⟩
  · intro i hi
    rw [hiff]
    exact ⟨fun j => ent x.rows i j, fun j _ => ⟨⟨i, hi, le_refl _⟩, i, hi, le_refl _⟩, fun k' => rfl⟩
  · rw [hb, hp, points_pointsOf, points_pointsOf]
    exact hin

/-! ### An example -/

/-- Four instances with two features and two algorithms. -/
def lateTable : Table Nat :=
  ⟨4, [("instances", [10, 11, 12, 13]), ("feature_a", [1, 2, 3, 1]), ("feature_b", [1, 5, 2, 4]),
    ("algo_p", [4, 1, 3, 1]), ("algo_q", [1, 5, 1, 1])]⟩

/-- PILOT starts from the matrix `1 2; 0 1` and stays there; the hull consists of all points; the models of
PYTHIA predict what is true, except for the first instance. -/
def exLate (_ : Nat) : Late Nat Unit where
  pilotLib _ := ⟨fun _ => (fun _ => 0, 0), fun _ => [], fun _ => none, id, fun f g => (g, f g),
    fun _ => some 0, fun _ => []⟩
  pilotOpts _ _ := ⟨false, 1, none, some [fun i =>
    if i.val = 0 ∨ i.val = 3 then 1 else if i.val = 1 then 2 else 0]⟩
  pearson _ _ _ := (0, 1)
  qhull pts := some (List.range pts.length)
  pThr := .fin (1 / 20)
  cThr := .fin (7 / 10)
  pythiaLib := ⟨id, fun _ => 0⟩
  useWeights := true
  fitted _ _ yb i := .ok ⟨(yb.map fun r => r.getD i false).set 0 true, yb.map fun r => r.getD i false,
    yb.map fun _ => 0, yb.map fun _ => 0, 1, 1⟩
  fill _ := ()
  trace _ := .ok ((outputs .trace).map fun a => (a.1, .other ()))

/-- Maximise, good means at least 2. -/
def lateEnv : Env Nat Unit :=
  { smallEnv noSubset none with rest := fun k s vs => runLate (exLate k) s vs }

/-- Numbers are numbers. -/
def lateNum (n : Nat) : Num := .fin n

/-- The run on the four instances. -/
def lateRun : Except (Runner.RunError Name Err) (Dict Name (Val Nat Unit)) :=
  Runner.contents (Runner.runAll (runner defaultStages Pipeline.defaultSchedule (run lateEnv))
    Runner.State.init
    (args lateEnv lateNum (fromDataFrame id (fun _ => false) id lateTable)))

/-- Entries of files are words and numbers. -/
def lateText : Text Nat Entry where
  label n := toString n
  num := .num
  bool b := .word (if b then "True" else "False")
  count n := .num (.fin n)
  word := .word

/-- What TRACE contributes, and places for the rest. -/
def lateRest : Export Entry where
  instLabels := []
  featLabels := []
  algoLabels := []
  nalgos := 0
  x := []
  xRaw := []
  y := []
  yRaw := []
  yBin := []
  numGood := []
  beta := []
  p := []
  z := []
  zEdge := []
  zEcorr := []
  idx := []
  yHat := []
  selection0 := []
  best := [none, none]
  good := [none, none]
  traceSummary := ["Algorithm", "b", "c", "d", "e", "f", "g", "h", "i", "j", "k"].map fun s => (s, [])
  pilotSummary := []
  pythiaSummary := []

/-- The files after the run, `none` if something raises. -/
def lateFiles : Option (Dict Name (Val Nat Unit) × List (String × Export.File Entry)) :=
  lateRun.toOption.bind fun d => (modelOf d ()).toOption.bind fun m =>
    (lateOf lateText lateRest m).bind fun late => (exportOf lateText late m).bind fun e =>
      if (saveCsv (.word "", .word "") true e).error.isNone then
        some (d, (saveCsv (.word "", .word "") true e).files) else none

theorem late_complete : Complete lateEnv exLate where
  stages _ _ _ := rfl
  trace := by
    intro k vs out h
    cases h
    rfl

theorem late_hull (k : Nat) : Cloister.HullCorrect (exLate k).qhull := by
  intro pts vs h
  cases h
  congr 1
  ext p
  constructor
  · rintro ⟨i, -, hi⟩
    exact List.mem_of_getElem? hi
  · intro hp
    obtain ⟨i, hi, rfl⟩ := List.getElem_of_mem hp
    exact ⟨i, List.mem_range.2 hi, List.getElem?_eq_getElem hi⟩

theorem late_saved {d : Dict Name (Val Nat Unit)} {files : List (String × Export.File Entry)}
    (h : lateFiles = some (d, files)) :
    Succeeds id (fun _ => false) id lateNum lateEnv lateTable d ∧ SavedLate lateText d files := by
  unfold lateFiles at h
  cases hr : lateRun with
  | error e => rw [hr] at h; cases h
  | ok d' =>
    rw [hr] at h
    simp only [Except.toOption, Option.bind_some] at h
    cases hm : modelOf d' () with
    | error e => rw [hm] at h; cases h
    | ok m =>
      rw [hm] at h
      dsimp only [Option.bind_some] at h
      cases hl : lateOf lateText lateRest m with
      | none => rw [hl] at h; cases h
      | some late =>
      rw [hl] at h
      simp only [Option.bind_some] at h
      cases he : exportOf lateText late m with
      | none => rw [he] at h; cases h
      | some e =>
        rw [he] at h
        simp only [Option.bind_some] at h
        by_cases herr : (saveCsv (.word "", .word "") true e).error.isNone
        · rw [if_pos herr] at h
          simp only [Option.some.injEq, Prod.mk.injEq] at h
          obtain ⟨rfl, rfl⟩ := h
          exact ⟨⟨defaultStages, Pipeline.listOrder, Pipeline.defaultSchedule, [], .refl _,
            Pipeline.default_once, hr⟩, _, _, _, _, m, hm, hl, he, by simpa using herr, rfl⟩
        · rw [if_neg herr] at h
          cases h

/-- The cells of an array file. -/
def cellsOf (files : List (String × Export.File Entry)) (name : String) : Option (List (List Entry)) :=
  match Export.onDisk files name with
  | some (.array tb) => some (tb.rows.map (·.2))
  | _ => none

/-- A list of numbers as entries. -/
def nums (l : List ℚ) : List Entry := l.map fun q => .num (.fin q)

/-- Non-vacuity: the run on the four instances meets the hypotheses of C167 and C168, and its files show the
features, their projection and the projected corners of the box. -/
example : Complete lateEnv exLate ∧ (∀ k, Cloister.HullCorrect (exLate k).qhull) ∧
    ∃ d files, Succeeds id (fun _ => false) id lateNum lateEnv lateTable d ∧
      SavedLate lateText d files ∧ (∀ feats, d .feat_labels = some (.names feats) → "0" ∉ feats) ∧
      cellsOf files "feature_process.csv" = some [nums [1, 1], nums [2, 5], nums [3, 2], nums [1, 4]] ∧
      cellsOf files "coordinates.csv" = some [nums [3, 1], nums [12, 5], nums [7, 2], nums [9, 4]] ∧
      cellsOf files "bounds.csv" = some [nums [3, 1], nums [5, 1], nums [11, 5], nums [13, 5]] := by
  have e1 : (lateFiles.bind fun p => cellsOf p.2 "feature_process.csv") =
      some [nums [1, 1], nums [2, 5], nums [3, 2], nums [1, 4]] := by decide +kernel
  have e2 : (lateFiles.bind fun p => cellsOf p.2 "coordinates.csv") =
      some [nums [3, 1], nums [12, 5], nums [7, 2], nums [9, 4]] := by decide +kernel
  have e3 : (lateFiles.bind fun p => cellsOf p.2 "bounds.csv") =
      some [nums [3, 1], nums [5, 1], nums [11, 5], nums [13, 5]] := by decide +kernel
  have e4 : (lateFiles.bind fun p => match p.1 .feat_labels with
      | some (.names l) => some l
      | _ => none) = some ["feature_a", "feature_b"] := by decide +kernel
  refine ⟨late_complete, late_hull, ?_⟩
  cases hz : lateFiles with
  | none => rw [hz] at e1; cases e1
  | some p =>
    obtain ⟨d, files⟩ := p
    rw [hz] at e1 e2 e3 e4
    obtain ⟨h1, h2⟩ := late_saved hz
    refine ⟨d, files, h1, h2, ?_, e1, e2, e3⟩
    intro feats hf
    dsimp only [Option.bind_some] at e4
    rw [hf] at e4
    cases e4
    decide

end Verif.EndToEnd
