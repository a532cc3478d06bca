import Verif.EndToEnd.TallyLemmas
import Verif.EndToEnd.PropsSample
import Verif.EndToEnd.PropsSvm
import Verif.EndToEnd.PropsTries
import Verif.Pilot.Props
/-!
# What PYTHIA reports and the sizes of the arrays (C208, C209)
-/
set_option autoImplicit false
set_option linter.unusedSectionVars false

namespace Verif.EndToEnd

open Verif (Num)
open Verif.Pipeline (Stg Name outputs defaultStages runner)
open Verif.Metadata (Table Squeezed fromDataFrame)
open Verif.Runner (Dict)
open Verif.Pythia (Sized share)

variable {V W : Type} {lower : String → String} {numeric : Squeezed V → Bool} {str : V → V}
  {num : V → Num} {env : Env V W} {le : Nat → Late V W} {t : Table V} {labels : List V}
  {d : Dict Name (Val V W)}

/-- `P` holds of what every successful run of the pipeline with its stages leaves behind. -/
def Everywhere (P : Dict Name (Val Nat Unit) → Prop) : Prop :=
  ∀ (lower : String → String) (numeric : Squeezed Nat → Bool) (num : Nat → Num) (env : Env Nat Unit)
    (le : Nat → Late Nat Unit) (t : Table Nat) (labels : List Nat) (d : Dict Name (Val Nat Unit)),
    Complete env le → Readable lower env t labels → Succeeds lower numeric id num env t d →
    (∀ k z y yb i res, (le k).fitted z y yb i = .ok res → Sized yb.length res) → P d

/-- The run of PropsLate meets the hypotheses. -/
theorem late_readable (subset : Prelim.SubsetOpts) (file : Option (List Int)) :
    Readable id { lateEnv with subset := subset, file := file } lateTable [10, 11, 12, 13] where
  rect := by
    intro c hc
    simp only [lateTable, List.mem_cons, List.not_mem_nil, or_false] at hc
    rcases hc with rfl | rfl | rfl | rfl | rfl <;> rfl
  distinct := by decide
  several := by decide
  labels := ⟨"instances", by decide +kernel⟩
  sources := by decide +kernel
  tuples := Complete.tuples (le := exLate) (env := { lateEnv with subset := subset, file := file })
    ⟨fun _ _ _ => rfl, late_complete.trace⟩

/-- The run on the four instances with an index file. -/
def sampledRun (subset : Prelim.SubsetOpts) (file : Option (List Int)) :
    Except (Runner.RunError Name Err) (Dict Name (Val Nat Unit)) :=
  Runner.contents (Runner.runAll (runner defaultStages Pipeline.defaultSchedule
      (run { lateEnv with subset := subset, file := file })) Runner.State.init
    (args { lateEnv with subset := subset, file := file } lateNum
      (fromDataFrame id (fun _ => false) id lateTable)))

theorem sampled_everywhere {P : Dict Name (Val Nat Unit) → Prop} (h : Everywhere P)
    {subset : Prelim.SubsetOpts} {file : Option (List Int)} {d : Dict Name (Val Nat Unit)}
    (hd : sampledRun subset file = .ok d) : P d :=
  h id (fun _ => false) lateNum { lateEnv with subset := subset, file := file } exLate lateTable
    [10, 11, 12, 13] d ⟨fun _ _ _ => rfl, late_complete.trace⟩ (late_readable subset file)
    ⟨defaultStages, Pipeline.listOrder, Pipeline.defaultSchedule, [], .refl _, Pipeline.default_once, hd⟩
    late_sized

/-- A table of a value. -/
def theTable : Option (Val Nat Unit) → Option (Preprocessing.Mat Num)
  | some (.table m) => some m
  | _ => none
/-- Names of a value. -/
def theNames : Option (Val Nat Unit) → Option (List String)
  | some (.names l) => some l
  | _ => none
/-- Numbers of a value. -/
def theNumbers : Option (Val Nat Unit) → Option (List Num)
  | some (.numbers l) => some l
  | _ => none

/-! ### C208 -/

/-- **C208, the true part.**  Row `j` of the confusion table of the Model counts the instances by the
verdicts `y_bin` and the cross-validated predictions `y_sub` of algorithm `j`; the accuracy, the precision
and the recall are those of the predictions `y_hat` of the final model; and the selections follow from
`y_bin` and `y_hat`.  Missing for the full property: the measures are not those of the counts. -/
theorem C208_partial (hc : Complete env le) (ho : Readable lower env t labels)
    (h : Succeeds lower numeric str num env t d)
    (hfit : ∀ k z y yb i res, (le k).fitted z y yb i = .ok res → Sized yb.length res) :
    ∃ n algos b c g, d .algo_labels = some (.names algos) ∧ Shown d .y_bin n algos.length b ∧
      Shown d .y_sub n algos.length c ∧ Shown d .y_hat n algos.length g ∧
      Reports d n algos.length b c g g :=
  reports hc ho h hfit

/-- The full claim: counts and measures describe the same predictions. -/
def ReportsAgree (d : Dict Name (Val Nat Unit)) : Prop :=
  ∃ n m b c g, Shown d .y_bin n m b ∧ Shown d .y_sub n m c ∧ Shown d .y_hat n m g ∧ Reports d n m b c c g

/-- **C208** is false: in the run on four instances the cross-validated predictions are all right, as the
counts say, and the accuracy of the second algorithm is 3/4. -/
theorem C208_refuted : ¬ Everywhere ReportsAgree := by
  intro h
  have hrun : (sampledRun noSubset none).toOption.map (fun d => (theVerdicts (d .y_bin),
      theVerdicts (d .y_sub), theNumbers (d .accuracy))) =
      some (some [[true, false], [false, true], [true, false], [false, false]],
        some [[true, false], [false, true], [true, false], [false, false]],
        some [1, .fin (3 / 4)]) := by decide +kernel
  cases hd : sampledRun noSubset none with
  | error e => rw [hd] at hrun; cases hrun
  | ok d =>
    rw [hd] at hrun
    obtain ⟨n, m, b, c, g, ⟨l1, a1, a2, a3, a4⟩, ⟨l2, b1, b2, b3, b4⟩, -, hr⟩ := sampled_everywhere h hd
    obtain ⟨l, c1, c2, c3⟩ := hr.accuracy
    simp only [Except.toOption, Option.map_some, a1, b1, c1, theVerdicts, theNumbers, Option.some.injEq,
      Prod.mk.injEq] at hrun
    obtain ⟨rfl, rfl, rfl⟩ := hrun
    simp only [List.length_cons, List.length_nil] at a2 c2
    subst a2 c2
    have heq : ∀ i < 4, b i 1 = c i 1 := by
      intro i hi
      obtain ⟨r, h1, h2⟩ := a4 i hi 1 (by decide)
      obtain ⟨r', h3, h4⟩ := b4 i hi 1 (by decide)
      rw [h1] at h3
      cases h3
      rw [h2] at h4
      exact Option.some.inj h4
    have hacc := c3 1 (by decide)
    have hone : accuracyOf 4 b c 1 = 1 := by
      unfold accuracyOf share
      rw [List.filter_eq_self.2]
      · simp
      · intro i hi
        simp [heq i (List.mem_range.1 hi)]
    rw [hone] at hacc
    revert hacc
    decide +kernel

/-- The same is about the models: column `j` of the predictions and of the probabilities, and entry `j` of
`box_consnt` and `k_scale`, come from one training, that of algorithm `j` on the coordinates, performances
and verdicts of the Model. -/
theorem C208_models_partial (hc : Complete env le) (ho : Readable lower env t labels)
    (h : Succeeds lower numeric str num env t d)
    (hfit : ∀ k z y yb i res, (le k).fitted z y yb i = .ok res → Sized yb.length res) :
    ∃ k algos z y yb ys yh ps ph bc ks, d .algo_labels = some (.names algos) ∧ d .z = some (.table z) ∧
      d .y_raw = some (.table y) ∧ d .y_bin = some (.verdicts yb) ∧ d .y_sub = some (.verdicts ys) ∧
      d .y_hat = some (.verdicts yh) ∧ d .pr0_sub = some (.table ps) ∧ d .pr0_hat = some (.table ph) ∧
      d .box_consnt = some (.numbers bc) ∧ d .k_scale = some (.numbers ks) ∧
      ∀ j < algos.length, ∃ res, (le k).fitted z y yb j = .ok res ∧
        bc[j]? = some (.fin res.c) ∧ ks[j]? = some (.fin res.g) ∧ ∀ i < yb.length, ∃ u v p q,
          res.ySub[i]? = some u ∧ At ys i j u ∧ res.yHat[i]? = some v ∧ At yh i j v ∧
          res.pSub[i]? = some p ∧ At ps.rows i j (.fin p) ∧ res.pHat[i]? = some q ∧ At ph.rows i j (.fin q) := by
  obtain ⟨n, g, feats, algos, x, y, -, e2, -, -, -, -, -, -, -, -, e11, e12, -⟩ := data_sizes ho h
  obtain ⟨k, z, yr, yb, yBest, algos', w, o, q1, q2, q3, -, q5, -, hp, q8⟩ := pythia_all hc h
  rw [e2] at q5
  cases q5
  obtain ⟨yr', y1, y2, -, -⟩ := e11
  rw [y1] at q2
  cases q2
  rw [y2] at hp
  have hf := hfit k z yr yb
  refine ⟨k, algos, z, yr, yb, o.trained.ySub, o.trained.yHat, exactTable yr.ncols o.trained.pr0sub,
    exactTable yr.ncols o.trained.pr0hat, o.trained.boxConsnt.map .fin, o.trained.kScale.map .fin, e2, q1,
    y1, q3, q8 _ _ (by simp [pythiaOut]), q8 _ _ (by simp [pythiaOut]), q8 _ _ (by simp [pythiaOut]),
    q8 _ _ (by simp [pythiaOut]), q8 _ _ (by simp [pythiaOut]), q8 _ _ (by simp [pythiaOut]), ?_⟩
  intro j hj
  obtain ⟨res, r1, r2, r3, r4, -⟩ := Pythia.C98_outputs hp hf hj
  obtain ⟨z1, z2, z3, z4⟩ := hf j res r1
  refine ⟨res, r1, by simp [r3], by simp [r4], fun i hi => ?_⟩
  obtain ⟨t1, t2, t3, t4⟩ := r2 i
  have g1 := List.getElem?_eq_getElem (l := res.ySub) (i := i) (by omega)
  have g2 := List.getElem?_eq_getElem (l := res.yHat) (i := i) (by omega)
  have g3 := List.getElem?_eq_getElem (l := res.pSub) (i := i) (by omega)
  have g4 := List.getElem?_eq_getElem (l := res.pHat) (i := i) (by omega)
  have tab : ∀ (m : List (List ℚ)) (q : ℚ), m[i]?.bind (·[j]?) = some q →
      At (exactTable yr.ncols m).rows i j (.fin q) := by
    intro m q hm
    obtain ⟨r, h1, h2⟩ := bind_at.1 hm
    exact ⟨r.map .fin, by simp [exactTable, h1], by simp [h2]⟩
  exact ⟨_, _, _, _, g1, bind_at.1 (t1.trans g1), g2, bind_at.1 (t2.trans g2), g3, tab _ _ (t3.trans g3), g4,
    tab _ _ (t4.trans g4)⟩

/-! ### C209 -/

/-- **C209, the true part.**  All arrays of the Model have the sizes of its instances, features and
algorithms.  Missing for the full property: the labels of the instances and the matrix `c`. -/
theorem C209_partial (hc : Complete env le) (ho : Readable lower env t labels)
    (h : Succeeds lower numeric str num env t d)
    (hfit : ∀ k z y yb i res, (le k).fitted z y yb i = .ok res → Sized yb.length res) :
    ∃ n g f m, DataShapes d n g f m ∧ LateShapes d n f m :=
  all_sizes hc ho h hfit

/-- **C209, the labels.**  Without a subset there is one label for each instance. -/
theorem C209_labels_partial (ho : Ordinary lower env t labels)
    (h : Succeeds lower numeric str num env t d) {x : Preprocessing.Mat Num}
    (hx : d .x = some (.table x)) :
    ∃ l, d .inst_labels = some (.labels l) ∧ l.length = x.rows.length := by
  obtain ⟨rows, hk⟩ := kept_exists lower num env t
  obtain ⟨inst, s, o, outs, ys, sel, f, tr, -, rfl, hl, hi, -, -, hlx, -⟩ := run_located ho h hk
  have hr : ∀ i ∈ rows, i < t.nrows := fun i hi => ((hk.exact i).1 hi).1
  refine ⟨_, tr.inst_labels, ?_⟩
  have := tr.x
  rw [hx] at this
  cases this
  simp only [rowsOf, List.length_map, List.length_range, prelimX, hlx.nrows]
  rw [hi, Preprocessing.pick_length _ _ (by simpa [hl] using hr)]

/-- **C209, the matrix.**  When PILOT solves the problem analytically, `c` has a column for each algorithm. -/
theorem C209_matrix_partial (hc : Complete env le) (ho : Readable lower env t labels)
    (h : Succeeds lower numeric str num env t d)
    (hm : ∀ k n q, ((le k).pilotOpts n q).analytic = true) {algos : List String}
    (ha : d .algo_labels = some (.names algos)) : IsTable d .c 2 algos.length := by
  obtain ⟨n, g, feats, algos', x, y, -, e2, -, -, -, -, e7, -, e9, -⟩ := data_sizes ho h
  rw [ha] at e2
  cases e2
  obtain ⟨k, x', y', feats', o, p1, p2, p3, p4, p5, p6, p7, p8⟩ := pilot_leaves hc h
  rw [e7] at p2
  cases p2
  have hcols := Pilot.C77_partial (hm k _ _) (Pilot.pilotGaps_ok p7).1
  have := tableOf_shape (p8 .c _ (by simp [pilotOut]; rfl))
  rwa [hcols, e9] at this

/-- Non-vacuity: the analytic run of PropsTries. -/
example : Complete squareEnv squareLate ∧ (∀ k n q, ((squareLate k).pilotOpts n q).analytic = true) ∧
    ∃ d labels, Readable id squareEnv (cleanTable [4, 1, 5, 3, 3, 4] [2, 0, 1, 1, 2, 1]) labels ∧
      Succeeds id (fun _ => false) id lateNum squareEnv
        (cleanTable [4, 1, 5, 3, 3, 4] [2, 0, 1, 1, 2, 1]) d := by
  obtain ⟨d, -, h⟩ := cleanRun_succeeds (env := squareEnv)
    (t := cleanTable [4, 1, 5, 3, 3, 4] [2, 0, 1, 1, 2, 1]) (by decide +kernel)
  exact ⟨square_complete.complete, fun _ _ _ => rfl, d, _,
    (clean_ordinary square_complete rfl (cleanTable_rect rfl rfl) rfl (by decide)).toReadable, h⟩

/-- **C209** is false with a subset of the instances: with an index file that names three of the four
instances there are four labels. -/
theorem C209_labels_refuted :
    ¬ Everywhere fun d => ∃ n g f m, DataShapes d n g f m ∧ ∃ l, d .inst_labels = some (.labels l) ∧ l.length = n := by
  intro h
  have hrun : (sampledRun withFile (some [1, 2, 3])).toOption.map (fun d =>
      ((theLabels (d .inst_labels)).map List.length, (theVerdicts (d .y_bin)).map List.length)) =
      some (some 4, some 3) := by decide +kernel
  cases hd : sampledRun withFile (some [1, 2, 3]) with
  | error e => rw [hd] at hrun; cases hrun
  | ok d =>
    rw [hd] at hrun
    obtain ⟨n, g, f, m, hs, l, h1, h2⟩ := sampled_everywhere h hd
    obtain ⟨b, b1, b2, -⟩ := hs.y_bin
    simp only [Except.toOption, Option.map_some, h1, b1, theLabels, theVerdicts, Option.some.injEq,
      Prod.mk.injEq] at hrun
    omega

/-- **C209** is false when PILOT searches numerically: `c` has a column less than there are algorithms. -/
theorem C209_matrix_refuted :
    ¬ Everywhere fun d => ∃ n g f m, DataShapes d n g f m ∧ IsTable d .c 2 m := by
  intro h
  have hrun : (sampledRun noSubset none).toOption.map (fun d =>
      ((theNames (d .algo_labels)).map List.length, (theTable (d .c)).map (·.ncols))) =
      some (some 2, some 1) := by decide +kernel
  cases hd : sampledRun noSubset none with
  | error e => rw [hd] at hrun; cases hrun
  | ok d =>
    rw [hd] at hrun
    obtain ⟨n, g, f, m, hs, c, h1, h2, -⟩ := sampled_everywhere h hd
    obtain ⟨l, b1, b2⟩ := hs.algo_labels
    simp only [Except.toOption, Option.map_some, h1, b1, theNames, theTable, Option.some.injEq,
      Prod.mk.injEq] at hrun
    omega

/-- Non-vacuity: the run on the four instances, with and without a subset, meets the hypotheses; the counts
and measures are those of the labels. -/
example : (∃ d, sampledRun withFile (some [1, 2, 3]) = .ok d ∧
      Succeeds id (fun _ => false) id lateNum { lateEnv with subset := withFile, file := some [1, 2, 3] }
        lateTable d) ∧
    (sampledRun noSubset none).toOption.map (fun d => ((theTable (d .cvcmat)).map (·.rows),
      theNumbers (d .precision), theNumbers (d .recall), theCounts (d .selection1))) =
    some (some [[2, 0, 0, 2], [3, 0, 0, 1]], some [1, .fin (1 / 2)], some [1, 1], some [0, 1, 0, 0]) := by
  constructor
  · have hrun : (sampledRun withFile (some [1, 2, 3])).toOption.isSome = true := by decide +kernel
    cases hd : sampledRun withFile (some [1, 2, 3]) with
    | error e => rw [hd] at hrun; cases hrun
    | ok d => exact ⟨d, rfl, defaultStages, Pipeline.listOrder, Pipeline.defaultSchedule, [], .refl _,
        Pipeline.default_once, hd⟩
  · decide +kernel

end Verif.EndToEnd
