import Verif.EndToEnd.PropsSvm
import Verif.EndToEnd.TraceLemmas
/-!
# The exported footprints (C171)
-/
set_option autoImplicit false
set_option linter.unusedSectionVars false

namespace Verif.EndToEnd

open Verif (Num)
open Verif.Pipeline (Stg Name outputs defaultStages runner modelOf)
open Verif.Metadata (Table Squeezed fromDataFrame)
open Verif.Runner (Dict)
open Verif.Export (Export saveCsv Fits Holds Geometry)
open Verif.Pythia (Sized share)

variable {V α G : Type} {lower : String → String} {numeric : Squeezed V → Bool} {str : V → V}
  {num : V → Num} {env : Env V (Kept G)} {le : Nat → Late V (Kept G)} {te : Nat → TraceEnv G}
  {t : Table V} {d : Dict Name (Val V (Kept G))} {tx : Text V α} {outline : G → Geometry α}
  {files : List (String × Export.File α)}

/-- The footprints in the files agree with the coordinates `z`, the verdicts `b`, the predictions `h`, the
selections `sel` and the portfolio `p` in the other files.  With `sim`, algorithm `j` is good where it is
predicted good and best where `sel` says `j`; else it is good where the verdict says so, and best where `p`
says `j + shift`. -/
def FootprintsAgree [DecidableEq α] (tx : Text V α) (geo : Trace.Geo G (Fin 2 → ℚ) ℚ)
    (outline : G → Geometry α) (files : List (String × Export.File α)) (algos : List String) (sim : Bool)
    (shift : Nat) : Prop :=
  ∃ names b h sel p z, Predictions tx files names algos b h sel ∧ Portfolio tx files names p ∧
    Numbers tx files "coordinates.csv" ["z_1", "z_2"] names z ∧
    Footprints tx geo outline files algos names.length (point z)
      (fun j i => if sim then h i j else b i j)
      (fun j i => if sim then sel i == j else p i == j + shift)

theorem under_col {f : Export.Frame α} {heading : String} {s : List (String × List Num)} {c j : Nat}
    {a : String} {row : List Num} {v : Num}
    (hf : (heading, s.map fun r => tx.num (r.2.getD c .nan)) ∈ f) (hj : s[j]? = some (a, row))
    (hv : row[c]? = some v) : Under f heading j (tx.num v) := by
  refine ⟨_, hf, ?_⟩
  simp [List.getElem?_map, hj, List.getD_eq_getElem?_getD, hv]

theorem outlined_of [DecidableEq α] (junk : α × α) {e : Export α} (hF : Fits e)
    (hn : e.algoLabels.Nodup) {j : Nat} {a : String} (hj : j < e.nalgos)
    (ha : e.algoLabels[j]? = some a) {fps : List (Option (Geometry α))} {kind : String}
    (hk : (fps = e.best ∧ kind = "best") ∨ (fps = e.good ∧ kind = "good")) {r : Option G}
    (hr : fps[j]? = some (r.map outline)) :
    Outlined outline (saveCsv junk true e).files (Export.footprintName a kind) r := by
  obtain ⟨h1, h2⟩ := Export.C111_footprints junk e hF hn j hj a ha fps kind hk
  cases r with
  | none => exact h2 hr
  | some g =>
    have hd := h1 _ hr
    obtain ⟨n1, n2⟩ := Export.bindLabels_names (Export.boundaries junk (outline g)).length
    refine ⟨_, Export.boundaries junk (outline g), hd, rfl, ?_, ?_,
      Export.C80_exteriors_partial junk (outline g)⟩
    · rw [List.map_fst_zip (by simp [n2])]
      exact n1
    · rw [List.map_snd_zip (by simp [n2])]

/-- **C171, the true part.**  With different names for the algorithms, `footprint_performance.csv` has one
line for each algorithm, and the footprints it describes are those in the footprint files: there is a file
exactly if at least three different places are involved, and areas, densities and purities are computed from
the regions and the places in `coordinates.csv`.  The good footprint is about the instances marked in
`algorithm_bin.csv`, or in `algorithm_svm.csv` if PYTHIA's results are used; the best footprint about the
instances with the number of the algorithm in `portfolio_svm.csv` or, in `portfolio.csv`, with one less than
the number of the algorithm.  Missing for the full property: the number of the algorithm itself in
`portfolio.csv`. -/
theorem C171_partial [DecidableEq α] (hc : CompleteTrace env le te)
    (h : Succeeds lower numeric str num env t d) (hs : SavedAll tx outline d files)
    (hn : ∀ algos, d .algo_labels = some (.names algos) → algos.Nodup) :
    ∃ k algos, d .algo_labels = some (.names algos) ∧
      FootprintsAgree tx (te k).geo outline files algos (te k).useSim 0 := by
  obtain ⟨k, z, sel, p, beta, algo, yHat, yBin, o, a1, a2, a3, a4, a5, a6, a7, hfin, ho, g1, g2, g3⟩ :=
    trace_values hc h
  obtain ⟨k', x', y', feat', o', -, p2, -, -, p5, -⟩ := pilot_values hc.complete h
  obtain ⟨kc, xc, ac, rc, lc, c1, -, c3, -⟩ := cloister_values hc.complete h
  obtain ⟨junk, start, rest, late, e, m, hm, ht, hl, he, herr, rfl⟩ := hs
  have hF := (Export.C82_exact_partial junk e).1 herr
  obtain ⟨inst, x, y, xr, yr, yb, n, beta', p', -, e2, e3, e4, e5, -, e7, e8, -, e9, e10, -, e13, e14,
    e15, -, e17, e18, -, e20, e21⟩ := exportOf_eq hm he
  obtain ⟨r1, -, -, r4, r5, -⟩ := exportOf_rest he
  obtain ⟨z', ps, ze, zc, yh, sel', pys, l1, -, -, -, l5, l6, -, l8, -, -, l11, l12, -⟩ := lateOf_eq hm hl
  obtain ⟨s1, s2, s3, yn, s4, s5⟩ := exportOf_trace he
  obtain ⟨q1, q2, q3⟩ := lateOf_trace hl
  obtain ⟨good, best, f, t1, t2, t3, t4, t5, t6⟩ := traceOf_eq hm ht
  rw [a1] at l1; cases l1
  rw [a2] at l6; cases l6
  rw [a6] at l5; cases l5
  rw [a3] at e10; cases e10
  rw [a4] at e9; cases e9
  rw [a5] at e3
  simp only [Option.some.injEq, Val.names.injEq] at e3
  subst e3
  rw [a7] at e8; cases e8
  rw [g1] at t1; cases t1
  rw [g2] at t2; cases t2
  rw [g3] at t3; cases t3
  rw [e4] at c1; cases c1
  rw [e5] at p2; cases p2
  rw [readPart_attr (modelOf_parts hm).1.1 "y" .y rfl, e5] at s4
  cases s4
  have hez : e.z = z.rows.map (·.map tx.num) := by rw [r1, l8]
  have heh : e.yHat = yHat.map (·.map tx.bool) := by rw [r4, l11]
  have hes : e.selection0 = sel.map tx.count := by rw [r5, l12]
  have hz : z.rows.length = e.instLabels.length := by rw [← hF.z.1, hez, List.length_map]
  have hb : yBin.length = e.instLabels.length := by rw [← hF.yBin.1, e18, List.length_map]
  have hh : yHat.length = e.instLabels.length := by rw [← hF.yHat.1, heh, List.length_map]
  have hp : p.length = e.instLabels.length := by rw [← hF.p, e21, List.length_map]
  have hsel : sel.length = e.instLabels.length := by rw [← hF.selection0, hes, List.length_map]
  have hbeta : beta.length = e.instLabels.length := by rw [← hF.beta, e20, List.length_map]
  have hne : e.instLabels ≠ [] := by
    intro h0
    have hx := hF.x.1
    rw [h0, e14, List.length_map, List.length_nil] at hx
    have hx' := (List.length_ofFn (f := entries xc xc.rows.length xc.ncols)).symm.trans
      (congrArg List.length c3)
    rw [hx] at hx'
    cases hx'
  have hna : e.nalgos = e.algoLabels.length := by
    have h1 : e.y ≠ [] := by
      intro h0
      have := hF.y.1
      rw [h0] at this
      exact hne (List.length_eq_zero_iff.1 this.symm)
    obtain ⟨r, hr⟩ := List.exists_mem_of_ne_nil _ h1
    rw [s5, ← hF.y.2 r hr]
    rw [e15] at hr
    obtain ⟨r', hr', rfl⟩ := List.mem_map.1 hr
    rw [List.length_map, (noInfinity_mem p5).1 r' hr']
  obtain ⟨w1, w2, w3, w4, w5⟩ := footprints_regions (hc.laws k) (hc.order k) hz
    (y := if (te k).useSim then yHat else yBin) (best := if (te k).useSim then sel else p)
    (by split <;> assumption) (by split <;> assumption) hbeta ho
  have hrows : o.2.map (fun r => tx.word r.1) = e.algoLabels.map tx.word := by
    apply List.ext_getElem?
    intro i
    rw [List.getElem?_map, List.getElem?_map]
    cases hi : e.algoLabels[i]? with
    | none => rw [List.getElem?_eq_none (by rw [w3]; exact List.getElem?_eq_none_iff.1 hi)]; rfl
    | some a =>
      obtain ⟨_, _, _, -, -, h3, -⟩ := w5 i a hi
      rw [h3]
      rfl
  refine ⟨k, e.algoLabels, a5, e.instLabels, truth yBin, truth yHat, fun i => sel.getD i 0,
    fun i => p.getD i 0, ent z.rows, ⟨?_, ?_, ?_⟩, ?_, ?_, ⟨_, trace_frame junk hF (by rw [s3, q3, t6]),
      rfl, by rw [hrows]; exact List.mem_cons_self .., o.1.space.polygon, w4, ?_⟩⟩
  · have := (Export.C111_matrices junk e hF).2.2.2.2.1
    rw [e18] at this
    exact truths_of_holds this
  · have := (Export.C111_matrices junk e hF).2.2.2.2.2
    rw [heh] at this
    exact truths_of_holds this
  · have := (Export.C111_columns junk e hF).2.2.2
    rw [hes] at this
    exact counts_of_holds this
  · have := (Export.C111_columns junk e hF).2.2.1
    rw [e21] at this
    exact counts_of_holds this
  · have := (Export.C111_matrices junk e hF).1
    rw [hez] at this
    exact numbers_of_holds this (isFinite_mem hfin).2
  · intro j a ha
    have hj : j < e.algoLabels.length := (List.getElem?_eq_some_iff.1 ha).1
    obtain ⟨g, b, row, f1, f2, f3, f4, f5, v1, v3, v4, v6, v8, v9⟩ := w5 j a ha
    have hgood : (fun i => truth (if (te k).useSim then yHat else yBin) i j) =
        fun i => if (te k).useSim then truth yHat i j else truth yBin i j := by
      funext i
      cases (te k).useSim <;> rfl
    have hbest : (fun i => (if (te k).useSim then sel else p).getD i 0 == j) =
        fun i => if (te k).useSim then sel.getD i 0 == j else p.getD i 0 == j + 0 := by
      funext i
      cases (te k).useSim <;> rfl
    rw [hgood] at f4 v4
    rw [hbest] at f5 v9
    refine ⟨g.polygon, b.polygon, f4, f5, ⟨?_, ?_, ?_⟩, ⟨?_, ?_, ?_⟩, ?_, ?_⟩
    · exact under_col (c := 1) (by simp) f3 v1
    · exact under_col (c := 3) (by simp) f3 v3
    · exact under_col (c := 4) (by simp) f3 v4
    · exact under_col (c := 6) (by simp) f3 v6
    · exact under_col (c := 8) (by simp) f3 v8
    · exact under_col (c := 9) (by simp) f3 v9
    · refine outlined_of junk hF (hn _ a5) (by rw [hna]; exact hj) ha (.inr ⟨rfl, rfl⟩) ?_
      rw [s1, q1, t4, List.getElem?_map, f1]
      rfl
    · refine outlined_of junk hF (hn _ a5) (by rw [hna]; exact hj) ha (.inl ⟨rfl, rfl⟩) ?_
      rw [s2, q2, t5, List.getElem?_map, f2]
      rfl

/-! ### An example -/

/-- The coordinates of a point. -/
def pair (p : Fin 2 → ℚ) : ℚ × ℚ := (p 0, p 1)

/-- Geometries are finite sets of points of the plane, given as lists. -/
def dots : Trace.Geo (List (ℚ × ℚ)) (Fin 2 → ℚ) ℚ where
  empty := []
  isEmpty := List.isEmpty
  contains g p := g.contains (pair p)
  containsMulti g z := z.all fun p => g.contains (pair p)
  area g := g.length
  inter a b := a.filter fun p => b.contains p
  diff a b := a.filter fun p => !b.contains p
  union a b := a ++ b.filter fun p => !a.contains p
  geoms _ := none
  smooth g := g
  alpha l := l.map pair
  triangulate g := g.map fun p => [p]
  hull g := g
  unique l := (l.map pair).eraseDups.map fun q => ![q.1, q.2]
  near _ _ _ _ := true

theorem dots_laws : Trace.Laws dots where
  area_nonneg g := by simp [dots]
  area_zero g p h := by
    have h : (g.length : ℚ) = 0 := h
    have : g.length = 0 := by exact_mod_cast h
    rw [List.length_eq_zero_iff] at this
    subst this; rfl
  inter_left a b h := by
    have : a = [] := by simpa [dots] using h
    subst this; rfl
  inter_right a b h := by
    have : b = [] := by simpa [dots] using h
    subst this; simp [dots]
  diff_contains a b p h := by simpa [dots] using h
  hull_piece _ _ _ _ := rfl
  unique_length l := by
    show ((l.map pair).eraseDups.map _).length ≤ l.length
    rw [List.length_map, ← List.length_map (f := pair) (as := l)]
    generalize l.map pair = l
    induction h : l.length using Nat.strongRecOn generalizing l with
    | _ n ih =>
      cases l with
      | nil => simp
      | cons a l =>
        rw [List.eraseDups_cons, List.length_cons]
        simp only [List.length_cons] at h
        have hf := List.length_filter_le (fun b => !b == a) l
        have := ih _ (by omega) (l.filter fun b => !b == a) rfl
        omega

/-- A set of points is drawn as the ring through the points in order. -/
def dotsOutline (g : List (ℚ × ℚ)) : Geometry Entry :=
  .polygon ⟨(g ++ g.take 1).map fun q => (.num (.fin q.1), .num (.fin q.2)), []⟩

/-- TRACE with the experimental data; the second algorithm is finished first. -/
def exTrace (sim : Bool) (_ : Nat) : TraceEnv (List (ℚ × ℚ)) :=
  ⟨dots, 1 / 2, sim, fun n => (List.range n).reverse⟩

/-- The stages of `exLate` with TRACE. -/
def allLate (sim : Bool) (k : Nat) : Late Nat (Kept (List (ℚ × ℚ))) where
  pilotLib := (exLate k).pilotLib
  pilotOpts := (exLate k).pilotOpts
  pearson := (exLate k).pearson
  qhull := (exLate k).qhull
  pThr := (exLate k).pThr
  cThr := (exLate k).cThr
  pythiaLib := (exLate k).pythiaLib
  useWeights := (exLate k).useWeights
  fitted := (exLate k).fitted
  fill _ := .nothing
  trace := runTrace (exTrace sim k)

/-- Maximise, good means at least 2. -/
def allEnv (sim : Bool) : Env Nat (Kept (List (ℚ × ℚ))) where
  feats := none
  algos := none
  prelim := lateEnv.prelim
  junk := lateEnv.junk
  tr := id
  mid := (.nan, .nan)
  fit := fun _ => (0, 0, 0)
  subset := noSubset
  tests := lateEnv.tests
  split := none
  file := none
  lib := lateEnv.lib
  pearson := lateEnv.pearson
  thr := 0
  clusters := 2
  fill _ := .nothing
  rest k s vs := runLate (allLate sim k) s vs

/-- Six instances with two features and two algorithms. -/
def traceTable : Table Nat :=
  ⟨6, [("instances", [10, 11, 12, 13, 14, 15]), ("feature_a", [1, 2, 3, 1, 2, 5]),
    ("feature_b", [1, 5, 2, 4, 1, 3]), ("algo_p", [4, 1, 3, 1, 3, 4]), ("algo_q", [1, 5, 1, 1, 2, 1])]⟩

/-- The run on the six instances. -/
def allRun (sim : Bool) :
    Except (Runner.RunError Name Err) (Dict Name (Val Nat (Kept (List (ℚ × ℚ))))) :=
  Runner.contents (Runner.runAll (runner defaultStages Pipeline.defaultSchedule (run (allEnv sim)))
    Runner.State.init
    (args (allEnv sim) lateNum (fromDataFrame id (fun _ => false) id traceTable)))

/-- The files after the run, `none` if something raises. -/
def allFiles (sim : Bool) :
    Option (Dict Name (Val Nat (Kept (List (ℚ × ℚ)))) × List (String × Export.File Entry)) :=
  (allRun sim).toOption.bind fun d => (modelOf d ()).toOption.bind fun m =>
    (traceOf lateText dotsOutline lateRest m).bind fun rest => (lateOf lateText rest m).bind fun late =>
      (exportOf lateText late m).bind fun e =>
        if (saveCsv (.word "", .word "") true e).error.isNone then
          some (d, (saveCsv (.word "", .word "") true e).files) else none

theorem all_complete (sim : Bool) : CompleteTrace (allEnv sim) (allLate sim) (exTrace sim) where
  stages _ _ _ := rfl
  trace _ := rfl
  laws _ := dots_laws
  order _ _ := List.reverse_perm _

theorem all_saved {sim : Bool} {d : Dict Name (Val Nat (Kept (List (ℚ × ℚ))))}
    {files : List (String × Export.File Entry)} (h : allFiles sim = some (d, files)) :
    Succeeds id (fun _ => false) id lateNum (allEnv sim) traceTable d ∧
      SavedAll lateText dotsOutline d files := by
  unfold allFiles at h
  cases hr : allRun sim with
  | error e => rw [hr] at h; cases h
  | ok d' =>
    rw [hr] at h
    simp only [Except.toOption, Option.bind_some] at h
    cases hm : modelOf d' () with
    | error e => rw [hm] at h; cases h
    | ok m =>
      rw [hm] at h
      dsimp only [Option.bind_some] at h
      cases ht : traceOf lateText dotsOutline lateRest m with
      | none => rw [ht] at h; cases h
      | some rest =>
      rw [ht] at h
      simp only [Option.bind_some] at h
      cases hl : lateOf lateText rest m with
      | none => rw [hl] at h; cases h
      | some late =>
      rw [hl] at h
      simp only [Option.bind_some] at h
      cases he : exportOf lateText late m with
      | none => rw [he] at h; cases h
      | some e =>
        rw [he] at h
        simp only [Option.bind_some] at h
        by_cases herr : (saveCsv (.word "", .word "") true e).error.isNone
        · rw [if_pos herr] at h
          simp only [Option.some.injEq, Prod.mk.injEq] at h
          obtain ⟨rfl, rfl⟩ := h
          exact ⟨⟨defaultStages, Pipeline.listOrder, Pipeline.defaultSchedule, [], .refl _,
            Pipeline.default_once, hr⟩, _, _, _, _, _, m, hm, ht, hl, he, by simpa using herr, rfl⟩
        · rw [if_neg herr] at h
          cases h

/-- The labels of the algorithms in the output. -/
def algosOf (d : Dict Name (Val Nat (Kept (List (ℚ × ℚ))))) : Option (List String) :=
  match d .algo_labels with
  | some (.names l) => some l
  | _ => none

/-- The files of the run with the experimental data. -/
theorem all_run : ∃ d files, Succeeds id (fun _ => false) id lateNum (allEnv false) traceTable d ∧
    SavedAll lateText dotsOutline d files ∧ d .algo_labels = some (.names ["algo_p", "algo_q"]) ∧
    shapeOf files "portfolio.csv" = some (1, [nums [1], nums [2], nums [1], nums [1], nums [1], nums [1]]) ∧
    shapeOf files "coordinates.csv" = some (2, [nums [3, 1], nums [12, 5], nums [7, 2], nums [9, 4], nums [4, 1],
      nums [11, 3]]) ∧
    (files.any fun q => q.1 == Export.footprintName "algo_p" "best") = false ∧
    shapeOf files (Export.footprintName "algo_q" "best") =
      some (2, [nums [3, 1], nums [7, 2], nums [9, 4], nums [4, 1], nums [11, 3]]) ∧
    (frameOf files "footprint_performance.csv").map (·.drop 4) =
      some [("Area_Best_Normalised", nums [0, 5 / 6]), ("Density_Best_Normalised", nums [0, 1]),
        ("Purity_Best", nums [0, 1])] := by
  have e1 : ((allFiles false).bind fun p => algosOf p.1) = some ["algo_p", "algo_q"] := by
    decide +kernel
  have e2 : ((allFiles false).bind fun p => shapeOf p.2 "portfolio.csv") =
      some (1, [nums [1], nums [2], nums [1], nums [1], nums [1], nums [1]]) := by decide +kernel
  have e3 : ((allFiles false).bind fun p => shapeOf p.2 "coordinates.csv") =
      some (2, [nums [3, 1], nums [12, 5], nums [7, 2], nums [9, 4], nums [4, 1],
      nums [11, 3]]) := by decide +kernel
  have e4 : ((allFiles false).bind fun p => some
      (p.2.any fun q => q.1 == Export.footprintName "algo_p" "best")) = some false := by decide +kernel
  have e5 : ((allFiles false).bind fun p => shapeOf p.2 (Export.footprintName "algo_q" "best")) =
      some (2, [nums [3, 1], nums [7, 2], nums [9, 4], nums [4, 1], nums [11, 3]]) := by decide +kernel
  have e6 : ((allFiles false).bind fun p => (frameOf p.2 "footprint_performance.csv").map (·.drop 4)) =
      some [("Area_Best_Normalised", nums [0, 5 / 6]), ("Density_Best_Normalised", nums [0, 1]),
        ("Purity_Best", nums [0, 1])] := by decide +kernel
  cases hz : allFiles false with
  | none => rw [hz] at e1; cases e1
  | some p =>
    obtain ⟨d, files⟩ := p
    rw [hz] at e1 e2 e3 e4 e5 e6
    simp only [Option.bind_some] at e1 e2 e3 e4 e5 e6
    obtain ⟨h1, h2⟩ := all_saved hz
    refine ⟨d, files, h1, h2, ?_, e2, e3, by simpa using e4, e5, e6⟩
    unfold algosOf at e1
    split at e1
    · rename_i l hl
      cases e1
      exact hl
    · cases e1

/-- The full claim: the best footprint of an algorithm is about the instances on which, according to
`portfolio.csv` with its numbers from 1, the algorithm is best. -/
def FootprintsReadable : Prop :=
  ∀ (lower : String → String) (numeric : Squeezed Nat → Bool) (num : Nat → Num)
    (env : Env Nat (Kept (List (ℚ × ℚ)))) (le : Nat → Late Nat (Kept (List (ℚ × ℚ))))
    (te : Nat → TraceEnv (List (ℚ × ℚ))) (t : Table Nat)
    (d : Dict Name (Val Nat (Kept (List (ℚ × ℚ))))) (tx : Text Nat Entry)
    (outline : List (ℚ × ℚ) → Geometry Entry) (files : List (String × Export.File Entry)),
    CompleteTrace env le te → Succeeds lower numeric id num env t d → SavedAll tx outline d files →
    (∀ algos, d .algo_labels = some (.names algos) → algos.Nodup) →
    ∃ k algos, d .algo_labels = some (.names algos) ∧
      FootprintsAgree tx (te k).geo outline files algos (te k).useSim 1

/-- **C171.**  `portfolio.csv` says that the first algorithm is the best on five of the six instances, and
there is no best footprint of the first algorithm. -/
theorem C171_refuted : ¬ FootprintsReadable := by
  intro hall
  obtain ⟨d, files, h1, h2, e1, e2, e3, e4, -⟩ := all_run
  obtain ⟨k, algos, ha, names, b, h, sel, p, z, hp, hport, hz, ht⟩ :=
    hall _ _ _ _ _ _ _ _ _ _ _ (all_complete false) h1 h2 (by
      intro algos ha
      rw [e1] at ha
      cases ha
      decide)
  rw [e1] at ha
  cases ha
  obtain ⟨f, -, -, -, s, -, hrow⟩ := ht.table
  obtain ⟨g, b', -, hb, -, -, -, hfile⟩ := hrow 0 "algo_p" rfl
  obtain ⟨-, hn, hpc⟩ := shape_cells hport e2
  obtain ⟨-, -, hzc⟩ := shape_cells hz e3
  have hnum : ∀ i : Nat, i < 6 → ∀ (v : ℚ), some (nums [v]) = [nums [1], nums [2], nums [1], nums [1], nums [1], nums [1]][i]? →
      (p i : ℚ) = v := by
    intro i hi v hv
    have := hpc i 0 hi (by decide)
    rw [← hv] at this
    simpa [lateText, nums] using this
  have hp0 : p 0 = 1 := by exact_mod_cast hnum 0 (by decide) 1 rfl
  have hp1 : p 1 = 2 := by exact_mod_cast hnum 1 (by decide) 2 rfl
  have hp2 : p 2 = 1 := by exact_mod_cast hnum 2 (by decide) 1 rfl
  have hp3 : p 3 = 1 := by exact_mod_cast hnum 3 (by decide) 1 rfl
  have hp4 : p 4 = 1 := by exact_mod_cast hnum 4 (by decide) 1 rfl
  have hp5 : p 5 = 1 := by exact_mod_cast hnum 5 (by decide) 1 rfl
  have hz0 : z 0 0 = 3 := by simpa [lateText, nums] using hzc 0 0 (by decide) (by decide)
  have hz2 : z 2 0 = 7 := by simpa [lateText, nums] using hzc 2 0 (by decide) (by decide)
  have hz3 : z 3 0 = 9 := by simpa [lateText, nums] using hzc 3 0 (by decide) (by decide)
  have hz4 : z 4 0 = 4 := by simpa [lateText, nums] using hzc 4 0 (by decide) (by decide)
  have hz5 : z 5 0 = 11 := by simpa [lateText, nums] using hzc 5 0 (by decide) (by decide)
  have hsome : b'.isSome := by
    refine hb.2 ?_
    have hn6 : names.length = 6 := hn
    have hf : ((List.range names.length).filter fun i =>
        if (exTrace false k).useSim then sel i == 0 else p i == 0 + 1) = [0, 2, 3, 4, 5] := by
      rw [hn6]
      simp [exTrace, List.range_succ, hp0, hp1, hp2, hp3, hp4, hp5]
    rw [hf]
    change 3 ≤ ((([(z 0 0, z 0 1), (z 2 0, z 2 1), (z 3 0, z 3 1), (z 4 0, z 4 1),
      (z 5 0, z 5 1)] : List (ℚ × ℚ)).eraseDups.map
      fun q => ![q.1, q.2]) : List (Fin 2 → ℚ)).length
    simp [List.eraseDups_cons, hz0, hz2, hz3, hz4, hz5]
  cases b' with
  | none => cases hsome
  | some r =>
    obtain ⟨tb, vs, h3, -⟩ := hfile
    rw [Export.onDisk_none] at h3
    · cases h3
    · intro hm
      obtain ⟨q, hq, hqn⟩ := List.mem_map.1 hm
      rw [List.any_eq_false] at e4
      exact e4 q hq (by simp [hqn])

/-- Non-vacuity: the run on the six instances meets the hypotheses, with the experimental data and with
PYTHIA's results. -/
example : (∀ sim, CompleteTrace (allEnv sim) (allLate sim) (exTrace sim)) ∧
    ∀ sim, ∃ d files, Succeeds id (fun _ => false) id lateNum (allEnv sim) traceTable d ∧
      SavedAll lateText dotsOutline d files := by
  refine ⟨all_complete, fun sim => ?_⟩
  have e : (allFiles sim).isSome = true := by cases sim <;> decide +kernel
  cases hz : allFiles sim with
  | none => rw [hz] at e; cases e
  | some p => exact ⟨p.1, p.2, all_saved hz⟩

/-- The outline of a footprint in the run is a closed ring. -/
example : ∀ p ∈ (dotsOutline [(3, 1), (7, 2), (9, 4)]).parts, Export.ClosedRing p.exterior := by
  intro p hp
  simp only [dotsOutline, Geometry.parts, List.mem_singleton] at hp
  subst hp
  exact ⟨(.num (.fin 3), .num (.fin 1)), [(.num (.fin 7), .num (.fin 2)), (.num (.fin 9), .num (.fin 4))],
    rfl, by decide +kernel⟩

end Verif.EndToEnd
