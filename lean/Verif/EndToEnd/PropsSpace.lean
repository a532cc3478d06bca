import Verif.EndToEnd.SpaceLemmas
import Verif.EndToEnd.PropsOrder
import Verif.EndToEnd.PropsTrace
import Mathlib.Data.Prod.Lex
/-!
# C187: the order of the rows of the metadata table and the instance space
-/
set_option autoImplicit false
set_option linter.unusedSectionVars false

namespace Verif.EndToEnd

open Verif (Num)
open Verif.Pipeline (Stg Name outputs defaultStages runner)
open Verif.Metadata (Table Squeezed fromDataFrame)
open Verif.Preprocessing (Mat pick)
open Verif.Runner (Dict)

variable {V G : Type} {lower : String → String} {numeric : Squeezed V → Bool} {str : V → V}
  {num : V → Num} {env : Env V (Kept G)} {le : Nat → Late V (Kept G)} {te : Nat → TraceEnv G}
  {t : Table V} {labels : List V} {σ : List Nat} {d d' : Dict Name (Val V (Kept G))}

/-- The libraries that PILOT, CLOISTER and TRACE use answer alike in every execution, and do not look at
the order of the instances: eigenvectors, inverses, the optimiser and the random starting points do not
see the instances, the correlation of distances compares the same pairs, `pearsonr` is a function of the
pairs of numbers, and `np.unique` sorts.  Nothing is said about PYTHIA's models. -/
structure OrderBlindLate (le : Nat → Late V (Kept G)) (te : Nat → TraceEnv G) : Prop where
  pilot : ∀ (k k' : Nat) {p n q : Nat} (ρ : Equiv.Perm (Fin p)) (x : Matrix (Fin p) (Fin n) ℚ),
    ((le k').pilotLib (Pilot.reorder ρ x) : Pilot.Lib ℚ p n q) = ((le k).pilotLib x).reordered ρ
  options : ∀ k k', (le k').pilotOpts = (le k).pilotOpts
  pearson : ∀ (k k' : Nat) {m : Nat} (l l' : List (Fin m → ℚ)), l.Perm l' →
    (le k').pearson l' = (le k).pearson l
  qhull : ∀ k k', (le k').qhull = (le k).qhull
  thresholds : ∀ k k', (le k').pThr = (le k).pThr ∧ (le k').cThr = (le k).cThr
  geometry : ∀ k k', (te k').geo = (te k).geo
  purity : ∀ k k', (te k').purity = (te k).purity
  useSim : ∀ k k', (te k').useSim = (te k).useSim
  unique : ∀ k, Trace.UniqueSorts (te k).geo

/-- What PILOT and CLOISTER say about the space as a whole. -/
def spaceResults : List Name := [.a, .b, .c, .pilot_summary, .z_edge, .z_ecorr]

/-- The footprints and their summary. -/
def footprintResults : List Name := [.space, .hard, .good, .best, .trace_summary]

/-- **C187.**  Two runs of the whole pipeline, the second on the table with its rows in another order.  If
SIFTED selects the same features, the second run has the same projection matrices, the same summary and
the same boundaries, the coordinates of the instances are the same in the same new order `τ` as all
other data of the instances (C165), and the footprints, their measures and their summary are the same -
for the footprints from PYTHIA's predictions if the predictions are the same. -/
theorem C187_space (hc : CompleteTrace env le te) (hb : OrderBlindLate le te)
    (ho : Ordinary lower env t labels) (hσ : σ.Perm (List.range t.nrows))
    (htr : Prelim.OrderBlind env.tr)
    (hnum : numeric (.series (pick labels σ)) = numeric (.series labels))
    (h : Succeeds lower numeric str num env t d)
    (h' : Succeeds lower numeric str num env (reordered σ t) d')
    (hsel : d' .selvars = d .selvars) :
    ∃ (n : Nat) (τ : List Nat), τ.Perm (List.range n) ∧
      (∀ name ∈ .x :: .z :: perInstance, SameInOrder τ n (d name) (d' name)) ∧
      (∀ name ∈ spaceResults, d' name = d name) ∧
      (((te 0).useSim = true → SameInOrder τ n (d .y_hat) (d' .y_hat) ∧
          SameInOrder τ n (d .selection0) (d' .selection0)) →
        ∀ name ∈ footprintResults, d' name = d name) := by
  obtain ⟨n, τ, hτ, hrows, halgo, hx⟩ := C165_rows_partial ho hσ htr hnum h h'
  obtain ⟨hfeat, hx⟩ := hx hsel
  have hy := hrows .y (by decide)
  -- PILOT
  obtain ⟨k, x, y, feat, o, a1, a2, a3, a4, a5, a6, a7, a8, a9, a10⟩ := pilot_tables hc.complete h
  obtain ⟨k', x', y', feat', o', b1, b2, b3, b4, b5, b6, b7, b8, b9, b10⟩ := pilot_tables hc.complete h'
  obtain ⟨wx, x1, x2, x3⟩ := hx
  obtain ⟨wy, y1, y2, y3⟩ := hy
  rw [a1] at x1
  rw [a2] at y1
  cases x1
  cases y1
  rw [b1] at x3
  rw [b2] at y3
  simp only [inOrder, Option.some.injEq, Val.table.injEq] at x3 y3
  have hxn : x.rows.length = n := x2
  have hyn : y.rows.length = n := y2
  obtain rfl : feat' = feat := by
    rw [a3, b3] at hfeat
    injection hfeat with hfeat
    injection hfeat
  rw [hb.options k k'] at b5
  obtain ⟨e1, e2, e3, e4, e5⟩ := pilot_reordered (lib := (le k).pilotLib) (lib' := (le k').pilotLib)
    (hb.pilot k k') hτ hxn hyn x3 y3 a5 b5
  have hz : SameInOrder τ n (d .z) (d' .z) := by
    refine ⟨_, a7, ?_, ?_⟩
    · show (tableOf o.z).rows.length = n
      simp [tableOf, hxn]
    · rw [b7, e2]
      rfl
  -- CLOISTER
  obtain ⟨i, u, a, r, l, c1, c2, c3, c4, c5⟩ := cloister_values hc.complete h
  obtain ⟨i', u', a', r', l', d1, d2, d3, d4, d5⟩ := cloister_values hc.complete h'
  obtain rfl : x = u := by rw [a1] at c1; cases c1; rfl
  obtain rfl : x' = u' := by rw [b1] at d1; cases d1; rfl
  obtain rfl : a' = a := by
    rw [a6] at c2
    rw [b6, e1] at d2
    cases c2; cases d2; rfl
  rw [hb.qhull i i', (hb.thresholds i i').1, (hb.thresholds i i').2,
    cloister_reordered (pearson := (le i).pearson) hτ hxn x3 (hb.pearson i i') c3 d3] at d4 d5
  refine ⟨n, τ, hτ, ?_, ?_, ?_⟩
  · intro name hname
    rcases List.mem_cons.1 hname with rfl | hname
    · exact ⟨_, a1, x2, by rw [b1, x3]; rfl⟩
    rcases List.mem_cons.1 hname with rfl | hname
    · exact hz
    · exact hrows name hname
  · intro name hname
    simp only [spaceResults, List.mem_cons, List.not_mem_nil, or_false] at hname
    rcases hname with rfl | rfl | rfl | rfl | rfl | rfl
    · rw [a6, b6, e1]
    · rw [a8, b8, e3]
    · rw [a9, b9, e4]
    · rw [a10, b10, e5]
    · rw [c4, d4]
    · rw [c5, d5]
  · -- TRACE
    intro hsim
    obtain ⟨j, z, sel, p, beta, algo, yHat, yBin, q, p1, p2, p3, p4, p5, p6, p7, p8, p9⟩ :=
      trace_results hc h
    obtain ⟨j', z', sel', p', beta', algo', yHat', yBin', q', q1, q2, q3, q4, q5, q6, q7, q8, q9⟩ :=
      trace_results hc h'
    obtain rfl : algo' = algo := by
      rw [p5, q5] at halgo
      cases halgo; rfl
    obtain ⟨w, w1, w2, w3⟩ := hz
    rw [p1] at w1
    cases w1
    rw [q1] at w3
    cases w3
    obtain ⟨w, w1, w4, w3⟩ := hrows .p (by decide)
    rw [p3] at w1
    cases w1
    rw [q3] at w3
    cases w3
    obtain ⟨w, w1, w5, w3⟩ := hrows .beta (by decide)
    rw [p4] at w1
    cases w1
    rw [q4] at w3
    cases w3
    obtain ⟨w, w1, w6, w3⟩ := hrows .y_bin (by decide)
    rw [p7] at w1
    cases w1
    rw [q7] at w3
    cases w3
    dsimp only at q8
    have hzl : (z.rows.map place).length = n := by rw [List.length_map]; exact w2
    rw [hb.useSim j j', ← Preprocessing.pick_map] at q8
    have key : q' = q := by
      cases hs : (te j).useSim with
      | false =>
        rw [hs] at p8 q8
        exact footprints_reordered (hc.laws j) (hb.unique j) (hb.geometry j j') (hb.purity j j')
          (hc.order j) (hc.order j') hτ hzl w6 w4 w5 p8 q8
      | true =>
        rw [hs] at p8 q8
        obtain ⟨⟨u, u1, u2, u3⟩, v, v1, v2, v3⟩ := hsim (by rw [hb.useSim j 0]; exact hs)
        rw [p6] at u1
        cases u1
        rw [q6] at u3
        cases u3
        rw [p2] at v1
        cases v1
        rw [q2] at v3
        cases v3
        exact footprints_reordered (hc.laws j) (hb.unique j) (hb.geometry j j') (hb.purity j j')
          (hc.order j) (hc.order j') hτ hzl u2 v2 w5 p8 q8
    obtain ⟨p9, p10, p11, p12, p13⟩ := p9
    obtain ⟨q9, q10, q11, q12, q13⟩ := q9
    intro name hname
    simp only [footprintResults, List.mem_cons, List.not_mem_nil, or_false] at hname
    rcases hname with rfl | rfl | rfl | rfl | rfl
    · rw [p9, q9, key]
    · rw [p10, q10, key]
    · rw [p11, q11, key]
    · rw [p12, q12, key]
    · rw [p13, q13, key]

/-! ### An example -/

/-- Lexicographic order of points, in which `np.unique` sorts. -/
def before (a b : ℚ × ℚ) : Prop := a.1 < b.1 ∨ a.1 = b.1 ∧ a.2 ≤ b.2

instance : DecidableRel before := fun a b => by unfold before; infer_instance

instance : Std.Total before := ⟨fun a b => by
  unfold before
  rcases lt_trichotomy a.1 b.1 with h | h | h
  · exact .inl (.inl h)
  · rcases le_total a.2 b.2 with h2 | h2
    · exact .inl (.inr ⟨h, h2⟩)
    · exact .inr (.inr ⟨h.symm, h2⟩)
  · exact .inr (.inl h)⟩

instance : IsTrans (ℚ × ℚ) before := ⟨fun a b c h h' => by
  unfold before at *
  rcases h with h | ⟨h, h2⟩ <;> rcases h' with h' | ⟨h', h2'⟩
  · exact .inl (h.trans h')
  · exact .inl (h.trans_eq h')
  · exact .inl (h.trans_lt h')
  · exact .inr ⟨h.trans h', h2.trans h2'⟩⟩

instance : Std.Antisymm before := ⟨fun a b h h' => by
  unfold before at *
  rcases h with h | ⟨h, h2⟩ <;> rcases h' with h' | ⟨h', h2'⟩
  · exact absurd h h'.asymm
  · exact absurd h' h.ne'
  · exact absurd h h'.ne'
  · exact Prod.ext h (le_antisymm h2 h2')⟩

/-- The geometry of `dots` with sorted distinct points. -/
def sortedDots : Trace.Geo (List (ℚ × ℚ)) (Fin 2 → ℚ) ℚ :=
  { dots with unique := fun l => ((l.map pair).eraseDups.insertionSort before).map fun q => ![q.1, q.2] }

theorem sortedDots_laws : Trace.Laws sortedDots ∧ Trace.UniqueSorts sortedDots := by
  have h := dots_laws
  refine ⟨⟨h.area_nonneg, h.area_zero, h.inter_left, h.inter_right, h.diff_contains, ?_,
    h.hull_piece⟩, ?_⟩
  · intro l
    have := h.unique_length l
    simp only [dots, List.length_map] at this
    simpa [sortedDots] using this
  · intro l l' hl
    have hp : (l.map pair).eraseDups.Perm (l'.map pair).eraseDups := by
      rw [List.perm_ext_iff_of_nodup (Trace.nodup_eraseDups _) (Trace.nodup_eraseDups _)]
      intro q
      simp only [List.mem_eraseDups, List.mem_map, hl]
    show List.map _ _ = List.map _ _
    congr 1
    apply List.Perm.eq_of_pairwise' (r := before)
    · exact List.pairwise_insertionSort _ _
    · exact List.pairwise_insertionSort _ _
    · exact (List.perm_insertionSort _ _).trans (hp.trans (List.perm_insertionSort _ _).symm)

/-- TRACE with the sorted points, on the experimental data; the order of the algorithms differs from
execution to execution. -/
def spaceTrace (k : Nat) : TraceEnv (List (ℚ × ℚ)) :=
  ⟨sortedDots, 1 / 2, false, fun n => if k % 2 = 0 then List.range n else (List.range n).reverse⟩

/-- The stages of `allLate` with this TRACE. -/
def spaceLate (k : Nat) : Late Nat (Kept (List (ℚ × ℚ))) :=
  { allLate false k with trace := runTrace (spaceTrace k) }

/-- The pipeline with them. -/
def spaceEnv : Env Nat (Kept (List (ℚ × ℚ))) :=
  { allEnv false with rest := fun k s vs => runLate (spaceLate k) s vs }

/-- The run on the six instances in the order `σ`. -/
def spaceRun (σ : List Nat) :
    Except (Runner.RunError Name Err) (Dict Name (Val Nat (Kept (List (ℚ × ℚ))))) :=
  Runner.contents (Runner.runAll (runner defaultStages Pipeline.defaultSchedule (run spaceEnv))
    Runner.State.init
    (args spaceEnv lateNum (fromDataFrame id (fun _ => false) id (reordered σ traceTable))))

/-- Coordinates, the polygons of the good footprints, the selected features. -/
def spaceDigest (r : Except (Runner.RunError Name Err) (Dict Name (Val Nat (Kept (List (ℚ × ℚ)))))) :
    Option (List (List Num) × List (Option (List (ℚ × ℚ))) × List Nat) :=
  match r with
  | .ok d => match d .z, d .good, d .selvars with
    | some (.table z), some (.other (.footprints l)), some (.counts s) =>
      some (z.rows, l.map (·.polygon), s)
    | _, _, _ => none
  | .error _ => none

/-- Rows of finite numbers. -/
def coords (l : List (List ℚ)) : List (List Num) := l.map (·.map .fin)

theorem space_complete : CompleteTrace spaceEnv spaceLate spaceTrace := by
  refine ⟨fun _ _ _ => rfl, fun _ => rfl, fun _ => sortedDots_laws.1, fun k n => ?_⟩
  unfold spaceTrace
  dsimp only
  split
  · exact .refl _
  · exact List.reverse_perm _

theorem space_ordinary : Ordinary id spaceEnv traceTable [10, 11, 12, 13, 14, 15] where
  rect := by
    intro c hc
    simp only [traceTable, List.mem_cons, List.not_mem_nil, or_false] at hc
    rcases hc with rfl | rfl | rfl | rfl | rfl <;> rfl
  distinct := by decide
  several := by decide
  labels := ⟨"instances", by decide +kernel⟩
  sources := by decide +kernel
  tuples := space_complete.complete.tuples
  noFraction := by simp [Prelim.UsesFraction, spaceEnv, allEnv, noSubset]
  noFile := by simp [Prelim.UsesFile, spaceEnv, allEnv, noSubset]
  noDensity := by simp [Prelim.UsesDensity, Prelim.AsksDensity, spaceEnv, allEnv, noSubset]

theorem space_succeeds (σ : List Nat) {d : Dict Name (Val Nat (Kept (List (ℚ × ℚ))))}
    (h : spaceRun σ = .ok d) :
    Succeeds id (fun _ => false) id lateNum spaceEnv (reordered σ traceTable) d :=
  ⟨defaultStages, Pipeline.listOrder, Pipeline.defaultSchedule, [], .refl _, Pipeline.default_once, h⟩

set_option synthInstance.maxSize 1024 in
/-- Non-vacuity: six instances and their reverse meet the hypotheses, the same features are selected, the
coordinates come out reversed, and the footprints are the same. -/
example : CompleteTrace spaceEnv spaceLate spaceTrace ∧ OrderBlindLate spaceLate spaceTrace ∧
    Ordinary id spaceEnv traceTable [10, 11, 12, 13, 14, 15] ∧ Prelim.OrderBlind spaceEnv.tr ∧
    (∃ d, Succeeds id (fun _ => false) id lateNum spaceEnv (reordered [0, 1, 2, 3, 4, 5] traceTable) d) ∧
    (∃ d, Succeeds id (fun _ => false) id lateNum spaceEnv (reordered [5, 4, 3, 2, 1, 0] traceTable) d) ∧
    reordered [0, 1, 2, 3, 4, 5] traceTable = traceTable ∧
    spaceDigest (spaceRun [0, 1, 2, 3, 4, 5]) = some (
      coords [[3, 1], [12, 5], [7, 2], [9, 4], [4, 1], [11, 3]],
      [some [(3, 1), (4, 1), (7, 2), (11, 3)], none], [0, 1]) ∧
    spaceDigest (spaceRun [5, 4, 3, 2, 1, 0]) = some (
      coords [[11, 3], [4, 1], [9, 4], [7, 2], [12, 5], [3, 1]],
      [some [(3, 1), (4, 1), (7, 2), (11, 3)], none], [0, 1]) := by
  have e1 : spaceDigest (spaceRun [0, 1, 2, 3, 4, 5]) = some (
      coords [[3, 1], [12, 5], [7, 2], [9, 4], [4, 1], [11, 3]],
      [some [(3, 1), (4, 1), (7, 2), (11, 3)], none], [0, 1]) := by decide +kernel
  have e2 : spaceDigest (spaceRun [5, 4, 3, 2, 1, 0]) = some (
      coords [[11, 3], [4, 1], [9, 4], [7, 2], [12, 5], [3, 1]],
      [some [(3, 1), (4, 1), (7, 2), (11, 3)], none], [0, 1]) := by decide +kernel
  refine ⟨space_complete,
    ⟨fun _ _ _ _ _ _ _ => rfl, fun _ _ => rfl, fun _ _ _ _ _ _ => rfl, fun _ _ => rfl,
      fun _ _ => ⟨rfl, rfl⟩, fun _ _ => rfl, fun _ _ => rfl, fun _ _ => rfl, fun _ => sortedDots_laws.2⟩,
    space_ordinary, id_orderBlind, ?_, ?_, by decide +kernel, e1, e2⟩
  · cases hd : spaceRun [0, 1, 2, 3, 4, 5] with
    | error e => rw [hd] at e1; cases e1
    | ok d => exact ⟨d, space_succeeds _ hd⟩
  · cases hd : spaceRun [5, 4, 3, 2, 1, 0] with
    | error e => rw [hd] at e2; cases e2
    | ok d => exact ⟨d, space_succeeds _ hd⟩

end Verif.EndToEnd
