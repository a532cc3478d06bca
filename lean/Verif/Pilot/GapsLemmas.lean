import Verif.Pilot.Gaps
import Verif.Pilot.PropsRows
/-! Lemmas about PILOT with missing performances. -/
set_option autoImplicit false
set_option linter.unusedSectionVars false

namespace Verif.Pilot

open Matrix

variable {K : Type} [Field K] [LinearOrder K] [IsStrictOrderedRing K] {p n q : Nat}

theorem isThere_none {gap : Fin p → Fin q → Bool} (h : anyGap gap = false) (i : Fin p) (j : Fin (n + q)) :
    isThere gap i j = true := by
  have h' : ∀ i j, gap i j = false := by
    intro i j
    by_contra hg
    exact absurd (show anyGap gap = true from decide_eq_true ⟨i, j, by simpa using hg⟩) (by simp [h])
  unfold isThere
  refine Fin.addCases (fun k => ?_) (fun k => ?_) j
  · simp
  · simp [h']

theorem errorGaps_none {gap : Fin p → Fin q → Bool} (h : anyGap gap = false)
    (xbar : Matrix (Fin p) (Fin (n + q)) K) : errorGaps xbar gap = errorFunction xbar := by
  funext alpha
  unfold errorGaps errorFunction
  simp [isThere_none h]

theorem numericalSolve_onGaps (lib : Lib K p n q) {gap : Fin p → Fin q → Bool} (h : anyGap gap = false)
    (x : Matrix (Fin p) (Fin n) K) (y : Matrix (Fin p) (Fin q) K) (x0 : List (Fin (len n q) → K)) (t : Nat) :
    numericalSolve (lib.onGaps x y gap) x (xBar x y) x0 t = numericalSolve lib x (xBar x y) x0 t := by
  unfold numericalSolve Lib.onGaps
  simp only [errorGaps_none h]

/-- Without gaps nothing changes. -/
theorem pilotGaps_none (lib : Lib K p n q) {gap : Fin p → Fin q → Bool} (h : anyGap gap = false)
    (x : Matrix (Fin p) (Fin n) K) (y : Matrix (Fin p) (Fin q) K) (labels : List String) (opts : Options K n q) :
    pilotGaps lib x y gap labels opts = pilot lib x y labels opts := by
  unfold pilotGaps
  rw [h, Bool.and_false, if_neg (by simp)]
  have e : ∀ x0, numericalSolve (lib.onGaps x y gap) x (xBar x y) x0 opts.nTries =
      numericalSolve lib x (xBar x y) x0 opts.nTries := fun x0 => numericalSolve_onGaps lib h x y x0 _
  have e' : analyticSolve (lib.onGaps x y gap) x (xBar x y) = analyticSolve lib x (xBar x y) := rfl
  unfold pilot
  simp only [e, e']
  rfl

theorem gapError_none {gap : Fin p → Fin q → Bool} (h : anyGap gap = false) (o : Out K p n q) :
    gapError gap o = some o.error := by simp [gapError, h]

theorem gapR2_none {gap : Fin p → Fin q → Bool} (h : anyGap gap = false) (o : Out K p n q) :
    gapR2 gap o = o.r2 := by
  have h' : ∀ i j, ¬ gap i j = true := by
    intro i j hg
    exact absurd (show anyGap gap = true from decide_eq_true ⟨i, j, hg⟩) (by simp [h])
  simp only [gapR2, h', exists_false, if_false]
  apply List.ext_getElem?
  intro i
  simp

/-- A result with gaps is one of PILOT with another optimiser; in analytic mode there are no gaps. -/
theorem pilotGaps_ok {lib : Lib K p n q} {x : Matrix (Fin p) (Fin n) K} {y : Matrix (Fin p) (Fin q) K}
    {gap : Fin p → Fin q → Bool} {labels : List String} {opts : Options K n q} {o : Out K p n q}
    (h : pilotGaps lib x y gap labels opts = .ok o) :
    pilot (lib.onGaps x y gap) x y labels opts = .ok o ∧ (opts.analytic = true → anyGap gap = false) := by
  unfold pilotGaps at h
  split at h
  · cases h
  · rename_i hc
    exact ⟨h, fun ha => by simpa [ha] using hc⟩

theorem errorGaps_rows (ρ : Equiv.Perm (Fin p)) (f : Matrix (Fin p) (Fin (n + q)) K) (gap : Fin p → Fin q → Bool) :
    errorGaps (f.submatrix ρ id) (fun i => gap (ρ i)) = errorGaps f gap := by
  funext alpha
  unfold errorGaps
  simp only
  congr 1
  refine Eq.trans ?_ (Equiv.sum_comp ρ _)
  refine Finset.sum_congr rfl fun i _ => ?_
  rfl

theorem onGaps_reordered (lib : Lib K p n q) (ρ : Equiv.Perm (Fin p)) (x : Matrix (Fin p) (Fin n) K)
    (y : Matrix (Fin p) (Fin q) K) (gap : Fin p → Fin q → Bool) :
    (lib.reordered ρ).onGaps (reorder ρ x) (reorder ρ y) (fun i => gap (ρ i)) = (lib.onGaps x y gap).reordered ρ := by
  unfold Lib.onGaps Lib.reordered
  rw [xBar_reorder, errorGaps_rows]

end Verif.Pilot
