import Verif.Pythia.Props
import Mathlib.Tactic.Linarith
/-!
# The order of the algorithms and the recommendations of PYTHIA (C157)
-/
set_option autoImplicit false
set_option linter.unusedSectionVars false

namespace Verif.Pythia

open Verif (Num)

/-- The same algorithms in another order: algorithm `i` of the second list is algorithm `σ i` of the
first, with the same training result and the same labels. -/
structure Reordered (n : Nat) (σ : Nat → Nat) (yBin yBin' : List (List Bool))
    (fitted fitted' : Nat → Except Err SvmRes) : Prop where
  bound : ∀ i, i < n → σ i < n
  onto : ∀ j, j < n → ∃ i, i < n ∧ σ i = j
  fits : ∀ i, fitted' i = fitted (σ i)
  length : yBin'.length = yBin.length
  labels : ∀ (k i : Nat), i < n → yBin'[k]?.bind (·[i]?) = yBin[k]?.bind (·[σ i]?)

variable {n : Nat} {σ : Nat → Nat} {yBin yBin' : List (List Bool)}
  {fitted fitted' : Nat → Except Err SvmRes}

theorem Reordered.column (h : Reordered n σ yBin yBin' fitted fitted') {i : Nat} (hi : i < n) :
    goodColumn yBin' i = goodColumn yBin (σ i) := by
  apply List.ext_getElem (by simp [goodColumn, h.length])
  intro k h1 h2
  have hk' : k < yBin'.length := by simpa [goodColumn] using h1
  have hk : k < yBin.length := by simpa [goodColumn] using h2
  have := h.labels k i hi
  rw [List.getElem?_eq_getElem hk', List.getElem?_eq_getElem hk] at this
  simp only [Option.bind_some] at this
  simp [goodColumn, this]

theorem Reordered.numGood (h : Reordered n σ yBin yBin' fitted fitted') {i : Nat} (hi : i < n) :
    Pythia.numGood yBin' i = Pythia.numGood yBin (σ i) := by
  have e : ∀ (m : List (List Bool)) (j : Nat), Pythia.numGood m j = (goodColumn m j).count true := by
    intro m j
    unfold Pythia.numGood goodColumn
    rw [List.count, List.countP_map, List.countP_eq_length_filter]
    congr 1
    apply List.filter_congr
    intro r _
    simp
  rw [e, e, h.column hi]

theorem Reordered.sized (h : Reordered n σ yBin yBin' fitted fitted')
    (hs : ∀ i res, fitted i = .ok res → Sized yBin.length res) :
    ∀ i res, fitted' i = .ok res → Sized yBin'.length res := by
  intro i res e
  rw [h.fits i] at e
  rw [h.length]
  exact hs _ _ e

variable {lib lib' : Lib} {labels labels' : List String} {y y' : List (List Num)}
  {yBest yBest' : List Num} {out out' : Out}

/-- Predictions and precisions are rearranged with the algorithms. -/
theorem Reordered.predicted (ho : Reordered n σ yBin yBin' fitted fitted')
    (hs : ∀ i res, fitted i = .ok res → Sized yBin.length res)
    (h : pythia lib n labels y yBin yBest fitted = .ok out)
    (h' : pythia lib' n labels' y' yBin' yBest' fitted' = .ok out') {k : Nat} {row row' : List Bool}
    (hr : out.trained.yHat[k]? = some row) (hr' : out'.trained.yHat[k]? = some row') {i : Nat}
    (hi : i < n) (p : ℚ) : PredictedGood out'.trained.precision row' i p ↔
      PredictedGood out.trained.precision row (σ i) p := by
  obtain ⟨res, e1, e2, -, -, -, e3, -⟩ := C98_outputs h hs (ho.bound i hi)
  obtain ⟨res', e1', e2', -, -, -, e3', -⟩ := C98_outputs h' (ho.sized hs) hi
  rw [ho.fits i, e1] at e1'
  cases e1'
  have a := (e2 k).2.1
  have a' := (e2' k).2.1
  rw [hr] at a
  rw [hr'] at a'
  simp only [Option.bind_some] at a a'
  unfold PredictedGood
  rw [a, a', e3, e3', ho.column hi]

/-- The property: the algorithm recommended for an instance does not depend on the order in which
the algorithms are listed. -/
def OrderIrrelevant : Prop :=
  ∀ (lib : Lib) (n : Nat) (σ : Nat → Nat) (labels labels' : List String) (y y' : List (List Num))
    (yBin yBin' : List (List Bool)) (yBest : List Num) (fitted fitted' : Nat → Except Err SvmRes)
    (out out' : Out), Reordered n σ yBin yBin' fitted fitted' →
    (∀ i res, fitted i = .ok res → Sized yBin.length res) →
    pythia lib n labels y yBin yBest fitted = .ok out →
    pythia lib n labels' y' yBin' yBest fitted' = .ok out' →
    ∀ k s s' : Nat, out.selection1.vals[k]? = some s → out'.selection1.vals[k]? = some s' → σ s' = s

/-- Two perfect models that agree: whichever is listed first is recommended. -/
def twins : Nat → Except Err SvmRes
  | 0 => .ok ⟨[true, false], [true, false], [1, 0], [1, 0], 2, 3⟩
  | 1 => .ok ⟨[true, false], [true, false], [1, 0], [1, 0], 5, 7⟩
  | _ => .error .valueError

/-- The two algorithms exchanged. -/
def swap2 (i : Nat) : Nat := 1 - i

/-- **C157** is false when precisions are equal: of two models with the same predictions and precisions
the one listed first is recommended. -/
theorem C157_refuted : ¬ OrderIrrelevant := by
  intro h
  let b : List (List Bool) := [[true, true], [false, false]]
  let f' : Nat → Except Err SvmRes := fun i => twins (swap2 i)
  have e1 : (pythia exLib 2 ["A", "B"] [[1, 1], [0, 0]] b [1, 0] twins).toOption.isSome = true := by
    decide +kernel
  have e2 : (pythia exLib 2 ["B", "A"] [[1, 1], [0, 0]] b [1, 0] f').toOption.isSome = true := by
    decide +kernel
  have e3 : (pythia exLib 2 ["A", "B"] [[1, 1], [0, 0]] b [1, 0] twins).toOption.map
      (·.selection1.vals[0]?) = some (some 0) := by decide +kernel
  have e4 : (pythia exLib 2 ["B", "A"] [[1, 1], [0, 0]] b [1, 0] f').toOption.map
      (·.selection1.vals[0]?) = some (some 0) := by decide +kernel
  rcases h1 : pythia exLib 2 ["A", "B"] [[1, 1], [0, 0]] b [1, 0] twins with e | out
  · rw [h1] at e1; cases e1
  rcases h2 : pythia exLib 2 ["B", "A"] [[1, 1], [0, 0]] b [1, 0] f' with e | out'
  · rw [h2] at e2; cases e2
  rw [h1] at e3
  rw [h2] at e4
  simp only [Except.toOption, Option.map_some, Option.some.injEq] at e3 e4
  have := h exLib 2 swap2 ["A", "B"] ["B", "A"] [[1, 1], [0, 0]] [[1, 1], [0, 0]] b b [1, 0] twins f'
    out out' ⟨by unfold swap2; omega, fun j hj => ⟨1 - j, by omega, by unfold swap2; omega⟩,
      fun i => rfl, rfl, by
        intro k i hi
        have : i = 0 ∨ i = 1 := by omega
        rcases this with rfl | rfl <;> rcases k with _ | _ | k <;> rfl⟩
    (by
      intro i res e
      rcases i with _ | _ | i
      · cases e; exact ⟨rfl, rfl, rfl, rfl⟩
      · cases e; exact ⟨rfl, rfl, rfl, rfl⟩
      · cases e) h1 h2 0 0 0 e3 e4
  revert this
  decide

/-- **C157, the true part.**  A run on the reordered algorithms succeeds too.  On an instance where some
algorithm is predicted good with positive precision, both runs recommend algorithms that are
predicted good and have the same precision, the highest; they are the same algorithm if only one has
it.  On the other instances both runs fall back to algorithms that are good equally often, and most
often; again the same if only one is.  Missing for the full property: ties are broken by the order. -/
theorem C157_partial (ho : Reordered n σ yBin yBin' fitted fitted')
    (hs : ∀ i res, fitted i = .ok res → Sized yBin.length res)
    (h : pythia lib n labels y yBin yBest fitted = .ok out) :
    ∃ out', pythia lib' n labels' y' yBin' yBest' fitted' = .ok out' ∧
    ∀ (k : Nat) (row : List Bool), out.trained.yHat[k]? = some row →
      ∃ s s', out.selection1.vals[k]? = some s ∧ out'.selection1.vals[k]? = some s' ∧ s' < n ∧
      (AnyGood out.trained.precision row →
        (∃ p, PredictedGood out.trained.precision row s p ∧
          PredictedGood out.trained.precision row (σ s') p ∧
          ∀ j q, PredictedGood out.trained.precision row j q → q ≤ p) ∧
        ((∀ p j, PredictedGood out.trained.precision row s p →
          PredictedGood out.trained.precision row j p → j = s) → σ s' = s)) ∧
      (¬ AnyGood out.trained.precision row →
        (∀ j, j < n → numGood yBin j ≤ numGood yBin s) ∧ numGood yBin (σ s') = numGood yBin s ∧
        ((∀ j, j < n → numGood yBin j = numGood yBin s → j = s) → σ s' = s)) := by
  have hn := (pythia_ok h).2.1
  obtain ⟨out', h'⟩ : ∃ out', pythia lib' n labels' y' yBin' yBest' fitted' = .ok out' := by
    rw [C97_partial hn]
    intro i hi
    rw [ho.fits i, ho.column hi]
    exact (C97_partial hn).1 ⟨out, h⟩ _ (ho.bound i hi)
  refine ⟨out', h', ?_⟩
  intro k row hr
  have hinv := train_done hs (pythia_ok h).1
  have hinv' := train_done (ho.sized hs) (pythia_ok h').1
  have hk : k < out.trained.yHat.length := (List.getElem?_eq_some_iff.1 hr).1
  have hk' : k < out'.trained.yHat.length := by
    rw [hinv'.rows.2.1, ho.length, ← hinv.rows.2.1]; exact hk
  have hr' := List.getElem?_eq_getElem hk'
  have hwide : ∀ j p, PredictedGood out.trained.precision row j p → j < n := by
    rintro j p ⟨hj, -⟩
    rw [← hinv.rect.2.1 row (List.mem_of_getElem? hr)]
    exact (List.getElem?_eq_some_iff.1 hj).1
  have hwide' : ∀ j p, PredictedGood out'.trained.precision out'.trained.yHat[k] j p → j < n := by
    rintro j p ⟨hj, -⟩
    rw [← hinv'.rect.2.1 _ (List.mem_of_getElem? hr')]
    exact (List.getElem?_eq_some_iff.1 hj).1
  have key := fun i (hi : i < n) p => ho.predicted hs h h' hr hr' (i := i) hi p
  have hany : AnyGood out'.trained.precision out'.trained.yHat[k] ↔ AnyGood out.trained.precision row := by
    constructor
    · rintro ⟨j, p, hj, hp⟩
      exact ⟨σ j, p, (key j (hwide' j p hj) p).1 hj, hp⟩
    · rintro ⟨j, p, hj, hp⟩
      obtain ⟨i, hi, rfl⟩ := ho.onto j (hwide j p hj)
      exact ⟨i, p, (key i hi p).2 hj, hp⟩
  by_cases hg : AnyGood out.trained.precision row
  · obtain ⟨s, -, hs1, p, hp, hp0, hmax⟩ := C64_recommended h hr hg
    obtain ⟨s', -, hs1', p', hp', hp0', hmax'⟩ := C64_recommended h' hr' (hany.2 hg)
    have hsn := hwide' s' p' hp'
    have hq := (key s' hsn p').1 hp'
    have he : p' = p := by
      apply le_antisymm (hmax _ _ hq).1
      obtain ⟨i, hi, e⟩ := ho.onto s (hwide s p hp)
      exact (hmax' i p ((key i hi p).2 (by rw [e]; exact hp))).1
    rw [he] at hq
    refine ⟨s, s', hs1, hs1', hsn, fun _ => ⟨⟨p, hp, hq, fun j q hj => (hmax j q hj).1⟩, fun hu => ?_⟩,
      fun hng => absurd hg hng⟩
    exact hu p _ hp hq
  · obtain ⟨s, hs1, hsn, hmax⟩ := C64_fallback h hs hr hg
    obtain ⟨s', hs1', hsn', hmax'⟩ := C64_fallback h' (ho.sized hs) hr' (mt hany.1 hg)
    have he : numGood yBin (σ s') = numGood yBin s := by
      apply le_antisymm (hmax _ (ho.bound s' hsn')).1
      obtain ⟨i, hi, e⟩ := ho.onto s hsn
      have := (hmax' i hi).1
      rw [ho.numGood hi, ho.numGood hsn', e] at this
      exact this
    exact ⟨s, s', hs1, hs1', hsn', fun hg' => absurd hg' hg, fun _ => ⟨fun j hj => (hmax j hj).1, he,
      fun hu => hu _ (ho.bound s' hsn') he⟩⟩

-- the data set of three instances, with the two algorithms exchanged
example : Reordered 2 swap2 exBin [[false, true], [true, true], [false, false]] exFit
      (fun i => exFit (swap2 i)) ∧ (∀ i res, exFit i = .ok res → Sized exBin.length res) ∧
    ∃ out, pythia exLib 2 ["A", "B"] exY exBin [20, 40, 70] exFit = .ok out := by
  refine ⟨⟨by unfold swap2; omega, fun j hj => ⟨1 - j, by omega, by unfold swap2; omega⟩,
      fun i => rfl, rfl, ?_⟩, exFit_sized, ?_⟩
  · intro k i hi
    have : i = 0 ∨ i = 1 := by omega
    rcases this with rfl | rfl <;> rcases k with _ | _ | _ | k <;> rfl
  · obtain ⟨out, h, _⟩ := exRun_ok
    exact ⟨out, h⟩

end Verif.Pythia
