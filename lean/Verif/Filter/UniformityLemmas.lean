import Verif.Filter.SpecUniformity
import Mathlib.Algebra.BigOperators.Fin
import Mathlib.Algebra.Order.BigOperators.Ring.Finset
/-!
# Lemmas on the uniformity score
-/
set_option autoImplicit false
set_option linter.unusedSectionVars false

namespace Verif.Filter

theorem euclid_nonneg (a b : List ℝ) : 0 ≤ euclid a b := Real.sqrt_nonneg _

theorem nearest_eq {n : Nat} {x : Fin n → List ℝ} {j : Fin n} {r : ℝ} (h : NearestOther x j r) :
    nearest (List.ofFn x) j = some r := by
  unfold nearest
  rw [List.min?_eq_some_iff]
  obtain ⟨⟨i, hij, hi⟩, hle⟩ := h
  constructor
  · rw [List.mem_map]
    refine ⟨i, ?_, ?_⟩
    · rw [List.mem_filter]
      simp [Fin.val_inj, hij]
    · simp [List.getD, hi]
  · intro b hb
    rw [List.mem_map] at hb
    obtain ⟨k, hk, rfl⟩ := hb
    rw [List.mem_filter, List.mem_range, List.length_ofFn] at hk
    have hk' : (⟨k, hk.1⟩ : Fin n) ≠ j := by
      intro he
      have := hk.2
      simp [← he] at this
    have := hle ⟨k, hk.1⟩ hk'
    simpa [List.getD, List.getElem?_ofFn, hk.1] using this

theorem exists_nearest {n : Nat} (h2 : 2 ≤ n) (x : Fin n → List ℝ) (j : Fin n) :
    ∃ r, NearestOther x j r := by
  have hne : (Finset.univ.filter fun i : Fin n => i ≠ j).Nonempty := by
    by_cases h : (j : Nat) = 0
    · exact ⟨⟨1, by omega⟩, by simp [Fin.ext_iff, h]⟩
    · exact ⟨⟨0, by omega⟩, by simp [Fin.ext_iff, Ne.symm h]⟩
  obtain ⟨i, hi, hmin⟩ := Finset.exists_min_image _ (fun i => euclid (x i) (x j)) hne
  rw [Finset.mem_filter] at hi
  exact ⟨_, ⟨i, hi.2, rfl⟩, fun k hk => hmin k (by simp [hk])⟩

theorem NearestOther.nonneg {n : Nat} {x : Fin n → List ℝ} {j : Fin n} {r : ℝ}
    (h : NearestOther x j r) : 0 ≤ r := by
  obtain ⟨⟨i, -, rfl⟩, -⟩ := h
  exact euclid_nonneg _ _

theorem NearestOther.unique {n : Nat} {x : Fin n → List ℝ} {j : Fin n} {r r' : ℝ}
    (h : NearestOther x j r) (h' : NearestOther x j r') : r = r' := by
  have := nearest_eq h
  rw [nearest_eq h'] at this
  exact (Option.some.inj this).symm

theorem filterMap_nearest {n : Nat} {x : Fin n → List ℝ} {near : Fin n → ℝ}
    (h : ∀ j, NearestOther x j (near j)) :
    (List.range (List.ofFn x).length).filterMap (nearest (List.ofFn x)) = List.ofFn near := by
  rw [List.length_ofFn]
  have : List.range n = (List.ofFn fun j : Fin n => (j : Nat)) := by
    apply List.ext_getElem <;> simp
  rw [this]
  have h' : ∀ j : Fin n, nearest (List.ofFn x) j = some (near j) := fun j => nearest_eq (h j)
  rw [List.ofFn_eq_map (f := fun j : Fin n => (j : Nat)), List.filterMap_map,
    List.ofFn_eq_map (f := near), ← List.filterMap_eq_map]
  congr 1
  funext j
  exact h' j

theorem mean_ofFn {n : Nat} (f : Fin n → ℝ) : mean (List.ofFn f) = (∑ j, f j) / n := by
  simp [mean, List.sum_ofFn]

theorem std_ofFn {n : Nat} (f : Fin n → ℝ) :
    std (List.ofFn f) = Real.sqrt ((∑ j, (f j - (∑ k, f k) / n) ^ 2) / ((n : ℝ) - 1)) := by
  unfold std
  rw [mean_ofFn, List.map_ofFn, List.sum_ofFn, List.length_ofFn]
  rfl

theorem euclid_scale (c : ℝ) (a b : List ℝ) :
    euclid (a.map (c * ·)) (b.map (c * ·)) = |c| * euclid a b := by
  unfold euclid
  rw [← Real.sqrt_sq_eq_abs, ← Real.sqrt_mul (sq_nonneg c)]
  congr 1
  rw [List.zipWith_map]
  induction a generalizing b with
  | nil => simp
  | cons u a ih =>
    cases b with
    | nil => simp
    | cons v b =>
      simp only [List.zipWith_cons_cons, List.sum_cons, ih b]
      ring

end Verif.Filter
