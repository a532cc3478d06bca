import Verif.Cloister.Model
import Mathlib.Analysis.Convex.Combination
import Mathlib.Data.List.Lemmas
/-!
# Lemmas about CLOISTER
-/
set_option autoImplicit false
set_option linter.unusedSectionVars false

namespace Verif.Cloister

variable {K : Type} {m : Nat}

theorem bin_length (w : Nat) : ∀ n, 0 < w → n < 2 ^ w → (bin n).length ≤ w := by
  induction w with
  | zero => intro n h; omega
  | succ w ih =>
    intro n _ hn
    rw [bin]
    split
    · simp
    · next h =>
      have hw : 0 < w := by
        rcases Nat.eq_zero_or_pos w with rfl | hw
        · simp at hn; omega
        · exact hw
      have := ih (n / 2) hw (by rw [Nat.pow_succ] at hn; omega)
      rw [List.length_append]
      simp only [List.length_singleton]
      omega

theorem bin_reverse (n : Nat) : ∀ j : Nat, (bin n).reverse.getD j 0 = n / 2 ^ j % 2 := by
  induction n using Nat.strongRecOn with
  | _ n ih =>
    intro j
    rw [bin]
    split
    · next h =>
      cases j with
      | zero => simp; omega
      | succ j =>
        have : n / 2 ^ (j + 1) = 0 := by
          apply Nat.div_eq_of_lt
          calc n < 2 := h
            _ = 2 ^ 1 := rfl
            _ ≤ 2 ^ (j + 1) := Nat.pow_le_pow_right (by omega) (by omega)
        simp [this]
    · next h =>
      rw [List.reverse_append]
      cases j with
      | zero => simp
      | succ j =>
        have := ih (n / 2) (by omega) j
        simp only [List.reverse_singleton, List.singleton_append, List.getD_cons_succ]
        rw [this, Nat.pow_succ', Nat.div_div_eq_div_mul]

theorem idxRow_bit (w i : Nat) (j : Nat) : (idxRow w i).getD j 0 = i / 2 ^ j % 2 := by
  unfold idxRow binaryRepr
  rw [List.reverse_append, List.reverse_replicate]
  rw [← bin_reverse]
  simp only [List.getD_eq_getElem?_getD, List.getElem?_append]
  split
  · rfl
  · next h =>
    rw [List.getElem?_eq_none (by omega : (bin i).reverse.length ≤ j)]
    rw [List.getElem?_replicate]
    split <;> rfl

theorem idxRow_length (w i : Nat) (hw : 0 < w) (hi : i < 2 ^ w) : (idxRow w i).length = w := by
  have := bin_length w i hw hi
  unfold idxRow binaryRepr
  simp
  omega

section
variable [LinearOrder K]

theorem foldl_min_spec (f : (Fin m → K) → K) (l : List (Fin m → K)) (c : K) :
    (l.foldl (fun acc r => min acc (f r)) c ≤ c ∧
      ∀ r ∈ l, l.foldl (fun acc r => min acc (f r)) c ≤ f r) ∧
    (l.foldl (fun acc r => min acc (f r)) c = c ∨
      ∃ r ∈ l, l.foldl (fun acc r => min acc (f r)) c = f r) := by
  induction l generalizing c with
  | nil => simp
  | cons r l ih =>
    rw [List.foldl_cons]
    obtain ⟨⟨h1, h2⟩, h3⟩ := ih (min c (f r))
    refine ⟨⟨le_trans h1 (min_le_left _ _), ?_⟩, ?_⟩
    · intro q hq
      rcases List.mem_cons.1 hq with rfl | hq
      · exact le_trans h1 (min_le_right _ _)
      · exact h2 q hq
    · rcases h3 with h3 | ⟨q, hq, h3⟩
      · rcases min_choice c (f r) with h | h
        · exact .inl (by rw [h3, h])
        · exact .inr ⟨r, List.mem_cons_self, by rw [h3, h]⟩
      · exact .inr ⟨q, List.mem_cons_of_mem _ hq, h3⟩

theorem foldl_max_spec (f : (Fin m → K) → K) (l : List (Fin m → K)) (c : K) :
    (c ≤ l.foldl (fun acc r => max acc (f r)) c ∧
      ∀ r ∈ l, f r ≤ l.foldl (fun acc r => max acc (f r)) c) ∧
    (l.foldl (fun acc r => max acc (f r)) c = c ∨
      ∃ r ∈ l, l.foldl (fun acc r => max acc (f r)) c = f r) := by
  induction l generalizing c with
  | nil => simp
  | cons r l ih =>
    rw [List.foldl_cons]
    obtain ⟨⟨h1, h2⟩, h3⟩ := ih (max c (f r))
    refine ⟨⟨le_trans (le_max_left _ _) h1, ?_⟩, ?_⟩
    · intro q hq
      rcases List.mem_cons.1 hq with rfl | hq
      · exact le_trans (le_max_right _ _) h1
      · exact h2 q hq
    · rcases h3 with h3 | ⟨q, hq, h3⟩
      · rcases max_choice c (f r) with h | h
        · exact .inl (by rw [h3, h])
        · exact .inr ⟨r, List.mem_cons_self, by rw [h3, h]⟩
      · exact .inr ⟨q, List.mem_cons_of_mem _ hq, h3⟩

theorem flatMap_pair_getElem {α : Type} (f g : α → K) : ∀ (l : List α) (j : Nat) (x : α),
    l[j]? = some x → (l.flatMap fun y => [f y, g y])[2 * j]? = some (f x) ∧
      (l.flatMap fun y => [f y, g y])[1 + 2 * j]? = some (g x) := by
  intro l
  induction l with
  | nil => intro j x h; simp at h
  | cons y l ih =>
    intro j x h
    rw [List.flatMap_cons]
    cases j with
    | zero => simp at h; subst h; simp
    | succ j =>
      simp only [List.getElem?_cons_succ] at h
      have := ih j x h
      have e1 : 2 * (j + 1) = 2 * j + 1 + 1 := by ring
      have e2 : 1 + 2 * (j + 1) = 1 + 2 * j + 1 + 1 := by ring
      rw [e2, e1]
      simpa using this

theorem edge_eq [Zero K] (a : Fin m → K) (l : List (Fin m → K)) (i : Nat) (j : Fin m) :
    edge a l i j = if i.testBit j then colMax a l j else colMin a l j := by
  unfold edge ind
  rw [idxRow_bit]
  have h := flatMap_pair_getElem (colMin a l) (colMax a l) (List.finRange m) j j (by simp)
  rw [Nat.testBit_eq_decide_div_mod_eq]
  rcases Nat.mod_two_eq_zero_or_one (i / 2 ^ (j : Nat)) with hb | hb
  · rw [hb]
    simp only [zero_ne_one, decide_false, Bool.false_eq_true, if_false, Nat.zero_add]
    unfold flat
    rw [List.getD_eq_getElem?_getD, h.1]
    rfl
  · rw [hb]
    simp only [decide_true, if_true]
    unfold flat
    rw [List.getD_eq_getElem?_getD, h.2]
    rfl

theorem inner_iff (test : Fin m → Bool) (ks : List (Fin m)) :
    inner test ks = true ↔ ∃ k ∈ ks, test k = true := by
  induction ks with
  | nil => simp [inner]
  | cons k ks ih =>
    rw [inner]
    cases h : test k <;> simp [h, ih]

theorem outer_iff (test : Fin m → Fin m → Bool) (js : List (Fin m)) :
    outer test js = true ↔ ∃ j ∈ js, ∃ k, j < k ∧ test j k = true := by
  induction js with
  | nil => simp [outer]
  | cons j js ih =>
    rw [outer]
    have hi := inner_iff (test j) ((List.finRange m).filter fun k => decide (j < k))
    have hi' : inner (test j) ((List.finRange m).filter fun k => decide (j < k)) = true ↔
        ∃ k, j < k ∧ test j k = true := by
      rw [hi]; simp
    by_cases h : inner (test j) ((List.finRange m).filter fun k => decide (j < k)) = true
    · rw [if_pos h]
      simp only [true_iff]
      exact ⟨j, List.mem_cons_self, hi'.1 h⟩
    · rw [if_neg h, ih]
      constructor
      · rintro ⟨j', h1, h2⟩
        exact ⟨j', List.mem_cons_of_mem _ h1, h2⟩
      · rintro ⟨j', h1, h2⟩
        rcases List.mem_cons.1 h1 with rfl | h1
        · exact absurd (hi'.2 h2) h
        · exact ⟨j', h1, h2⟩

/-- Every choice of minimum or maximum per feature has a number. -/
theorem exists_bits (c : Fin m → Bool) : ∃ i, i < 2 ^ m ∧ ∀ j : Fin m, i.testBit j = c j := by
  refine ⟨Nat.ofBits c, Nat.ofBits_lt_two_pow c, ?_⟩
  intro j
  rw [Nat.testBit_ofBits_lt c j j.2]

theorem bits_unique {i k : Nat} (hi : i < 2 ^ m) (hk : k < 2 ^ m)
    (h : ∀ j : Fin m, i.testBit j = k.testBit j) : i = k := by
  apply Nat.eq_of_testBit_eq
  intro j
  by_cases hj : j < m
  · exact h ⟨j, hj⟩
  · rw [Nat.testBit_lt_two_pow (lt_of_lt_of_le hi (Nat.pow_le_pow_right (by omega) (by omega))),
      Nat.testBit_lt_two_pow (lt_of_lt_of_le hk (Nat.pow_le_pow_right (by omega) (by omega)))]
end

end Verif.Cloister
