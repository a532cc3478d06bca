import Verif.Double.ColumnLemmas
/-!
# Normalisation in double precision (C176)
-/
set_option autoImplicit false
set_option linter.unusedSectionVars false

namespace Verif.Double

open Verif (Num)

/-- The full claim: shifted before Box-Cox, two different values of a feature stay different. -/
def ShiftTellsApart : Prop :=
  ∀ (col : List ℚ), (∀ q ∈ col, IsDouble q) → ∀ (i j : Nat) (a b : ℚ), col[i]? = some a → col[j]? = some b →
    a < b → (shiftX (col.map Num.fin))[i]? ≠ (shiftX (col.map Num.fin))[j]?

/-- **C176** is false: a feature whose values 0 and `2^-60` differ becomes constant. -/
theorem C176_refuted : ¬ ShiftTellsApart := by
  intro hall
  refine hall [0, 1 / 2 ^ 60] ?_ 0 1 0 (1 / 2 ^ 60) rfl rfl (by norm_num) (by decide +kernel)
  intro q hq
  simp only [List.mem_cons, List.not_mem_nil, or_false] at hq
  rcases hq with rfl | rfl
  · exact isDouble_zero
  · exact (toDouble_fin (q := 1 / 2 ^ 60) (by decide +kernel)).2

theorem shift_entry (c : Num) {col : List ℚ} {i : Nat} {q : ℚ} (hi : col[i]? = some q) :
    ∃ m, Prelim.IsMin m col ∧
      (match col.map Num.fin with
        | [] => []
        | a :: l => (a :: l).map fun v => add (sub v (Prelim.npMin a l)) c)[i]? =
          some (add (sub (.fin q) (.fin m)) c) := by
  cases col with
  | nil => simp at hi
  | cons a l =>
    obtain ⟨m, h1, h2⟩ := Prelim.npMin_fin a l
    refine ⟨m, h2, ?_⟩
    change (((a :: l).map Num.fin).map fun v => add (sub v (Prelim.npMin (.fin a) (l.map Num.fin))) c)[i]? = _
    rw [h1, List.map_map, List.getElem?_map, hi]
    rfl

theorem shiftX_entry {col : List ℚ} {i : Nat} {q : ℚ} (hi : col[i]? = some q) :
    ∃ m, Prelim.IsMin m col ∧ (shiftX (col.map Num.fin))[i]? = some (add (sub (.fin q) (.fin m)) (.fin 1)) := by
  obtain ⟨m, h1, h2⟩ := shift_entry (.fin 1) hi
  refine ⟨m, h1, ?_⟩
  unfold shiftX
  rw [one_fin]
  exact h2

theorem shiftY_entry {col : List ℚ} {i : Nat} {q : ℚ} (hi : col[i]? = some q) :
    ∃ m, Prelim.IsMin m col ∧ (shiftY (col.map Num.fin))[i]? = some (add (sub (.fin q) (.fin m)) (.fin Num.eps)) :=
  shift_entry (.fin Num.eps) hi

theorem isMin_unique {m m' : ℚ} {col : List ℚ} (h : Prelim.IsMin m col) (h' : Prelim.IsMin m' col) : m = m' :=
  le_antisymm (h.2 _ h'.1) (h'.2 _ h.1)

theorem shift_ge {q m c : ℚ} (hm : m ≤ q) (hc : IsDouble c) :
    Num.le (.fin c) (add (sub (.fin q) (.fin m)) (.fin c)) = true := by
  have h1 : Num.le (.fin 0) (sub (.fin q) (.fin m)) = true := by
    have : Num.le (.fin 0) (Num.fin q - Num.fin m) = true := by
      rw [Num.fin_sub]
      simpa [Num.le] using hm
    have := rounded_mono this
    rwa [rounded_fin isDouble_zero] at this
  have h2 := add_mono h1 ⟨c, rfl⟩
  unfold add at h2 ⊢
  rwa [fin_add, zero_add, rounded_fin hc] at h2

/-- **C176, the true part.**  All shifted values of a feature are at least 1, so Box-Cox can be applied, and
no two values are exchanged; no bound on the values. -/
theorem C176_partial {col : List ℚ} {i j : Nat} {a b : ℚ} (hi : col[i]? = some a) (hj : col[j]? = some b)
    (hab : a ≤ b) : ∃ u v, (shiftX (col.map Num.fin))[i]? = some u ∧
      (shiftX (col.map Num.fin))[j]? = some v ∧ Num.le 1 u = true ∧ u.le v = true := by
  obtain ⟨m, hm, h1⟩ := shiftX_entry hi
  obtain ⟨m', hm', h2⟩ := shiftX_entry hj
  cases isMin_unique hm hm'
  refine ⟨_, _, h1, h2, ?_, ?_⟩
  · rw [one_fin]
    exact shift_ge (hm.2 _ (List.mem_of_getElem? hi)) isDouble_one
  · exact add_mono (sub_mono (by simpa [Num.le] using hab)) ⟨1, rfl⟩

/-- **C176, the true part.**  The same for the performances, all at least the machine epsilon. -/
theorem C176_y_partial {col : List ℚ} {i j : Nat} {a b : ℚ} (hi : col[i]? = some a) (hj : col[j]? = some b)
    (hab : a ≤ b) : ∃ u v, (shiftY (col.map Num.fin))[i]? = some u ∧
      (shiftY (col.map Num.fin))[j]? = some v ∧ Num.le (.fin Num.eps) u = true ∧ u.le v = true := by
  obtain ⟨m, hm, h1⟩ := shiftY_entry hi
  obtain ⟨m', hm', h2⟩ := shiftY_entry hj
  cases isMin_unique hm hm'
  refine ⟨_, _, h1, h2, ?_, ?_⟩
  · refine shift_ge (hm.2 _ (List.mem_of_getElem? hi)) ?_
    exact (toDouble_fin (q := Num.eps) (by decide +kernel)).2
  · exact add_mono (sub_mono (by simpa [Num.le] using hab)) ⟨_, rfl⟩

/-- Non-vacuity: three values of a feature and of an algorithm. -/
example : shiftX ([3, 1, 2].map Num.fin) = [.fin 3, .fin 1, .fin 2] ∧
    shiftY ([3, 1].map Num.fin) = [.fin 2, .fin Num.eps] := by decide +kernel

theorem shift_error {q m : ℚ} (hm : m ≤ q) (h1 : |q| ≤ 2 ^ 999) (h2 : |m| ≤ 2 ^ 999) :
    ∃ r, add (sub (.fin q) (.fin m)) (.fin 1) = .fin r ∧ |r - (q - m + 1)| ≤ (q - m + 1) / 2 ^ 51 := by
  have hq : |q - m| ≤ 2 ^ 1000 := by
    rw [pow_succ]
    linarith [abs_sub q m]
  obtain ⟨d, hd, fd, -⟩ := toDouble_fits (K := 1000) (by norm_num) hq
  have hsub : sub (.fin q) (.fin m) = .fin d := by
    unfold sub
    rw [Num.fin_sub]
    exact hd
  have e1 := toDouble_error hd
  obtain ⟨r, hr, fr, -⟩ := add_fits (K := 1000) (by norm_num) fd
    (b := 1) ⟨isDouble_one, by rw [abs_one]; exact one_le_pow₀ (by norm_num)⟩
  have hr' : toDouble (d + 1) = .fin r := hr
  have e2 := toDouble_error hr'
  refine ⟨r, by rw [hsub, hr], ?_⟩
  have htiny : (1 : ℚ) / 2 ^ 1075 ≤ 1 / 2 ^ 60 :=
    one_div_le_one_div_of_le (by positivity) (pow_le_pow_right₀ (by norm_num) (by norm_num))
  generalize (1 : ℚ) / 2 ^ 1075 = t at *
  have hd0 : 0 ≤ d := by
    rw [(toDouble_fin hd).1]
    exact toBits_nonneg (by linarith)
  rw [abs_of_nonneg (show 0 ≤ q - m by linarith), abs_le] at e1
  rw [abs_of_nonneg (show 0 ≤ d + 1 by linarith), abs_le] at e2
  rw [abs_le]
  norm_num at htiny e1 e2 ⊢
  constructor <;> linarith [e1.1, e1.2, e2.1, e2.2]

/-- **C176, the true part.**  Two values of a feature stay different, in their order, if their distance is
more than `2 ^ -50` of the range up to the larger one plus one.  Missing for the full property: values that
are closer, and numbers beyond `2 ^ 999`. -/
theorem C176_apart_partial {col : List ℚ} {i j : Nat} {a b m : ℚ} (hm : Prelim.IsMin m col)
    (hcol : ∀ q ∈ col, |q| ≤ 2 ^ 999) (hi : col[i]? = some a) (hj : col[j]? = some b)
    (hab : (b - m + 1) / 2 ^ 50 < b - a) : ∃ u v, (shiftX (col.map Num.fin))[i]? = some (.fin u) ∧
      (shiftX (col.map Num.fin))[j]? = some (.fin v) ∧ u < v := by
  obtain ⟨m1, hm1, h1⟩ := shiftX_entry hi
  obtain ⟨m2, hm2, h2⟩ := shiftX_entry hj
  cases isMin_unique hm hm1
  cases isMin_unique hm hm2
  have ma := List.mem_of_getElem? hi
  have mb := List.mem_of_getElem? hj
  obtain ⟨u, hu, eu⟩ := shift_error (hm.2 _ ma) (hcol _ ma) (hcol _ hm.1)
  obtain ⟨v, hv, ev⟩ := shift_error (hm.2 _ mb) (hcol _ mb) (hcol _ hm.1)
  refine ⟨u, v, by rw [h1, hu], by rw [h2, hv], ?_⟩
  have h3 := hm.2 _ ma
  have h4 := hm.2 _ mb
  rw [abs_le] at eu ev
  norm_num at hab eu ev
  have : a ≤ b := by linarith
  linarith [eu.2, ev.1]

/-- Non-vacuity: 3 and 7 with the minimum 1. -/
example : Prelim.IsMin 1 ([3, 7, 1] : List ℚ) ∧ ((7 : ℚ) - 1 + 1) / 2 ^ 50 < 7 - 3 := by
  constructor
  · simp [Prelim.IsMin]
  · norm_num

/-- **C176, the true part.**  Shift, a monotone transformation (Box-Cox for any exponent is one) and the
z-score with a finite mean and a positive finite deviation: no two values are exchanged. -/
theorem C176_order_partial {col : List ℚ} {i j : Nat} {a b : ℚ} (hi : col[i]? = some a)
    (hj : col[j]? = some b) (hab : a ≤ b) (f : Num → Num)
    (hf : ∀ u v, Num.le 1 u = true → u.le v = true → (f u).le (f v) = true) (mu sigma : ℚ) (hs : 0 < sigma) :
    ∃ u v, ((shiftX (col.map Num.fin)).map fun w => zscore (.fin mu) (.fin sigma) (f w))[i]? = some u ∧
      ((shiftX (col.map Num.fin)).map fun w => zscore (.fin mu) (.fin sigma) (f w))[j]? = some v ∧
      u.le v = true := by
  obtain ⟨u, v, h1, h2, h3, h4⟩ := C176_partial hi hj hab
  refine ⟨_, _, by rw [List.getElem?_map, h1]; rfl, by rw [List.getElem?_map, h2]; rfl, ?_⟩
  exact div_mono hs (sub_mono (hf u v h3 h4))

/-- Non-vacuity of `C176_order_partial`: without a transformation. -/
example : ∀ u v : Num, Num.le 1 u = true → u.le v = true → (id u).le (id v) = true := fun _ _ _ h => h

end Verif.Double
