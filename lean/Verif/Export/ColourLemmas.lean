import Verif.Export.Spec
import Mathlib.Tactic.ByContra
import Mathlib.Tactic.FieldSimp
import Mathlib.Tactic.Ring
/-!
# Lemmas for minima, maxima and colours
-/
set_option autoImplicit false
set_option linter.unusedSectionVars false

namespace Verif.Export

open Verif (Num)

theorem npMin_fin (a : ℚ) (l : List ℚ) : ∃ m, npMin ((a :: l).map Num.fin) = .fin m ∧ m ∈ a :: l ∧
    ∀ b ∈ a :: l, m ≤ b := by
  simp only [npMin, List.map_cons]
  induction l generalizing a with
  | nil => exact ⟨a, rfl, by simp, by simp⟩
  | cons b l ih =>
    simp only [List.map_cons, List.foldl_cons, Num.isNan, Bool.or_false, Bool.false_eq_true, if_false,
      Num.lt, decide_eq_true_eq]
    by_cases h : b < a
    · rw [if_pos h]
      obtain ⟨m, h1, h2, h3⟩ := ih b
      refine ⟨m, h1, by simp [List.mem_cons.1 h2], ?_⟩
      intro c hc
      simp only [List.mem_cons] at hc
      rcases hc with rfl | rfl | hc
      · exact le_trans (h3 b (by simp)) h.le
      · exact h3 _ (by simp)
      · exact h3 c (by simp [hc])
    · rw [if_neg h]
      obtain ⟨m, h1, h2, h3⟩ := ih a
      refine ⟨m, h1, by rcases List.mem_cons.1 h2 with h | h <;> simp [h], ?_⟩
      intro c hc
      simp only [List.mem_cons] at hc
      rcases hc with rfl | rfl | hc
      · exact h3 _ (by simp)
      · exact le_trans (h3 a (by simp)) (not_lt.1 h)
      · exact h3 c (by simp [hc])

theorem npMax_fin (a : ℚ) (l : List ℚ) : ∃ m, npMax ((a :: l).map Num.fin) = .fin m ∧ m ∈ a :: l ∧
    ∀ b ∈ a :: l, b ≤ m := by
  simp only [npMax, List.map_cons]
  induction l generalizing a with
  | nil => exact ⟨a, rfl, by simp, by simp⟩
  | cons b l ih =>
    simp only [List.map_cons, List.foldl_cons, Num.isNan, Bool.or_false, Bool.false_eq_true, if_false,
      Num.lt, decide_eq_true_eq]
    by_cases h : a < b
    · rw [if_pos h]
      obtain ⟨m, h1, h2, h3⟩ := ih b
      refine ⟨m, h1, by simp [List.mem_cons.1 h2], ?_⟩
      intro c hc
      simp only [List.mem_cons] at hc
      rcases hc with rfl | rfl | hc
      · exact le_trans h.le (h3 b (by simp))
      · exact h3 _ (by simp)
      · exact h3 c (by simp [hc])
    · rw [if_neg h]
      obtain ⟨m, h1, h2, h3⟩ := ih a
      refine ⟨m, h1, by rcases List.mem_cons.1 h2 with h | h <;> simp [h], ?_⟩
      intro c hc
      simp only [List.mem_cons] at hc
      rcases hc with rfl | rfl | hc
      · exact h3 _ (by simp)
      · exact le_trans (not_lt.1 h) (h3 a (by simp))
      · exact h3 c (by simp [hc])

/-- Minimum and maximum of a list with two different finite values. -/
theorem range_fin {l : List ℚ} (h : Varies l) : ∃ lo hi, npMin (l.map Num.fin) = .fin lo ∧
    npMax (l.map Num.fin) = .fin hi ∧ lo ∈ l ∧ hi ∈ l ∧ (∀ b ∈ l, lo ≤ b ∧ b ≤ hi) ∧ lo < hi := by
  obtain ⟨a, ha, b, hb, hab⟩ := h
  rcases l with _ | ⟨c, l⟩
  · cases ha
  obtain ⟨lo, h1, h2, h3⟩ := npMin_fin c l
  obtain ⟨hi, h4, h5, h6⟩ := npMax_fin c l
  exact ⟨lo, hi, h1, h4, h2, h5, fun b hb => ⟨h3 b hb, h6 b hb⟩,
    lt_of_le_of_lt (h3 a ha) (lt_of_lt_of_le hab (h6 b hb))⟩

theorem foldl_nan (f : Num → Num → Num) (hf : ∀ v, f .nan v = .nan) (l : List Num) :
    l.foldl f .nan = .nan := by
  induction l with
  | nil => rfl
  | cons a l ih => rw [List.foldl_cons, hf, ih]

theorem foldl_nan_mem (f : Num → Num → Num) (hf : ∀ v, f .nan v = .nan) (hg : ∀ v, f v .nan = .nan)
    (l : List Num) (a : Num) (h : .nan ∈ l) : l.foldl f a = .nan := by
  induction l generalizing a with
  | nil => cases h
  | cons b l ih =>
    rw [List.foldl_cons]
    rcases List.mem_cons.1 h with h | h
    · rw [← h, hg, foldl_nan f hf]
    · exact ih _ h

theorem npMin_nan {l : List Num} (h : .nan ∈ l) : npMin l = .nan := by
  cases l with
  | nil => rfl
  | cons a l =>
    rcases List.mem_cons.1 h with h | h
    · rw [← h]; exact foldl_nan _ (by simp [Num.isNan]) _
    · exact foldl_nan_mem _ (by simp [Num.isNan]) (by simp [Num.isNan]) _ _ h

/-- With a missing value, every scaled value is NaN. -/
theorem scaled_nan {l : List Num} (h : .nan ∈ l) (v : Num) : scaled l v = .nan := by
  unfold scaled
  rw [npMin_nan h]
  cases v <;> rfl

theorem scaled_fin {l : List ℚ} {lo hi : ℚ} (h1 : npMin (l.map Num.fin) = .fin lo)
    (h2 : npMax (l.map Num.fin) = .fin hi) (h : lo < hi) (q : ℚ) :
    scaled (l.map Num.fin) (.fin q) = .fin (255 * ((q - lo) / (hi - lo))) := by
  unfold scaled
  rw [h1, h2, Num.fin_sub, Num.fin_sub, Num.fin_div _ _ (by linarith), Num.fin_mul]

theorem unit_bounds {lo hi q : ℚ} (h : lo < hi) (h1 : lo ≤ q) (h2 : q ≤ hi) :
    0 ≤ 255 * ((q - lo) / (hi - lo)) ∧ 255 * ((q - lo) / (hi - lo)) ≤ 255 := by
  have hp : 0 < hi - lo := by linarith
  have a : 0 ≤ (q - lo) / (hi - lo) := div_nonneg (by linarith) hp.le
  have b : (q - lo) / (hi - lo) ≤ 1 := (div_le_one hp).2 (by linarith)
  constructor <;> linarith

theorem unit_mono {lo hi q r : ℚ} (h : lo < hi) (hqr : q ≤ r) :
    255 * ((q - lo) / (hi - lo)) ≤ 255 * ((r - lo) / (hi - lo)) := by
  have hp : 0 < hi - lo := by linarith
  have : (q - lo) / (hi - lo) ≤ (r - lo) / (hi - lo) := div_le_div_of_nonneg_right (by linarith) hp.le
  linarith

theorem roundEven_bounds (q : ℚ) : ⌊q⌋ ≤ roundEven q ∧ roundEven q ≤ ⌊q⌋ + 1 := by
  unfold roundEven
  split
  · omega
  · split
    · omega
    · split <;> omega

theorem roundEven_int (k : ℤ) : roundEven (k : ℚ) = k := by
  unfold roundEven
  rw [Int.floor_intCast]
  simp

theorem roundEven_mono {a b : ℚ} (h : a ≤ b) : roundEven a ≤ roundEven b := by
  have ha := roundEven_bounds a
  have hb := roundEven_bounds b
  have hf := Int.floor_le_floor h
  rcases lt_or_eq_of_le hf with hf | hf
  · omega
  · unfold roundEven
    rw [hf]
    have : a - ⌊b⌋ ≤ b - ⌊b⌋ := by linarith
    split
    · split
      · omega
      · split
        · omega
        · split <;> omega
    · rename_i h1
      split
      · rename_i h2
        rw [if_neg (by linarith), if_pos (by linarith)]
      · rename_i h2
        split
        · rw [if_neg (by linarith)]
          split
          · omega
          · exact le_refl _
        · rw [if_neg (by linarith)]
          split
          · omega
          · omega

/-- The shape of both scales: a monotone rounding that keeps integers. -/
theorem coloured_of {f : ℚ → ℤ} (hm : ∀ a b, a ≤ b → f a ≤ f b) (hi : ∀ k : ℤ, f k = k)
    {l : List ℚ} (h : Varies l) {g : Num → Num} (hg : ∀ q, g (.fin q) = .fin (f q)) :
    Coloured l ((l.map Num.fin).map fun v => g (scaled (l.map Num.fin) v)) := by
  obtain ⟨lo, hi', h1, h2, h3, h4, h5, h6⟩ := range_fin h
  have hp : hi' - lo ≠ 0 := by linarith
  have f0 : f (255 * ((lo - lo) / (hi' - lo))) = 0 := by
    have := hi 0
    simpa using this
  have f1 : f (255 * ((hi' - lo) / (hi' - lo))) = 255 := by
    have := hi 255
    rw [div_self hp]
    simpa using this
  refine ⟨l.map fun q => f (255 * ((q - lo) / (hi' - lo))), ?_, by simp, ?_, ?_, ?_, ?_⟩
  · simp only [List.map_map]
    refine List.map_congr_left fun q _ => ?_
    simp only [Function.comp, scaled_fin h1 h2 h6, hg]
  · intro k hk
    obtain ⟨q, hq, rfl⟩ := List.mem_map.1 hk
    have := unit_bounds h6 (h5 q hq).1 (h5 q hq).2
    have a := hm _ _ this.1
    have b := hm _ _ this.2
    have c := hi 0
    have d := hi 255
    simp only [Int.cast_zero, Int.cast_ofNat] at c d
    omega
  · intro i j a b k m ha hb hk hm' hab
    simp only [List.getElem?_map, ha, hb, Option.map_some, Option.some.injEq] at hk hm'
    rw [← hk, ← hm']
    exact hm _ _ (unit_mono h6 hab)
  · intro i a k ha hk hmin
    simp only [List.getElem?_map, ha, Option.map_some, Option.some.injEq] at hk
    have : a = lo := le_antisymm (hmin lo h3) (h5 a (List.mem_of_getElem? ha)).1
    rw [← hk, this, f0]
  · intro i a k ha hk hmax
    simp only [List.getElem?_map, ha, Option.map_some, Option.some.injEq] at hk
    have : a = hi' := le_antisymm (h5 a (List.mem_of_getElem? ha)).2 (hmax hi' h4)
    rw [← hk, this, f1]

theorem columnOf_finite (m : List (List ℚ)) (j : Nat) (h : ∀ r ∈ m, j < r.length) :
    columnOf (finite m) j = (ratColumn m j).map Num.fin := by
  simp only [columnOf, finite, ratColumn, List.map_map]
  refine List.map_congr_left fun r hr => ?_
  have := h r hr
  simp [List.getD, List.getElem?_eq_getElem this]

theorem colourScale_column (m : List (List Num)) (j : Nat) (h : ∀ r ∈ m, j < r.length) :
    columnOf (colourScale m) j = (columnOf m j).map fun v => floorInt (scaled (columnOf m j) v) := by
  simp only [columnOf, colourScale, List.map_map]
  refine List.map_congr_left fun r hr => ?_
  have := h r hr
  simp [List.getD, List.getElem?_eq_getElem this]

theorem colourScaleG_flatten (m : List (List Num)) :
    (colourScaleG m).flatten = m.flatten.map fun v => roundInt (scaled m.flatten v) := by
  simp only [colourScaleG, List.map_flatten]

end Verif.Export
