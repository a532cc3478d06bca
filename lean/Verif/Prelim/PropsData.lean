import Verif.Prelim.Props
import Mathlib.Algebra.Order.Ring.Rat
/-!
# C41, C42, C46, C87–C89: bounding, normalisation and raw performances
-/
set_option autoImplicit false
set_option linter.unusedSectionVars false

namespace Verif.Prelim

open Verif (Num)

/-! ### C41 -/

theorem sorted_getD_le {s : List ℚ} (hs : s.Pairwise (· ≤ ·)) {i j : Nat} (hij : i ≤ j)
    (hj : j < s.length) : s.getD i 0 ≤ s.getD j 0 := by
  rcases Nat.lt_or_ge i j with h | h
  · have := List.pairwise_iff_getElem.1 hs i j (by omega) hj h
    simpa [List.getD_eq_getElem?_getD, List.getElem?_eq_getElem hj,
      List.getElem?_eq_getElem (show i < s.length by omega)] using this
  · have : i = j := by omega
    subst this
    exact le_refl _

theorem bounds_order (col : List ℚ) (h : col ≠ []) : (bounds col).1 ≤ (bounds col).2 := by
  have hs : (col.mergeSort (fun a b => decide (a ≤ b))).Pairwise (· ≤ ·) := by
    have := List.pairwise_mergeSort (le := fun a b : ℚ => decide (a ≤ b))
      (by intro a b c h1 h2; simp only [decide_eq_true_eq] at *; exact le_trans h1 h2)
      (by intro a b; simp only [Bool.or_eq_true, decide_eq_true_eq]; exact le_total a b) col
    exact this.imp (by intro a b h; simpa using h)
  have hl : 0 < (col.mergeSort (fun a b => decide (a ≤ b))).length := by
    rw [List.length_mergeSort]
    exact List.length_pos_iff.2 h
  unfold bounds
  generalize col.mergeSort (fun a b => decide (a ≤ b)) = s at hs hl
  simp only
  have h1 : s.getD (1 * (s.length - 1) / 4) 0 ≤ s.getD (3 * (s.length - 1) / 4) 0 :=
    sorted_getD_le hs (by omega) (by omega)
  have h2 : s.getD ((1 * (s.length - 1) + 3) / 4) 0 ≤ s.getD ((3 * (s.length - 1) + 3) / 4) 0 :=
    sorted_getD_le hs (by omega) (by omega)
  have : quartile 1 s ≤ quartile 3 s := by
    unfold quartile
    linarith
  linarith

theorem finites_map (col : List ℚ) : finites (col.map Num.fin) = some col := by
  induction col with
  | nil => rfl
  | cons a l ih => simp [finites, ih]

theorem boundEntry_fin (lo hi v : ℚ) (h : lo ≤ hi) :
    boundEntry (.fin lo) (.fin hi) (.fin v) = .fin (max lo (min hi v)) := by
  have h0 : (0 : Num) = .fin 0 := by change Num.fin ((0 : ℕ) : ℚ) = _; simp
  have h1 : (1 : Num) = .fin 1 := by change Num.fin ((1 : ℕ) : ℚ) = _; simp
  simp only [boundEntry, Num.lt]
  by_cases a : hi < v
  · have b : ¬ v < lo := not_lt.2 (le_trans h (le_of_lt a))
    simp [a, b, ofBool, h0, h1, min_eq_left (le_of_lt a), max_eq_right h]
  · by_cases b : v < lo
    · simp [a, b, ofBool, h0, h1, min_eq_right (not_lt.1 a), max_eq_left (le_of_lt b)]
    · simp [a, b, ofBool, h0, h1, min_eq_right (not_lt.1 a), max_eq_right (not_lt.1 b)]

/-- **C41** On a finite column every value is clamped to the interval from `lo` to `hi`, which is
the median minus/plus five interquartile ranges of the column and is not empty. -/
theorem C41_clamp (junk : Num × Num) (col : List ℚ) (h : col ≠ []) :
    ∃ lo hi : ℚ, bounds col = (lo, hi) ∧ lo ≤ hi ∧
      boundCol junk (col.map Num.fin) = col.map (fun v => .fin (max lo (min hi v))) ∧
      (∀ v ∈ col, lo ≤ v → v ≤ hi → max lo (min hi v) = v) ∧
      (∀ v ∈ col, lo ≤ max lo (min hi v) ∧ max lo (min hi v) ≤ hi) := by
  have hle := bounds_order col h
  refine ⟨(bounds col).1, (bounds col).2, rfl, hle, ?_, ?_, ?_⟩
  · unfold boundCol boundsOf
    rw [finites_map, List.map_map]
    apply List.map_congr_left
    intro v _
    exact boundEntry_fin _ _ _ hle
  · intro v _ h1 h2
    rw [min_eq_right h2, max_eq_right h1]
  · intro v _
    exact ⟨le_max_left _ _, max_le hle (min_le_left _ _)⟩

theorem count_le_ge {s : List ℚ} (hs : s.Pairwise (· ≤ ·)) {i : Nat} (hi : i < s.length) {t : ℚ}
    (ht : s.getD i 0 ≤ t) : i + 1 ≤ s.countP (fun v => decide (v ≤ t)) := by
  have h1 : s.countP (fun v => decide (v ≤ t)) =
      (s.take (i + 1)).countP (fun v => decide (v ≤ t)) +
      (s.drop (i + 1)).countP (fun v => decide (v ≤ t)) := by
    rw [← List.countP_append, List.take_append_drop]
  have h2 : (s.take (i + 1)).countP (fun v => decide (v ≤ t)) = (s.take (i + 1)).length := by
    rw [List.countP_eq_length]
    intro v hv
    obtain ⟨k, hk, rfl⟩ := List.getElem_of_mem hv
    rw [List.length_take] at hk
    have := sorted_getD_le hs (show k ≤ i by omega) hi
    rw [List.getElem_take]
    simp only [decide_eq_true_eq]
    refine le_trans ?_ ht
    simpa [List.getD_eq_getElem?_getD, List.getElem?_eq_getElem hi,
      List.getElem?_eq_getElem (show k < s.length by omega)] using this
  rw [h1, h2, List.length_take]
  omega

theorem count_ge_ge {s : List ℚ} (hs : s.Pairwise (· ≤ ·)) {i : Nat} (hi : i < s.length) {t : ℚ}
    (ht : t ≤ s.getD i 0) : s.length - i ≤ s.countP (fun v => decide (t ≤ v)) := by
  have h1 : s.countP (fun v => decide (t ≤ v)) =
      (s.take i).countP (fun v => decide (t ≤ v)) +
      (s.drop i).countP (fun v => decide (t ≤ v)) := by
    rw [← List.countP_append, List.take_append_drop]
  have h2 : (s.drop i).countP (fun v => decide (t ≤ v)) = (s.drop i).length := by
    rw [List.countP_eq_length]
    intro v hv
    obtain ⟨k, hk, rfl⟩ := List.getElem_of_mem hv
    rw [List.length_drop] at hk
    have := sorted_getD_le hs (show i ≤ i + k by omega) (show i + k < s.length by omega)
    rw [List.getElem_drop]
    simp only [decide_eq_true_eq]
    refine le_trans ht ?_
    simpa [List.getD_eq_getElem?_getD, List.getElem?_eq_getElem hi,
      List.getElem?_eq_getElem (show i + k < s.length by omega)] using this
  rw [h1, h2, List.length_drop]
  omega

/-- **C41** The interval is centred on a median `m` of the column and its half-width is five times
the difference of two quartiles: at least half of the values are on each side of `m`, at least a
quarter below `q1`, and so on (up to rounding to whole values). -/
theorem C41_bounds (col : List ℚ) (h : col ≠ []) :
    ∃ m q1 q3 : ℚ, bounds col = (m - 5 * (q3 - q1), m + 5 * (q3 - q1)) ∧ q1 ≤ m ∧ m ≤ q3 ∧
      col.length ≤ 2 * col.countP (fun v => decide (v ≤ m)) ∧
      col.length ≤ 2 * col.countP (fun v => decide (m ≤ v)) ∧
      col.length ≤ 4 * col.countP (fun v => decide (v ≤ q1)) ∧
      3 * col.length ≤ 4 * col.countP (fun v => decide (q1 ≤ v)) + 2 ∧
      3 * col.length ≤ 4 * col.countP (fun v => decide (v ≤ q3)) + 2 ∧
      col.length ≤ 4 * col.countP (fun v => decide (q3 ≤ v)) := by
  have hs : (col.mergeSort (fun a b => decide (a ≤ b))).Pairwise (· ≤ ·) := by
    have := List.pairwise_mergeSort (le := fun a b : ℚ => decide (a ≤ b))
      (by intro a b c h1 h2; simp only [decide_eq_true_eq] at *; exact le_trans h1 h2)
      (by intro a b; simp only [Bool.or_eq_true, decide_eq_true_eq]; exact le_total a b) col
    exact this.imp (by intro a b h; simpa using h)
  have hperm : (col.mergeSort (fun a b => decide (a ≤ b))).Perm col := List.mergeSort_perm _ _
  have hl : 0 < (col.mergeSort (fun a b => decide (a ≤ b))).length := by
    rw [List.length_mergeSort]
    exact List.length_pos_iff.2 h
  refine ⟨median (col.mergeSort (fun a b => decide (a ≤ b))),
    quartile 1 (col.mergeSort (fun a b => decide (a ≤ b))),
    quartile 3 (col.mergeSort (fun a b => decide (a ≤ b))), rfl, ?_⟩
  simp only [← hperm.countP_eq, ← hperm.length_eq]
  generalize col.mergeSort (fun a b => decide (a ≤ b)) = s at hs hl
  have mono := fun {i j : Nat} => sorted_getD_le (i := i) (j := j) hs
  have m1 := mono (i := (s.length - 1) / 2) (j := s.length / 2) (by omega) (by omega)
  have a1 := mono (i := 1 * (s.length - 1) / 4) (j := (1 * (s.length - 1) + 3) / 4)
    (by omega) (by omega)
  have c1 := mono (i := 3 * (s.length - 1) / 4) (j := (3 * (s.length - 1) + 3) / 4)
    (by omega) (by omega)
  have d1 := mono (i := 1 * (s.length - 1) / 4) (j := (s.length - 1) / 2) (by omega) (by omega)
  have d2 := mono (i := (1 * (s.length - 1) + 3) / 4) (j := s.length / 2) (by omega) (by omega)
  have d3 := mono (i := (s.length - 1) / 2) (j := 3 * (s.length - 1) / 4) (by omega) (by omega)
  have d4 := mono (i := s.length / 2) (j := (3 * (s.length - 1) + 3) / 4) (by omega) (by omega)
  have e1 := count_le_ge hs (i := (s.length - 1) / 2) (by omega) (t := median s)
    (by unfold median; linarith)
  have e2 := count_ge_ge hs (i := s.length / 2) (by omega) (t := median s)
    (by unfold median; linarith)
  have e3 := count_le_ge hs (i := 1 * (s.length - 1) / 4) (by omega) (t := quartile 1 s)
    (by unfold quartile; linarith)
  have e4 := count_ge_ge hs (i := (1 * (s.length - 1) + 3) / 4) (by omega) (t := quartile 1 s)
    (by unfold quartile; linarith)
  have e5 := count_le_ge hs (i := 3 * (s.length - 1) / 4) (by omega) (t := quartile 3 s)
    (by unfold quartile; linarith)
  have e6 := count_ge_ge hs (i := (3 * (s.length - 1) + 3) / 4) (by omega) (t := quartile 3 s)
    (by unfold quartile; linarith)
  refine ⟨by unfold median quartile; linarith, by unfold median quartile; linarith, ?_⟩
  refine ⟨by omega, by omega, by omega, by omega, by omega, by omega⟩

-- Values 1..8 and an outlier: median 5, quartiles 3 and 7, so the interval is [-15, 25].
example : bounds [100, 1, 2, 3, 4, 5, 6, 7, 8] = (-15, 25) ∧
    boundCol (0, 0) ([100, 1, 2].map Num.fin ++ [3, 4, 5, 6, 7, 8].map Num.fin) =
      [25, 1, 2, 3, 4, 5, 6, 7, 8] := by
  have hs : ([100, 1, 2, 3, 4, 5, 6, 7, 8] : List ℚ).mergeSort (fun a b => decide (a ≤ b)) =
      [1, 2, 3, 4, 5, 6, 7, 8, 100] := by
    simp (decide := true) [List.mergeSort, List.MergeSort.Internal.splitInTwo, List.merge]
  have hb : bounds [100, 1, 2, 3, 4, 5, 6, 7, 8] = (-15, 25) := by
    unfold bounds
    rw [hs]
    norm_num [median, quartile]
  refine ⟨hb, ?_⟩
  have := C41_clamp (0, 0) [100, 1, 2, 3, 4, 5, 6, 7, 8] (by simp)
  obtain ⟨lo, hi, h1, -, h2, -⟩ := this
  rw [hb] at h1
  cases h1
  have e : ([100, 1, 2].map Num.fin ++ [3, 4, 5, 6, 7, 8].map Num.fin) =
    ([100, 1, 2, 3, 4, 5, 6, 7, 8] : List ℚ).map Num.fin := rfl
  rw [e, h2]
  decide +kernel

/-! ### C87: bounding a column with a missing value -/

/-- The full claim: after bounding, present values are still present. -/
def BoundKeepsPresent : Prop :=
  ∀ (junk : Num × Num) (col : List Num) (i : Nat) (q : ℚ), col[i]? = some (.fin q) →
    ∃ q', (boundCol junk col)[i]? = some (.fin q')

theorem boundEntry_nan (v : Num) : boundEntry .nan .nan v = .nan := by
  unfold boundEntry
  have h1 : Num.lt .nan v = false := rfl
  have h2 : Num.lt v .nan = false := by cases v <;> rfl
  rw [h1, h2]
  simp only [Bool.or_self, Bool.not_false]
  have h3 : ofBool false * Num.nan = .nan := rfl
  rw [h3]
  have h4 : ∀ a : Num, a + Num.nan = .nan := by intro a; cases a <;> rfl
  rw [h4]

theorem finites_nan {col : List Num} (h : .nan ∈ col) : finites col = none := by
  induction col with
  | nil => simp at h
  | cons a l ih =>
    rcases List.mem_cons.1 h with h0 | h0
    · subst h0; rfl
    · cases a <;> simp [finites, ih h0]

/-- **C87** exactly what happens: one missing value wipes the whole column. -/
theorem C87_wiped_partial (junk : Num × Num) (col : List Num) (h : .nan ∈ col) :
    boundCol junk col = col.map fun _ => .nan := by
  unfold boundCol boundsOf
  have : col.any Num.isNan = true := List.any_eq_true.2 ⟨.nan, h, rfl⟩
  rw [finites_nan h, this]
  simp only [if_true]
  apply List.map_congr_left
  intro v _
  exact boundEntry_nan v

/-- **C87** is false: a missing entry turns the other entries of its column into NaN. -/
theorem C87_refuted : ¬ BoundKeepsPresent := by
  intro h
  obtain ⟨q', h'⟩ := h (0, 0) [1, .nan] 0 1 (by decide +kernel)
  rw [C87_wiped_partial (0, 0) [1, .nan] (by simp)] at h'
  simp at h'

/-- **C87** holds for columns without missing or infinite values. -/
theorem C87_partial (junk : Num × Num) (col : List ℚ) (i : Nat) (q : ℚ) (h : col[i]? = some q) :
    ∃ q', (boundCol junk (col.map Num.fin))[i]? = some (.fin q') := by
  obtain ⟨lo, hi, -, -, h2, -⟩ := C41_clamp junk col (by rintro rfl; simp at h)
  refine ⟨max lo (min hi q), ?_⟩
  rw [h2, List.getElem?_map, h]
  rfl

/-! ### C42 and C89: normalisation -/

/-- The transformation returns as many numbers as it is given, and only numbers. -/
def Sensible (tr : List Num → List Num) : Prop :=
  ∀ l, (tr l).length = l.length ∧ ((∀ v ∈ l, ∃ q, v = .fin q) → ∀ v ∈ tr l, ∃ q, v = .fin q)

/-- The full claim for a feature column of finite or missing entries: missing entries stay
missing and present entries become numbers. -/
def NormKeepsMissing : Prop :=
  ∀ (tr : List Num → List Num) (col : List Num), Sensible tr →
    (∀ v ∈ col, v = .nan ∨ ∃ q, v = .fin q) →
    ∀ (i : Nat) (v : Num), col[i]? = some v →
      ∃ v', (normX tr col)[i]? = some v' ∧ (v = .nan ↔ v' = .nan)

theorem npMin_nan_left (l : List Num) : npMin .nan l = .nan := by
  induction l with
  | nil => rfl
  | cons b l ih => simpa [npMin, Num.isNan] using ih

theorem npMin_nan {a : Num} {l : List Num} (h : .nan ∈ a :: l) : npMin a l = .nan := by
  induction l generalizing a with
  | nil => simpa [npMin, eq_comm] using h
  | cons b l ih =>
    rw [npMin]
    cases ha : a.isNan with
    | true => simpa using npMin_nan_left l
    | false =>
      simp only [Bool.false_eq_true, if_false]
      cases hb : b.isNan with
      | true => simpa using npMin_nan_left l
      | false =>
        simp only [Bool.false_eq_true, if_false]
        apply ih
        have h1 : a ≠ .nan := by intro h; simp [h, Num.isNan] at ha
        have h2 : b ≠ .nan := by intro h; simp [h, Num.isNan] at hb
        simp only [List.mem_cons] at h ⊢
        rcases h with h | h | h
        · exact absurd h.symm h1
        · exact absurd h.symm h2
        · exact .inr h

theorem refill_all_nan {l : List Num} (h : ∀ v ∈ l, v = .nan) (ts : List Num) :
    refill l ts = l := by
  induction l with
  | nil => rfl
  | cons v l ih =>
    have hv := h v List.mem_cons_self
    subst hv
    simp [refill, Num.isNan, ih (fun w hw => h w (List.mem_cons_of_mem _ hw))]

theorem num_add_nan (a : Num) : a + Num.nan = .nan := by cases a <;> rfl
theorem num_nan_add (a : Num) : Num.nan + a = .nan := by cases a <;> rfl
theorem num_sub_nan (a : Num) : a - Num.nan = .nan := by cases a <;> rfl

/-- **C42** exactly what happens to features: a missing entry wipes its column, whatever the
transformation. -/
theorem C42_x_wiped_partial (tr : List Num → List Num) (col : List Num) (h : .nan ∈ col) :
    normX tr col = col.map fun _ => .nan := by
  cases col with
  | nil => rfl
  | cons a l =>
    rw [normX, npMin_nan h]
    have : (a :: l).map (fun v => v - Num.nan + 1) = (a :: l).map fun _ => Num.nan := by
      apply List.map_congr_left
      intro v _
      rw [num_sub_nan, num_nan_add]
    rw [this]
    unfold transform
    rw [refill_all_nan]
    intro v hv
    obtain ⟨_, -, rfl⟩ := List.mem_map.1 hv
    rfl

/-- **C42** exactly what happens to performances: a missing entry anywhere wipes all columns. -/
theorem C42_y_wiped_partial (tr : List Num → List Num) (cols : List (List Num))
    (h : .nan ∈ cols.flatten) : normY tr cols = cols.map fun c => c.map fun _ => .nan := by
  unfold normY
  cases hc : cols.flatten with
  | nil => rw [hc] at h; simp at h
  | cons a l =>
    rw [hc] at h
    simp only [npMin_nan h]
    apply List.map_congr_left
    intro c _
    have : c.map (fun v => v - Num.nan + .fin Num.eps) = c.map fun _ => Num.nan := by
      apply List.map_congr_left
      intro v _
      rw [num_sub_nan, num_nan_add]
    rw [this]
    unfold transform
    rw [refill_all_nan]
    intro v hv
    obtain ⟨_, -, rfl⟩ := List.mem_map.1 hv
    rfl

/-- **C42** is false: one missing entry makes the whole column missing. -/
theorem C42_refuted : ¬ NormKeepsMissing := by
  intro h
  obtain ⟨v', h1, h2⟩ := h id [1, .nan] (fun l => ⟨rfl, fun h => h⟩)
    (by
      intro v hv
      simp only [List.mem_cons, List.not_mem_nil, or_false] at hv
      rcases hv with rfl | rfl
      · exact .inr ⟨_, rfl⟩
      · exact .inl rfl) 0 1 rfl
  rw [C42_x_wiped_partial id [1, .nan] (by simp)] at h1
  simp only [List.map_cons, List.getElem?_cons_zero, Option.some.injEq] at h1
  exact absurd (h2.2 h1.symm) (by decide)

/-- The smallest element of a list of numbers. -/
def IsMin (m : ℚ) (l : List ℚ) : Prop := m ∈ l ∧ ∀ v ∈ l, m ≤ v

theorem npMin_fin (a : ℚ) (l : List ℚ) :
    ∃ m, npMin (.fin a) (l.map Num.fin) = .fin m ∧ IsMin m (a :: l) := by
  induction l generalizing a with
  | nil => exact ⟨a, rfl, by simp [IsMin]⟩
  | cons b l ih =>
    rw [List.map_cons, npMin]
    simp only [Num.isNan, Bool.false_eq_true, if_false, Num.lt]
    by_cases h : b < a
    · obtain ⟨m, h1, h2, h3⟩ := ih b
      refine ⟨m, by simpa [h] using h1, List.mem_cons_of_mem _ h2, ?_⟩
      intro v hv
      rcases List.mem_cons.1 hv with rfl | hv
      · exact le_trans (h3 b List.mem_cons_self) (le_of_lt h)
      · exact h3 v hv
    · obtain ⟨m, h1, h2, h3⟩ := ih a
      refine ⟨m, by simpa [h] using h1, ?_, ?_⟩
      · rcases List.mem_cons.1 h2 with rfl | h2
        · exact List.mem_cons_self
        · exact List.mem_cons_of_mem _ (List.mem_cons_of_mem _ h2)
      · intro v hv
        rcases List.mem_cons.1 hv with rfl | hv
        · exact h3 v List.mem_cons_self
        · rcases List.mem_cons.1 hv with rfl | hv
          · exact le_trans (h3 a List.mem_cons_self) (not_lt.1 h)
          · exact h3 v (List.mem_cons_of_mem _ hv)

theorem refill_fin {l : List ℚ} {ts : List Num} (h : ts.length = l.length) :
    refill (l.map Num.fin) ts = ts := by
  induction l generalizing ts with
  | nil => cases ts <;> simp_all [refill]
  | cons v l ih =>
    cases ts with
    | nil => simp at h
    | cons t ts =>
      simp only [List.map_cons, refill, Num.isNan, Bool.false_eq_true, if_false]
      rw [ih (by simpa using h)]

theorem transform_fin (tr : List Num → List Num) (htr : Sensible tr) (l : List ℚ) :
    transform tr (l.map Num.fin) = tr (l.map Num.fin) := by
  unfold transform
  have : (l.map Num.fin).filter (fun v => !v.isNan) = l.map Num.fin := by
    rw [List.filter_eq_self]
    intro v hv
    obtain ⟨q, -, rfl⟩ := List.mem_map.1 hv
    rfl
  rw [this, refill_fin]
  rw [(htr _).1, List.length_map]

/-- **C42** and **C89**: a feature column without missing or infinite entries is shifted so that
its smallest value becomes 1 and then transformed as a whole. -/
theorem C89_x (tr : List Num → List Num) (htr : Sensible tr) (col : List ℚ) (h : col ≠ []) :
    ∃ m, IsMin m col ∧ (∀ v ∈ col, 1 ≤ v - m + 1) ∧
      normX tr (col.map Num.fin) = tr (col.map fun v => .fin (v - m + 1)) := by
  cases col with
  | nil => exact absurd rfl h
  | cons a l =>
    obtain ⟨m, h1, h2⟩ := npMin_fin a l
    refine ⟨m, h2, fun v hv => by linarith [h2.2 v hv], ?_⟩
    rw [List.map_cons, normX, h1, ← List.map_cons, List.map_map]
    have h1' : (1 : Num) = .fin 1 := by change Num.fin ((1 : ℕ) : ℚ) = _; simp
    have : (a :: l).map ((fun v => v - Num.fin m + 1) ∘ Num.fin) =
        ((a :: l).map fun v => v - m + 1).map Num.fin := by
      rw [List.map_map]
      apply List.map_congr_left
      intro v _
      simp [h1']
    rw [this, transform_fin tr htr, List.map_map]
    rfl

/-- **C89** for performances: with no missing or infinite entry, all columns are shifted by one
common minimum so that every value is at least the (positive) machine epsilon. -/
theorem C89_y (tr : List Num → List Num) (htr : Sensible tr) (cols : List (List ℚ))
    (h : cols.flatten ≠ []) :
    ∃ m, IsMin m cols.flatten ∧ 0 < Num.eps ∧
      (∀ c ∈ cols, ∀ v ∈ c, Num.eps ≤ v - m + Num.eps) ∧
      normY tr (cols.map fun c => c.map Num.fin) =
        cols.map fun c => tr (c.map fun v => .fin (v - m + Num.eps)) := by
  have hf : (cols.map fun c => c.map Num.fin).flatten = cols.flatten.map Num.fin := by
    rw [List.map_flatten]
  cases hc : cols.flatten with
  | nil => exact absurd hc h
  | cons a l =>
    obtain ⟨m, h1, h2⟩ := npMin_fin a l
    refine ⟨m, h2, Num.eps_pos, ?_, ?_⟩
    · intro c hc' v hv
      have : v ∈ cols.flatten := List.mem_flatten.2 ⟨c, hc', hv⟩
      rw [hc] at this
      linarith [h2.2 v this]
    · unfold normY
      rw [hf, hc, List.map_cons]
      simp only [h1, List.map_map]
      apply List.map_congr_left
      intro c _
      have : c.map ((fun v => v - Num.fin m + Num.fin Num.eps) ∘ Num.fin) =
          (c.map fun v => v - m + Num.eps).map Num.fin := by
        rw [List.map_map]
        apply List.map_congr_left
        intro v _
        simp
      have e : transform tr ((c.map fun v => v - m + Num.eps).map Num.fin) =
        tr (c.map fun v => Num.fin (v - m + Num.eps)) := by
        rw [transform_fin tr htr, List.map_map]
        rfl
      rw [← e, ← this]
      simp [Function.comp_def]

/-- **C42**, the part that holds: in a column without missing or infinite entries all entries
become numbers.  Missing for the full property: columns with missing entries. -/
theorem C42_partial (tr : List Num → List Num) (htr : Sensible tr) (col : List ℚ) (i : Nat) (q : ℚ)
    (hi : col[i]? = some q) : ∃ q', (normX tr (col.map Num.fin))[i]? = some (.fin q') := by
  have hne : col ≠ [] := by rintro rfl; simp at hi
  obtain ⟨m, -, -, h⟩ := C89_x tr htr col hne
  have hlen : (normX tr (col.map Num.fin)).length = col.length := by
    rw [h, (htr _).1, List.length_map]
  have hlt : i < (normX tr (col.map Num.fin)).length := by
    rw [hlen]
    exact (List.getElem?_eq_some_iff.1 hi).1
  obtain ⟨q', hq'⟩ := (htr (col.map fun v => Num.fin (v - m + 1))).2
    (by
      intro v hv
      obtain ⟨w, -, rfl⟩ := List.mem_map.1 hv
      exact ⟨_, rfl⟩) (normX tr (col.map Num.fin))[i] (by rw [← h]; exact List.getElem_mem hlt)
  exact ⟨q', by rw [List.getElem?_eq_getElem hlt, hq']⟩

example : normX id [3, 1, 7] = [3, 1, 7] ∧ normX id [5, 3, 9] = [3, 1, 7] ∧
    normX id [5, .nan, 9] = [.nan, .nan, .nan] := by decide +kernel

/-! ### C88: relative performances and normalisation -/

/-- The full claim: what is normalised is the performance measure that is returned when
normalisation is off. -/
def NormalisesMeasure : Prop :=
  ∀ (o : Opts) (tr : List Num → List Num) (nalgos : Nat) (ys : List (List Num)),
    o.norm = true → outY o tr nalgos ys =
      (outY { o with norm := false } tr nalgos ys).map (normY tr)

/-- **C88** is false: with relative performances, normalisation works on the raw performances and
the relative measure is discarded. -/
theorem C88_refuted : ¬ NormalisesMeasure := by
  intro h
  have := h ⟨true, false, .fin (1/20), 1, false, true⟩ id 1 [[2], [4]] rfl
  exact absurd this (by decide +kernel)

theorem rows_norm (o : Opts) (n : Bool) (ys : List (List Num)) :
    rows { o with norm := n } ys = rows o ys := by
  induction ys with
  | nil => rfl
  | cons r ys ih =>
    have : rowStep { o with norm := n } r = rowStep o r := rfl
    rw [rows, rows, this, ih]

/-- **C88** holds for absolute performances.  Missing: relative performances. -/
theorem C88_partial (o : Opts) (habs : o.absPerf = true) (tr : List Num → List Num) (nalgos : Nat)
    (ys : List (List Num)) (hn : o.norm = true) :
    outY o tr nalgos ys = (outY { o with norm := false } tr nalgos ys).map (normY tr) := by
  have hy : ∀ (ys : List (List Num)) (outs : List Row), rows o ys = some outs →
      outs.map Row.yIn = outs.map Row.y := by
    intro ys
    induction ys with
    | nil => intro outs h; cases h; rfl
    | cons r ys ih =>
      intro outs h
      rw [rows] at h
      cases hr : rowStep o r with
      | none => rw [hr] at h; cases h
      | some out =>
        cases hrs : rows o ys with
        | none => rw [hr, hrs] at h; cases h
        | some outs' =>
          rw [hr, hrs] at h
          cases h
          obtain ⟨_, -, -, -, -, -, -, -, h8, h9⟩ := rowStep_some hr
          simp only [List.map_cons]
          rw [ih outs' hrs, h8, h9, habs]
          simp
  unfold outY
  simp only [rows_norm, hn]
  cases hr : rows o ys with
  | none => rfl
  | some outs => simp [hy ys outs hr]

example : outY ⟨true, false, .fin (1/20), 1, false, false⟩ id 2 [[2, 4], [4, 1]] =
    some [[.fin (1/2), 0], [0, .fin (3/4)]] := by decide +kernel

/-! ### C46 -/

/-- The full claim. -/
def RawKept : Prop :=
  ∀ (o : Opts) (heap : Arrs) (y yRaw : Nat), heap y = heap yRaw →
    yRawOut o heap y yRaw = heap yRaw

/-- **C46** is false: with relative performances and the sharing that preprocessing produces,
zeros in `y_raw` are replaced by the machine epsilon. -/
theorem C46_refuted : ¬ RawKept := by
  intro h
  have := h ⟨true, false, .fin (1/20), 1, false, false⟩ (fun _ => [[0, 1]]) 7 7 rfl
  exact absurd this (by decide +kernel)

/-- **C46** exactly: `y_raw` is unchanged if and only if performances are absolute, or `y` is a
different object, or no performance is 0.  Missing for the full property: the remaining case. -/
theorem C46_partial (o : Opts) (heap : Arrs) (y yRaw : Nat) :
    yRawOut o heap y yRaw = heap yRaw ↔
      o.absPerf = true ∨ y ≠ yRaw ∨ ∀ row ∈ heap yRaw, (0 : Num) ∉ row := by
  unfold yRawOut afterPrelim
  cases o.absPerf with
  | true => simp
  | false =>
    simp only [Bool.false_eq_true, if_false, false_or]
    by_cases hy : yRaw = y
    · subst hy
      simp only [if_true, ne_eq, not_true_eq_false, false_or]
      constructor
      · intro h row hrow h0
        obtain ⟨i, hi, rfl⟩ := List.getElem_of_mem hrow
        have h1 : ((heap yRaw).map fun row => row.map fixZero)[i]? = (heap yRaw)[i]? := by rw [h]
        rw [List.getElem?_map, List.getElem?_eq_getElem hi] at h1
        simp only [Option.map_some, Option.some.injEq] at h1
        obtain ⟨k, hk, hk0⟩ := List.getElem_of_mem h0
        have h2 : (((heap yRaw)[i]).map fixZero)[k]? = ((heap yRaw)[i])[k]? := by rw [h1]
        rw [List.getElem?_map, List.getElem?_eq_getElem hk, hk0] at h2
        simp only [Option.map_some, Option.some.injEq] at h2
        exact absurd h2 (by decide +kernel)
      · intro h
        have : ∀ row ∈ heap yRaw, row.map fixZero = row := by
          intro row hrow
          have : ∀ v ∈ row, fixZero v = v := fun v hv =>
            fixZero_ne (by rintro rfl; exact h row hrow hv)
          rw [List.map_congr_left this, List.map_id']
        rw [List.map_congr_left this, List.map_id']
    · simp only [if_neg hy, true_iff]
      exact .inl (fun h => hy h.symm)

example : yRawOut ⟨true, false, .fin (1/20), 1, false, false⟩ (fun _ => [[0, 1]]) 7 8 = [[0, 1]] := by
  decide +kernel

end Verif.Prelim
