import Verif.Double.DistanceLemmas
import Verif.Filter.Props
/-!
# The instance filter in double precision (C180)
-/
set_option autoImplicit false
set_option linter.unusedSectionVars false

namespace Verif.Double

open Verif (Num)
open Verif.Filter (filterInstance keptRows Kept Covers)

/-! ### Specification -/

/-- The features of the instances are finite doubles, `n` per instance. -/
def FiniteFeatures (n : Nat) (rows : List Inst) : Prop :=
  ∀ r ∈ rows, ∃ v : List ℚ, r.x = v.map .fin ∧ v.length = n ∧ ∀ q ∈ v, IsDouble q

/-- Moreover none is larger than `2 ^ 500` and different values of a feature differ by at least `2 ^ -500`. -/
def ModerateFeatures (n : Nat) (rows : List Inst) : Prop :=
  ∀ a ∈ rows, ∀ b ∈ rows, ∃ v w : List ℚ, a.x = v.map .fin ∧ b.x = w.map .fin ∧ v.length = n ∧
    List.Forall₂ Apart v w

/-- With the distance 0 and type `Ftr` only repetitions are removed: a removed instance has the features of an
earlier instance. -/
def OnlyRepetitions (rows : List Inst) (flags : List Filter.Flags) : Prop :=
  ∀ (j : Nat) (b : Inst) (f : Filter.Flags), rows[j]? = some b → flags[j]? = some f → f.excluded = true →
    ∃ (i : Nat) (a : Inst), i < j ∧ rows[i]? = some a ∧ a.x = b.x

theorem mem_of_kept {rows : List Inst} {flags : List Filter.Flags} {a : Inst} (h : a ∈ keptRows rows flags) :
    a ∈ rows := by
  unfold keptRows at h
  obtain ⟨⟨b, f⟩, hp, rfl⟩ := List.mem_map.1 h
  exact (List.of_mem_zip (List.mem_filter.1 hp).1).1

theorem covers_near {T : Filter.Tests Inst} {ty : Filter.FilterType} {a b : Inst} (h : Covers T ty a b) :
    T.near a b = true := by
  cases ty
  · exact h
  · exact h.1
  · exact h.1
  · exact h.1

/-! ### Theorems -/

/-- **C180.**  The distance is computed symmetrically: which of two instances comes first does not matter for
whether they are near. -/
theorem C180_symmetric (nalgos nfeats : Nat) (d : Num) (ty : Filter.FilterType) (a b : Inst)
    (h : Covers (filterTests nalgos nfeats d) ty a b) : Covers (filterTests nalgos nfeats d) ty b a := by
  have hn : (filterTests nalgos nfeats d).near a b = (filterTests nalgos nfeats d).near b a := by
    simp only [filterTests, dist_symm]
  have hc : (filterTests nalgos nfeats d).close a b = (filterTests nalgos nfeats d).close b a := by
    simp only [filterTests, dist_symm a.y]
  have hg : (filterTests nalgos nfeats d).bothGood a b = (filterTests nalgos nfeats d).bothGood b a := by
    simp only [filterTests]
    rw [List.zipWith_comm]
    simp only [Bool.and_comm]
  cases ty <;> simp only [Covers, hn, hc, hg] at h ⊢ <;> exact h

/-- **C180.**  Repetitions are always recognised: with type `Ftr` no two kept instances have the same features,
whatever the (nonnegative) distance is. -/
theorem C180_repetitions {nalgos nfeats n : Nat} {d : ℚ} (hd : 0 ≤ d) {rows : List Inst}
    (h : FiniteFeatures n rows) :
    (keptRows rows (filterInstance (filterTests nalgos nfeats (.fin d)) .ftr rows)).Pairwise
      fun a b => a.x ≠ b.x := by
  refine (Filter.C32_kept_apart _ .ftr rows).imp_of_mem ?_
  intro a b ha _ hc e
  refine hc ?_
  obtain ⟨v, hv, -, -⟩ := h a (mem_of_kept ha)
  simp only [Covers, filterTests]
  rw [← e, hv, dist_self]
  simpa [Num.le] using hd

/-- The features 0 and `2 ^ -600` of two instances. -/
def smallRows : List Inst := [⟨[.fin 0], [.fin 1], [true]⟩, ⟨[.fin (1 / 2 ^ 600)], [.fin 1], [true]⟩]

theorem smallRows_finite : FiniteFeatures 1 smallRows := by
  intro r hr
  simp only [smallRows, List.mem_cons, List.not_mem_nil, or_false] at hr
  rcases hr with rfl | rfl
  · exact ⟨[0], rfl, rfl, by simpa using isDouble_zero⟩
  · refine ⟨[1 / 2 ^ 600], rfl, rfl, ?_⟩
    intro q hq
    rw [List.mem_singleton] at hq
    rw [hq]
    refine ⟨⟨1, -600, ?_, by norm_num, by norm_num⟩, ?_⟩
    · rw [zpow_neg]
      norm_cast
    · rw [abs_of_pos (by positivity)]
      unfold limit
      refine lt_of_le_of_lt (b := 1) ?_ (one_lt_pow₀ (by norm_num) (by norm_num))
      rw [div_le_one (by positivity)]
      exact one_le_pow₀ (by norm_num)

/-- **C180 is false.**  With the distance 0 an instance is removed that differs from all others: the square of a small
difference underflows to 0. -/
theorem C180_refuted : ¬ ∀ (nalgos nfeats n : Nat) (rows : List Inst), FiniteFeatures n rows →
    OnlyRepetitions rows (filterInstance (filterTests nalgos nfeats (.fin 0)) .ftr rows) := by
  intro h
  obtain ⟨i, a, hi, ha, e⟩ := h 1 1 1 smallRows smallRows_finite 1 _ ⟨true, false, false⟩ rfl
    (by decide +kernel) rfl
  obtain rfl : i = 0 := by omega
  simp only [smallRows, List.getElem?_cons_zero, Option.some.injEq] at ha
  rw [← ha] at e
  revert e
  decide +kernel

/-- **C180**, for features that are not extremely large or close to each other: a removed instance is near an earlier
kept one, where the exact distance may exceed the given one by the factor `(1 - 2⁻⁵³)⁻⁽ⁿ⁺⁴⁾` at most. -/
theorem C180_removed_partial {nalgos nfeats n : Nat} {d : ℚ} {ty : Filter.FilterType} {rows : List Inst}
    (hn : n ≤ 2 ^ 20) (h : ModerateFeatures n rows) {j : Nat} {b : Inst} {f : Filter.Flags}
    (hb : rows[j]? = some b)
    (hf : (filterInstance (filterTests nalgos nfeats (.fin d)) ty rows)[j]? = some f) (he : f.excluded = true) :
    ∃ i a, i < j ∧ Kept rows (filterInstance (filterTests nalgos nfeats (.fin d)) ty rows) i a ∧
      (1 - 1 / 2 ^ 53 : ℝ) ^ (n + 4) * Filter.euclid (values a.x) (values b.x) ≤ d := by
  obtain ⟨i, a, hi, hk, hc⟩ := (Filter.C31_removed_covered _ ty rows).2.1 j b f hb hf he
  refine ⟨i, a, hi, hk, ?_⟩
  obtain ⟨v, w, hv, hw, hl, hvw⟩ := h a (List.mem_of_getElem? hk.1) b (List.mem_of_getElem? hb)
  obtain ⟨r, hr, h1, -⟩ := dist_within hvw (hl ▸ hn)
  have := covers_near hc
  simp only [filterTests] at this
  rw [hv, hw, hr] at this
  simp only [Num.le, decide_eq_true_eq] at this
  rw [hv, hw, ← hl]
  unfold unit at h1
  push_cast at h1
  exact h1.trans (by exact_mod_cast this)

/-- **C180**, for features that are not extremely large or close to each other: with type `Ftr` any two kept instances
are further apart than the given distance, up to the factor `(1 + 2⁻⁵³)ⁿ⁺⁴`. -/
theorem C180_kept_partial {nalgos nfeats n : Nat} {d : ℚ} {rows : List Inst}
    (hn : n ≤ 2 ^ 20) (h : ModerateFeatures n rows) :
    (keptRows rows (filterInstance (filterTests nalgos nfeats (.fin d)) .ftr rows)).Pairwise fun a b =>
      d < (1 + 1 / 2 ^ 53 : ℝ) ^ (n + 4) * Filter.euclid (values a.x) (values b.x) := by
  refine (Filter.C32_kept_apart _ .ftr rows).imp_of_mem ?_
  intro a b ha hb hc
  obtain ⟨v, w, hv, hw, hl, hvw⟩ := h a (mem_of_kept ha) b (mem_of_kept hb)
  obtain ⟨r, hr, -, h2⟩ := dist_within hvw (hl ▸ hn)
  simp only [Covers, filterTests] at hc
  rw [hv, hw, hr] at hc
  simp only [Num.le, decide_eq_true_eq, not_le] at hc
  rw [hv, hw, ← hl]
  unfold unit at h2
  push_cast at h2
  exact lt_of_lt_of_le (by exact_mod_cast hc) h2

/-- **C180**, for features that are not extremely large or close to each other: with the distance 0 only repetitions
are removed. -/
theorem C180_partial {nalgos nfeats n : Nat} {ty : Filter.FilterType} {rows : List Inst} (hn : n ≤ 2 ^ 20)
    (h : ModerateFeatures n rows) :
    OnlyRepetitions rows (filterInstance (filterTests nalgos nfeats (.fin 0)) ty rows) := by
  intro j b f hb hf he
  obtain ⟨i, a, hi, hk, hc⟩ := C180_removed_partial hn h hb hf he
  refine ⟨i, a, hi, hk.1, ?_⟩
  obtain ⟨v, w, hv, hw, hl, hvw⟩ := h a (List.mem_of_getElem? hk.1) b (List.mem_of_getElem? hb)
  rw [hv, hw, values_fin, values_fin, euclid_exact] at hc
  have hpos : (0 : ℝ) < (1 - 1 / 2 ^ 53) ^ (n + 4) := pow_pos (by norm_num) _
  have h0 : Real.sqrt (exactSum v w) ≤ 0 := by
    by_contra hc'
    have := mul_pos hpos (not_le.1 hc')
    push_cast at hc
    linarith
  have h1 : exactSum v w ≤ 0 := by
    have := Real.sqrt_eq_zero'.1 (le_antisymm h0 (Real.sqrt_nonneg _))
    exact_mod_cast this
  rw [hv, hw]
  congr 1
  clear hv hw hl hc h0
  induction hvw with
  | nil => rfl
  | cons hxy hr ih =>
    rename_i x y v w
    have e : exactSum (x :: v) (y :: w) = (x - y) ^ 2 + exactSum v w := by
      unfold exactSum
      rw [List.zipWith_cons_cons, List.sum_cons]
    rw [e] at h1
    have s0 := exactSum_nonneg v w
    have x0 : 0 ≤ (x - y) ^ 2 := sq_nonneg _
    have : (x - y) ^ 2 = 0 := by linarith
    rw [sub_eq_zero.1 (pow_eq_zero_iff (by norm_num) |>.1 this), ih (by linarith)]

/-- Three instances with two features; the first and the last are one tenth (rounded) apart. -/
def exRows : List Inst :=
  [⟨[.fin 0, .fin 1], [.fin 1], [true]⟩, ⟨[.fin 3, .fin 5], [.fin 1], [true]⟩,
    ⟨[.fin (3602879701896397 / 2 ^ 55), .fin 1], [.fin 1], [true]⟩]

theorem exRows_moderate : ModerateFeatures 2 exRows := by
  have fz : Fits 500 0 := ⟨isDouble_zero, by rw [abs_zero]; positivity⟩
  have p500 : (8 : ℚ) ≤ 2 ^ 500 := by
    have : (2 : ℚ) ^ 3 ≤ 2 ^ 500 := pow_le_pow_right₀ (by norm_num) (by norm_num)
    calc (8 : ℚ) = 2 ^ 3 := by norm_num
      _ ≤ 2 ^ 500 := this
  have fi : ∀ k : ℤ, |k| ≤ 8 → Fits 500 k := fun k hk =>
    ⟨isDouble_int (hk.trans (by norm_num)), by
      have : ((|k| : ℤ) : ℚ) ≤ 8 := by exact_mod_cast hk
      rw [Int.cast_abs] at this
      exact this.trans p500⟩
  have ft : Fits 500 (3602879701896397 / 2 ^ 55) := by
    refine ⟨(toDouble_fin (q := 1 / 10) (by decide +kernel)).2, ?_⟩
    rw [abs_of_pos (by positivity)]
    refine le_trans ?_ p500
    norm_num
  have small : (2 : ℚ) ^ (-500 : ℤ) ≤ 1 / 16 := by
    refine (two_zpow_mono (by norm_num : (-500 : ℤ) ≤ -4)).trans ?_
    norm_num
  have f1 := fi 1 (by norm_num)
  have f3 := fi 3 (by norm_num)
  have f5 := fi 5 (by norm_num)
  push_cast at f1 f3 f5
  have ap : ∀ a b : ℚ, Fits 500 a → Fits 500 b → (a = b ∨ 1 / 16 ≤ |a - b|) → Apart a b := fun a b ha hb h =>
    ⟨ha, hb, h.imp_right small.trans⟩
  have e : ∀ r ∈ exRows, ∃ v ∈ [[0, 1], [3, 5], [(3602879701896397 / 2 ^ 55 : ℚ), 1]], r.x = v.map .fin := by
    intro r hr
    simp only [exRows, List.mem_cons, List.not_mem_nil, or_false] at hr
    rcases hr with rfl | rfl | rfl
    · exact ⟨[0, 1], by simp, rfl⟩
    · exact ⟨[3, 5], by simp, rfl⟩
    · exact ⟨[3602879701896397 / 2 ^ 55, 1], by simp, rfl⟩
  intro a ha b hb
  obtain ⟨v, hv, ea⟩ := e a ha
  obtain ⟨w, hw, eb⟩ := e b hb
  refine ⟨v, w, ea, eb, ?_, ?_⟩
  · simp only [List.mem_cons, List.not_mem_nil, or_false] at hv
    rcases hv with rfl | rfl | rfl <;> rfl
  · simp only [List.mem_cons, List.not_mem_nil, or_false] at hv hw
    rcases hv with rfl | rfl | rfl <;> rcases hw with rfl | rfl | rfl <;>
      refine .cons (ap _ _ (by assumption) (by assumption) ?_) (.cons (ap _ _ (by assumption) (by assumption) ?_) .nil) <;>
      norm_num [abs_of_pos, abs_of_neg]

/-- Non-vacuity: with the distance one fifth the third instance is removed, with one twentieth none is. -/
example : ModerateFeatures 2 exRows ∧
    (filterInstance (filterTests 1 2 (toDouble (1 / 5))) .ftr exRows).map (·.excluded) = [false, false, true] ∧
    (filterInstance (filterTests 1 2 (toDouble (1 / 20))) .ftr exRows).map (·.excluded) = [false, false, false] :=
  ⟨exRows_moderate, by decide +kernel, by decide +kernel⟩

end Verif.Double
