import Verif.Double.PrelimLemmas
/-!
# The instances with many good algorithms, in double precision (C174)
-/
set_option autoImplicit false
set_option linter.unusedSectionVars false

namespace Verif.Double

open Verif (Num)
open Verif.Prelim (Opts Row MarkedGood)

variable {o : Opts} {row : List Num} {out : Row}

/-- How many of the `n` algorithms are marked good. -/
def goodCount (n : Nat) (out : Row) : Nat := ((List.range n).filter fun j => out.yBin[j]? == some true).length

/-- The full claim: an instance is marked as one with many good algorithms exactly if the share of the good
algorithms is more than the threshold. -/
def ShareAboveThreshold : Prop :=
  ∀ (o : Opts) (t : ℚ) (row : List Num) (out : Row), o.betaThreshold = .fin t → IsDouble t → 0 ≤ t → t ≤ 1 →
    rowStep o row = some out → (out.beta = true ↔ t < goodCount row.length out / row.length)

/-- **C174** is false: with the threshold 0.6, which as a double is a little less than 0.6, and three of five
algorithms good, the product of 0.6 and 5 is rounded up to 3. -/
theorem C174_refuted : ¬ ShareAboveThreshold := by
  intro hall
  have he : toDouble (3 / 5) = .fin (5404319552844595 / 2 ^ 53) := by decide +kernel
  have h := hall ⟨true, true, .fin 1, .fin (5404319552844595 / 2 ^ 53), false, false⟩
    (5404319552844595 / 2 ^ 53) [.fin 1, .fin 1, .fin 1, .fin 0, .fin 0] _ rfl (toDouble_fin he).2
    (by norm_num) (by norm_num) rfl
  have h1 := h.2 (by
    rw [show goodCount _ _ = 3 by decide +kernel]
    norm_num)
  revert h1
  decide +kernel

theorem count_getElem (l : List Bool) :
    l.count true = ((List.range l.length).filter fun j => l[j]? == some true).length := by
  induction l using List.reverseRecOn with
  | nil => rfl
  | append_singleton l a ih =>
    rw [List.count_append, ih, List.length_append, List.length_singleton, List.range_succ,
      List.filter_append, List.length_append]
    congr 1
    · congr 1
      refine List.filter_congr fun j hj => ?_
      rw [List.getElem?_append_left (List.mem_range.1 hj)]
    · cases a <;> simp

theorem goodCount_eq (h : rowStep o row = some out) : goodCount row.length out = out.numGood := by
  obtain ⟨ex, -, -, -, -, hb, hn, -⟩ := rowStep_some h
  rw [hn, count_getElem]
  unfold goodCount
  rw [show out.yBin.length = row.length by rw [hb]; simp]

/-- **C174, the true part.**  If the share of the good algorithms differs from the threshold by more than
`2 ^ -52`, the instance is marked exactly if the share is more than the threshold.  Missing for the full
property: the shares next to the threshold. -/
theorem C174_partial {t : ℚ} (ht : o.betaThreshold = .fin t) (h0 : 0 ≤ t) (h1 : t ≤ 1)
    (hsmall : row.length ≤ 2 ^ 53) (h : rowStep o row = some out)
    (hfar : 1 / 2 ^ 52 < |(goodCount row.length out : ℚ) / row.length - t|) :
    out.beta = true ↔ t < goodCount row.length out / row.length := by
  have hg := goodCount_eq h
  rw [hg] at hfar ⊢
  obtain ⟨ex, hex, -, -, -, -, -, hb, -⟩ := rowStep_some h
  have hne : row ≠ [] := by rintro rfl; cases h
  have hn : (1 : ℚ) ≤ row.length := by exact_mod_cast List.length_pos_iff.2 hne
  have hd : IsDouble (row.length : ℚ) := by
    have := isDouble_int (k := (row.length : ℤ)) (by rw [abs_of_nonneg (by omega)]; exact_mod_cast hsmall)
    exact_mod_cast this
  rw [hb, ht]
  revert hfar hn hd
  generalize (row.length : ℚ) = n
  generalize (out.numGood : ℚ) = g
  intro hfar hn hd
  have hmul : mul (.fin t) (.fin n) = toDouble (t * n) := rfl
  rw [hmul]
  have htn : t * n ≤ n := by nlinarith
  have htn0 : 0 ≤ t * n := by nlinarith
  have hup := toDouble_mono htn
  rw [toDouble_exact hd] at hup
  have hlo := toDouble_mono htn0
  rw [toDouble_zero] at hlo
  obtain ⟨r, hr⟩ : ∃ r, toDouble (t * n) = .fin r := by
    cases hr : toDouble (t * n) with
    | nan => exact absurd hr (toDouble_ne_nan _)
    | ninf => rw [hr] at hlo; simp [Num.le] at hlo
    | pinf => rw [hr] at hup; simp [Num.le] at hup
    | fin r => exact ⟨r, rfl⟩
  have herr := toDouble_error hr
  rw [hr, abs_of_nonneg htn0] at *
  have htiny : (1 : ℚ) / 2 ^ 1075 ≤ 1 / 2 ^ 53 :=
    one_div_le_one_div_of_le (by positivity) (pow_le_pow_right₀ (by norm_num) (by norm_num))
  have hpos : 0 < n := by linarith
  have hbound : |r - t * n| ≤ n / 2 ^ 52 := by
    refine herr.trans ?_
    generalize (1 : ℚ) / 2 ^ 1075 = x at htiny
    norm_num at htiny ⊢
    linarith
  have hscale : |g / n - t| = |g - t * n| / n := by
    rw [show g / n - t = (g - t * n) / n by field_simp, abs_div, abs_of_pos hpos]
  rw [hscale, lt_div_iff₀ hpos] at hfar
  rw [lt_div_iff₀ hpos]
  simp only [Num.lt, decide_eq_true_eq]
  have hfar' : n / 2 ^ 52 < |g - t * n| := by
    calc n / 2 ^ 52 = 1 / 2 ^ 52 * n := by ring
      _ < _ := hfar
  rw [abs_le] at hbound
  rcases lt_abs.1 hfar' with hf | hf
  · constructor <;> intro hh <;> linarith
  · constructor <;> intro hh <;> linarith

/-- Non-vacuity: four of five algorithms good. -/
example : ∃ out, rowStep ⟨true, true, .fin 1, .fin (5404319552844595 / 2 ^ 53), false, false⟩
      [.fin 1, .fin 1, .fin 1, .fin 0, .fin 2] = some out ∧ goodCount 5 out = 4 ∧ out.beta = true ∧
      (1 : ℚ) / 2 ^ 52 < |((4 : ℕ) : ℚ) / ((5 : ℕ) : ℚ) - 5404319552844595 / 2 ^ 53| := by
  refine ⟨_, rfl, by decide +kernel, by decide +kernel, ?_⟩
  rw [lt_abs]
  left
  norm_num

/-- **C174.**  In double precision, too, an instance marked as one with many good algorithms stays so when
more algorithms are good or the threshold is lowered. -/
theorem C174_monotone {o' : Opts} {row' : List Num} {out' : Row} (h : rowStep o row = some out)
    (h' : rowStep o' row' = some out') (hlen : row'.length = row.length)
    (hth : ∃ t t', o.betaThreshold = .fin t ∧ o'.betaThreshold = .fin t' ∧ t' ≤ t)
    (hmore : goodCount row.length out ≤ goodCount row'.length out') (hb : out.beta = true) :
    out'.beta = true := by
  obtain ⟨t, t', ht, ht', hle⟩ := hth
  rw [goodCount_eq h, goodCount_eq h'] at hmore
  obtain ⟨-, -, -, -, -, -, -, b1, -⟩ := rowStep_some h
  obtain ⟨-, -, -, -, -, -, -, b2, -⟩ := rowStep_some h'
  rw [b1, ht] at hb
  rw [b2, ht', hlen]
  have hm : (mul (.fin t') (.fin (row.length : ℚ))).le (mul (.fin t) (.fin (row.length : ℚ))) = true :=
    toDouble_mono (by gcongr)
  have hg : (Num.fin (out.numGood : ℚ)).le (.fin (out'.numGood : ℚ)) = true := by
    simp only [Num.le, decide_eq_true_eq]
    exact_mod_cast hmore
  revert hm hb hg
  generalize mul (.fin t') (.fin (row.length : ℚ)) = a
  generalize mul (.fin t) (.fin (row.length : ℚ)) = b
  intro hm hb hg
  cases a <;> cases b <;> simp_all [Num.lt, Num.le]
  have : (out.numGood : ℚ) ≤ out'.numGood := by exact_mod_cast hmore
  linarith

/-- Non-vacuity of `C174_monotone`: one more algorithm is good. -/
example : ∃ out out', rowStep ⟨true, true, .fin 1, .fin (1 / 2), false, false⟩ [.fin 1, .fin 2, .fin 0] = some out ∧
      rowStep ⟨true, true, .fin 1, .fin (1 / 4), false, false⟩ [.fin 1, .fin 2, .fin 3] = some out' ∧
      goodCount 3 out = 2 ∧ goodCount 3 out' = 3 ∧ out.beta = true :=
  ⟨_, _, rfl, rfl, by decide +kernel, by decide +kernel, by decide +kernel⟩

end Verif.Double
