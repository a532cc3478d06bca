import Verif.Double.Lemmas
import Verif.Double.Prelim
import Verif.Prelim.PropsMeta
/-!
# Lemmas about the verdicts in double precision
-/
set_option autoImplicit false
set_option linter.unusedSectionVars false

namespace Verif.Double

open Verif (Num)
open Verif.Prelim (Opts Row aux extreme argExtreme fixZero firstTrue MarkedGood IsBest AtLeastAsGood)

/-- Everything but the verdicts, the measure and the counts of verdicts is the same as without rounding. -/
theorem rowStep_some {o : Opts} {row : List Num} {out : Row} (h : rowStep o row = some out) :
    ∃ ex, Prelim.rowStep o row = some ex ∧ out.yBest = ex.yBest ∧ out.p = ex.p ∧ out.yIn = ex.yIn ∧
      out.yBin = row.map (fun v => good o out.yBest (aux o.maxPerf v)) ∧
      out.numGood = out.yBin.count true ∧
      out.beta = Num.lt (mul o.betaThreshold (.fin row.length)) (.fin out.numGood) ∧
      (o.absPerf = true → out.y = ex.y) := by
  unfold rowStep at h
  unfold Prelim.rowStep
  cases hr : row.map (aux o.maxPerf) with
  | nil => rw [hr] at h; cases h
  | cons a l =>
    rw [hr] at h
    simp only [Option.some.injEq] at h
    subst h
    refine ⟨_, rfl, rfl, rfl, rfl, ?_, rfl, rfl, ?_⟩
    · dsimp only
      rw [← hr, List.map_map]
      rfl
    · intro ha
      simp [ha]

theorem rowStep_isSome (o : Opts) (row : List Num) :
    (rowStep o row).isSome = (Prelim.rowStep o row).isSome := by
  unfold rowStep Prelim.rowStep
  cases row.map (aux o.maxPerf) <;> rfl

theorem marked_iff {o : Opts} {row : List Num} {out : Row} (h : rowStep o row = some out) {j : Nat}
    {v : Num} (hv : row[j]? = some v) :
    MarkedGood out j ↔ good o out.yBest (aux o.maxPerf v) = true := by
  obtain ⟨ex, -, -, -, -, hb, -⟩ := rowStep_some h
  unfold MarkedGood
  rw [hb, List.getElem?_map, hv]
  simp

theorem marked_some {o : Opts} {row : List Num} {out : Row} (h : rowStep o row = some out) {j : Nat}
    (hg : MarkedGood out j) : ∃ v, row[j]? = some v := by
  obtain ⟨ex, -, -, -, -, hb, -⟩ := rowStep_some h
  unfold MarkedGood at hg
  rw [hb, List.getElem?_map] at hg
  cases hr : row[j]? with
  | none => rw [hr] at hg; cases hg
  | some v => exact ⟨v, rfl⟩

theorem best_eq {o : Opts} {row : List Num} {out : Row} {b : ℚ} (habs : o.absPerf = false)
    (h : rowStep o row = some out) (hb : IsBest o.maxPerf row (.fin b)) (hpos : 0 < b) :
    out.yBest = .fin b := by
  obtain ⟨ex, hex, hy, -⟩ := rowStep_some h
  obtain ⟨best0, h1, h2, h3, -⟩ := Prelim.rowStep_some hex
  have hbest := Prelim.isBest_best0 hb h1 h2
  subst hbest
  rw [hy, h3, habs]
  simp only [Bool.false_eq_true, if_false]
  apply Prelim.fixZero_ne
  intro h0
  have : b = ((0 : ℕ) : ℚ) := by
    have : Num.fin b = Num.fin ((0 : ℕ) : ℚ) := h0
    injection this
  rw [this] at hpos
  simp at hpos

theorem one_eq : (1 : Num) = .fin 1 := by
  change Num.fin ((1 : ℕ) : ℚ) = _
  simp

/-- The share of the best that is reached. -/
def ratio (m : Bool) (b : ℚ) (v : Num) : Num := if m then v / .fin b else .fin b / v

theorem good_relative {o : Opts} (habs : o.absPerf = false) (b : ℚ) (v : Num) :
    good o (.fin b) v = Num.le (sub 1 (rounded (ratio o.maxPerf b v))) o.epsilon := by
  unfold good ratio div
  rw [habs]
  cases o.maxPerf <;> rfl

theorem le_nan {a b : Num} (h : a.le b = true) : a ≠ .nan ∧ b ≠ .nan := by
  cases a <;> cases b <;> simp_all [Num.le]

theorem one_sub_anti {a b : Num} (h : a.le b = true) : (1 - b : Num).le (1 - a) = true := by
  rw [one_eq]
  cases a <;> cases b <;> first | (simp [Num.le] at h; done) | rfl | skip
  rw [Num.fin_sub, Num.fin_sub]
  simp only [Num.le, decide_eq_true_eq] at h ⊢
  linarith

theorem loss_anti {a b : Num} (h : a.le b = true) :
    (sub 1 (rounded b)).le (sub 1 (rounded a)) = true :=
  rounded_mono (one_sub_anti (rounded_mono h))

theorem ratio_mono {m : Bool} {b : ℚ} (hpos : 0 < b) {v w : Num} (hb : AtLeastAsGood m (.fin b) w)
    (h : AtLeastAsGood m w v) : (ratio m b v).le (ratio m b w) = true := by
  unfold AtLeastAsGood at h hb
  unfold ratio
  cases m with
  | true =>
    simp only [if_true] at h hb ⊢
    cases v with
    | nan => simp [Num.le] at h
    | pinf => cases w <;> simp [Num.le] at h hb
    | ninf =>
      have : (Num.ninf / Num.fin b : Num) = .ninf := by
        change Num.div _ _ = _
        simp [Num.div, not_lt.2 hpos.le]
      rw [this]
      cases w with
      | nan => simp [Num.le] at h
      | pinf => simp [Num.le] at hb
      | ninf => rw [this]; rfl
      | fin w => rw [Num.fin_div _ _ hpos.ne']; rfl
    | fin v =>
      cases w with
      | nan => simp [Num.le] at h
      | pinf => simp [Num.le] at hb
      | ninf => simp [Num.le] at h
      | fin w =>
        rw [Num.fin_div _ _ hpos.ne', Num.fin_div _ _ hpos.ne']
        simp only [Num.le, decide_eq_true_eq] at h ⊢
        exact div_le_div_of_nonneg_right h hpos.le
  | false =>
    simp only [Bool.false_eq_true, if_false] at h hb ⊢
    cases w with
    | nan => simp [Num.le] at hb
    | ninf => simp [Num.le] at hb
    | pinf => cases v <;> first | (simp [Num.le] at h; done) | rfl
    | fin w =>
      have hw : 0 < w := hpos.trans_le (by simpa [Num.le] using hb)
      rw [Num.fin_div _ _ hw.ne']
      cases v with
      | nan => simp [Num.le] at h
      | ninf => simp [Num.le] at h
      | pinf =>
        have : (Num.fin b / Num.pinf : Num) = .fin 0 := rfl
        rw [this]
        simp only [Num.le, decide_eq_true_eq]
        positivity
      | fin v =>
        simp only [Num.le, decide_eq_true_eq] at h
        rw [Num.fin_div _ _ (hw.trans_le h).ne']
        simp only [Num.le, decide_eq_true_eq]
        exact div_le_div_of_nonneg_left hpos.le hw h

theorem ratio_self {m : Bool} {b : ℚ} (hpos : 0 < b) : ratio m b (.fin b) = .fin 1 := by
  unfold ratio
  cases m <;> simp [Num.fin_div _ _ hpos.ne', div_self hpos.ne']

theorem loss_self {m : Bool} {b : ℚ} (hpos : 0 < b) :
    sub 1 (rounded (ratio m b (.fin b))) = .fin 0 := by
  rw [ratio_self hpos]
  simp only [rounded, toDouble_one]
  unfold sub
  rw [one_eq, Num.fin_sub, sub_self]
  exact toDouble_zero

/-- A share between 0 and 1: the measured loss is close to the exact one. -/
theorem loss_error {t : ℚ} (h0 : 0 ≤ t) (h1 : t ≤ 1) :
    ∃ r, sub 1 (rounded (.fin t)) = .fin r ∧ |r - (1 - t)| ≤ 1 / 2 ^ 51 := by
  have hunit : ∀ t : ℚ, 0 ≤ t → t ≤ 1 →
      ∃ r, toDouble t = .fin r ∧ 0 ≤ r ∧ r ≤ 1 ∧ |r - t| ≤ 1 / 2 ^ 53 + 1 / 2 ^ 1075 := by
    intro t h0 h1
    have ha := toDouble_mono h0
    have hb := toDouble_mono h1
    rw [toDouble_zero] at ha
    rw [toDouble_one] at hb
    cases hr : toDouble t with
    | nan => exact absurd hr (toDouble_ne_nan t)
    | pinf => rw [hr] at hb; simp [Num.le] at hb
    | ninf => rw [hr] at ha; simp [Num.le] at ha
    | fin r =>
      rw [hr] at ha hb
      simp only [Num.le, decide_eq_true_eq] at ha hb
      refine ⟨r, rfl, ha, hb, (toDouble_error hr).trans ?_⟩
      rw [abs_of_nonneg h0]
      have : t / 2 ^ 53 ≤ 1 / 2 ^ 53 := div_le_div_of_nonneg_right h1 (by positivity)
      linarith
  obtain ⟨r, e1, r0, r1, er⟩ := hunit t h0 h1
  obtain ⟨s, e2, s0, s1, es⟩ := hunit (1 - r) (by linarith) (by linarith)
  refine ⟨s, ?_, ?_⟩
  · simp only [rounded, e1, sub]
    rw [one_eq, Num.fin_sub]
    exact e2
  · have htiny : (1 : ℚ) / 2 ^ 1075 ≤ 1 / 2 ^ 53 :=
      one_div_le_one_div_of_le (by positivity) (pow_le_pow_right₀ (by norm_num) (by norm_num))
    have h53 : (1 : ℚ) / 2 ^ 51 = 4 * (1 / 2 ^ 53) := by norm_num
    have hs : s - (1 - t) = (s - (1 - r)) - (r - t) := by ring
    rw [hs, h53]
    refine (abs_sub _ _).trans ?_
    linarith

end Verif.Double
