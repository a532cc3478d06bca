import Verif.Double.PrelimLemmas
/-!
# PRELIM's verdicts in double precision (C172, C173)
-/
set_option autoImplicit false
set_option linter.unusedSectionVars false

namespace Verif.Double

open Verif (Num)
open Verif.Prelim (Opts Row aux fixZero MarkedGood IsBest AtLeastAsGood Improves inUnit)

variable {o : Opts} {row : List Num} {out : Row}

/-! ### C172: rounding does not contradict the verdicts -/

/-- **C172.**  The best performance, the best algorithm and, with AbsPerf, the verdicts and their number do
not suffer from rounding at all. -/
theorem C172_untouched (h : rowStep o row = some out) :
    ∃ ex, Prelim.rowStep o row = some ex ∧ out.yBest = ex.yBest ∧ out.p = ex.p ∧
      (o.absPerf = true → out.yBin = ex.yBin ∧ out.numGood = ex.numGood ∧ out.y = ex.y) := by
  obtain ⟨ex, hex, h1, h2, -, h4, h5, -, h7⟩ := rowStep_some h
  refine ⟨ex, hex, h1, h2, fun ha => ?_⟩
  obtain ⟨b, -, -, -, e1, -, e2, -⟩ := Prelim.rowStep_some hex
  have hbin : out.yBin = ex.yBin := by
    rw [h4, e1, h1]
    refine List.map_congr_left fun v _ => ?_
    unfold good Prelim.good
    rw [ha]
    cases o.maxPerf <;> rfl
  exact ⟨hbin, by rw [h5, e2, hbin], h7 ha⟩

/-- **C172.**  In double precision, too, the best algorithm of an instance is good. -/
theorem C172_best {e : Num} {b : ℚ} {j : Nat} (habs : o.absPerf = false) (he : o.epsilon = e)
    (he0 : Num.le 0 e = true) (h : rowStep o row = some out) (hb : IsBest o.maxPerf row (.fin b))
    (hpos : 0 < b) (hj : row[j]? = some (.fin b)) : MarkedGood out j := by
  have hz : (0 : Num) = .fin 0 := by
    change Num.fin ((0 : ℕ) : ℚ) = _
    simp
  rw [marked_iff h hj, best_eq habs h hb hpos, Prelim.aux_eq hb.present, good_relative habs,
    loss_self hpos, he, ← hz]
  exact he0

/-- **C172.**  In double precision, too, an algorithm that performs at least as well as a good one on the
same instance is good. -/
theorem C172_order {b : ℚ} {i j : Nat} {v w : Num} (habs : o.absPerf = false)
    (h : rowStep o row = some out) (hb : IsBest o.maxPerf row (.fin b)) (hpos : 0 < b)
    (hi : row[i]? = some w) (hj : row[j]? = some v) (hw : w ≠ .nan)
    (hwv : v = .nan ∨ AtLeastAsGood o.maxPerf w v) (hg : MarkedGood out j) : MarkedGood out i := by
  rw [marked_iff h hj, best_eq habs h hb hpos, good_relative habs] at hg
  rw [marked_iff h hi, best_eq habs h hb hpos, good_relative habs, Prelim.aux_eq hw]
  refine Num.le_trans (loss_anti (ratio_mono hpos ?_ ?_)) hg
  · exact hb.best w (List.mem_of_getElem? hi) hw
  · rcases hwv with rfl | hwv
    · rw [Prelim.aux_nan]
      exact Prelim.atLeast_worst hw
    · rwa [Prelim.aux_eq]
      rintro rfl
      cases hm : o.maxPerf <;> rw [hm] at hwv <;> simp only [AtLeastAsGood] at hwv <;>
        cases w <;> simp [Num.le] at hwv

/-- **C172.**  In double precision, too, loosening epsilon never turns a good algorithm bad. -/
theorem C172_epsilon {o' : Opts} (hm : o'.maxPerf = o.maxPerf) (ha : o'.absPerf = o.absPerf)
    (he : if o.maxPerf = true ∧ o.absPerf = true then Num.le o'.epsilon o.epsilon = true
      else Num.le o.epsilon o'.epsilon = true)
    {out' : Row} (h : rowStep o row = some out) (h' : rowStep o' row = some out') {j : Nat}
    (hg : MarkedGood out j) : MarkedGood out' j := by
  obtain ⟨v, hv⟩ := marked_some h hg
  have hbest : out'.yBest = out.yBest := by
    unfold rowStep at h h'
    rw [hm, ha] at h'
    cases hr : row.map (aux o.maxPerf) with
    | nil => rw [hr] at h; cases h
    | cons a l =>
      rw [hr] at h h'
      simp only [Option.some.injEq] at h h'
      rw [← h, ← h']
  rw [marked_iff h hv] at hg
  rw [marked_iff h' hv, hbest, hm]
  unfold good at hg ⊢
  rw [hm, ha]
  cases h1 : o.maxPerf <;> cases h2 : o.absPerf <;> rw [h1, h2] at hg <;>
    simp only [h1, h2, if_true, and_self, Bool.false_eq_true, reduceCtorEq, false_and, and_false, if_false]
      at he hg ⊢
  · exact Num.le_trans hg he
  · exact Num.le_trans hg he
  · exact Num.le_trans hg he
  · exact Num.le_trans he hg

/-- **C172.**  In double precision, too, an algorithm that is good stays good when its performance improves
to a positive number. -/
theorem C172_improve {out' : Row} {j : Nat} {v : Num} {q b : ℚ} (habs : o.absPerf = false)
    (hv : row[j]? = some v) (himp : Improves o.maxPerf (.fin q) v) (hb : IsBest o.maxPerf row (.fin b))
    (hpos : 0 < b) (hq : 0 < q) (h : rowStep o row = some out)
    (h' : rowStep o (row.set j (.fin q)) = some out') (hg : MarkedGood out j) : MarkedGood out' j := by
  have hj : j < row.length := (List.getElem?_eq_some_iff.1 hv).1
  have hset : (row.set j (.fin q))[j]? = some (.fin q) := by rw [List.getElem?_set_self hj]
  have hbest : AtLeastAsGood o.maxPerf (.fin b) (aux o.maxPerf v) := by
    by_cases hn : v = .nan
    · subst hn
      rw [Prelim.aux_nan]
      exact Prelim.atLeast_worst hb.present
    · rw [Prelim.aux_eq hn]
      exact hb.best v (List.mem_of_getElem? hv) hn
  rw [marked_iff h hv, best_eq habs h hb hpos, good_relative habs] at hg
  rcases Prelim.isBest_set hv himp hb with ⟨h1, h2⟩ | ⟨h1, h2⟩
  · rw [marked_iff h' hset, best_eq habs h' h2 hq, good_relative habs, Prelim.aux_eq (by simp),
      loss_self hq]
    refine Num.le_trans ?_ hg
    have := loss_anti (ratio_mono hpos (Prelim.atLeast_refl (by simp)) hbest)
    rwa [loss_self hpos] at this
  · rw [marked_iff h' hset, best_eq habs h' h2 hpos, good_relative habs, Prelim.aux_eq (by simp)]
    refine Num.le_trans (loss_anti (ratio_mono hpos h1 ?_)) hg
    rcases himp.2 with rfl | hi
    · rw [Prelim.aux_nan]
      exact Prelim.atLeast_worst (by simp)
    · rwa [Prelim.aux_eq]
      rintro rfl
      cases hm : o.maxPerf <;> rw [hm] at hi <;> simp [AtLeastAsGood, Num.le] at hi

/-- **C172.**  In double precision, too, the verdicts do not depend on the unit, as long as the performances
in the new unit are exact. -/
theorem C172_unit {out' : Row} {c : ℚ} (habs : o.absPerf = false) (hc : 0 < c)
    (hz : ¬ IsBest o.maxPerf row 0) (h : rowStep o row = some out)
    (h' : rowStep o (inUnit c row) = some out') :
    out'.yBin = out.yBin ∧ out'.p = out.p ∧ out'.numGood = out.numGood ∧ out'.beta = out.beta := by
  obtain ⟨ex, hex, a1, a2, -, a4, a5, a6, -⟩ := rowStep_some h
  obtain ⟨ex', hex', b1, b2, -, b4, b5, b6, -⟩ := rowStep_some h'
  obtain ⟨-, c2, -, -, c5, -⟩ := Prelim.C140_partial o c row ex ex' habs hc hz hex hex'
  have hbin : out'.yBin = out.yBin := by
    rw [b4, a4, b1, a1, c5]
    unfold inUnit
    rw [List.map_map]
    refine List.map_congr_left fun v _ => ?_
    simp only [Function.comp, Prelim.aux_unit hc]
    unfold good div
    rw [habs]
    cases o.maxPerf <;> simp only [Prelim.div_unit hc]
  have hlen : (inUnit c row).length = row.length := by simp [inUnit]
  have hnum : out'.numGood = out.numGood := by rw [b5, a5, hbin]
  exact ⟨hbin, by rw [b2, a2, c2], hnum, by rw [b6, a6, hnum, hlen]⟩

/-- Non-vacuity: performances 10, 7 and none, maximised, with 30 percent: the quotient 7/10 is rounded, and
the hypotheses of the theorems are met. -/
example : ∃ out, rowStep ⟨true, false, toDouble (31 / 100), toDouble (55 / 100), false, false⟩
      [.fin 10, .fin 7, .nan] = some out ∧ out.yBin = [true, true, false] ∧
      out.y[1]? = some (sub 1 (toDouble (7 / 10))) ∧ toDouble (7 / 10) ≠ .fin (7 / 10) ∧
      IsBest true [.fin 10, .fin 7, .nan] (.fin 10) := by
  refine ⟨_, rfl, by decide +kernel, by decide +kernel, by decide +kernel, by simp, by simp, ?_⟩
  intro c hc hn
  simp only [List.mem_cons, List.not_mem_nil, or_false] at hc
  rcases hc with rfl | rfl | rfl
  · change Num.le _ _ = true; decide +kernel
  · change Num.le _ _ = true; decide +kernel
  · cases hn rfl

/-! ### C173: rounding matters only next to the threshold -/

/-- By which fraction the performance `q` falls behind the best performance `b`. -/
def lossOf (maxPerf : Bool) (b q : ℚ) : ℚ := if maxPerf then 1 - q / b else 1 - b / q

/-- The full claim: for performances and thresholds that are doubles, with a positive best performance, the
algorithms marked good are those that fall behind by at most epsilon. -/
def ExactVerdicts : Prop :=
  ∀ (o : Opts) (e : ℚ) (row : List Num) (out : Row) (j : Nat) (b q : ℚ),
    o.absPerf = false → o.epsilon = .fin e → IsDouble e → 0 ≤ e → e < 1 →
    (∀ v ∈ row, ∃ x, v = .fin x ∧ IsDouble x) →
    rowStep o row = some out → IsBest o.maxPerf row (.fin b) → 0 < b → row[j]? = some (.fin q) →
    (MarkedGood out j ↔ lossOf o.maxPerf b q ≤ e)

/-- **C173** is false: with epsilon 0.05, performance 95 is within 5 percent of the best performance 100, but
`1 - 95 / 100` is more than 0.05 in double precision. -/
theorem C173_refuted : ¬ ExactVerdicts := by
  intro hall
  have hd : ∀ k : ℤ, |k| ≤ 2 ^ 53 → ∃ x, Num.fin (k : ℚ) = .fin x ∧ IsDouble x :=
    fun k hk => ⟨k, rfl, isDouble_int hk⟩
  have he : toDouble (1 / 20) = .fin (3602879701896397 / 2 ^ 56) := by decide +kernel
  have h := hall ⟨true, false, .fin (3602879701896397 / 2 ^ 56), 1, false, false⟩
    (3602879701896397 / 2 ^ 56) [.fin 100, .fin 95] _ 1 100 95 rfl rfl (toDouble_fin he).2 (by norm_num)
    (by norm_num)
    (by
      intro v hv
      simp only [List.mem_cons, List.not_mem_nil, or_false] at hv
      rcases hv with rfl | rfl
      · exact_mod_cast hd 100 (by norm_num)
      · exact_mod_cast hd 95 (by norm_num))
    rfl
    ⟨by simp, by simp, by
      intro c hc _
      simp only [List.mem_cons, List.not_mem_nil, or_false] at hc
      rcases hc with rfl | rfl
      · change Num.le _ _ = true; decide +kernel
      · change Num.le _ _ = true; decide +kernel⟩
    (by norm_num) rfl
  have h1 := h.2 (by norm_num [lossOf])
  unfold MarkedGood at h1
  revert h1
  decide +kernel

/-- **C173, the true part.**  Whenever the fraction by which an algorithm falls behind differs from epsilon
by more than `2 ^ -51`, it is marked good exactly if the fraction is at most epsilon; no assumption about the
performances themselves.  Missing for the full property: the fractions next to epsilon. -/
theorem C173_partial {e : ℚ} {j : Nat} {b q : ℚ} (habs : o.absPerf = false) (he : o.epsilon = .fin e)
    (he1 : e < 1) (h : rowStep o row = some out) (hb : IsBest o.maxPerf row (.fin b)) (hpos : 0 < b)
    (hj : row[j]? = some (.fin q)) (hfar : 1 / 2 ^ 51 < |lossOf o.maxPerf b q - e|) :
    MarkedGood out j ↔ lossOf o.maxPerf b q ≤ e := by
  have hbq := hb.best _ (List.mem_of_getElem? hj) (by simp)
  rw [marked_iff h hj, best_eq habs h hb hpos, good_relative habs, Prelim.aux_eq (by simp), he]
  obtain ⟨t, ht, hl, ht1⟩ : ∃ t, ratio o.maxPerf b (.fin q) = .fin t ∧ lossOf o.maxPerf b q = 1 - t ∧
      t ≤ 1 := by
    unfold ratio lossOf
    unfold AtLeastAsGood at hbq
    cases hm : o.maxPerf with
    | true =>
      simp only [hm, if_true, Num.le, decide_eq_true_eq] at hbq ⊢
      exact ⟨q / b, Num.fin_div _ _ hpos.ne', rfl, (div_le_one hpos).2 hbq⟩
    | false =>
      simp only [hm, Bool.false_eq_true, if_false, Num.le, decide_eq_true_eq] at hbq ⊢
      have hq : 0 < q := hpos.trans_le hbq
      exact ⟨b / q, Num.fin_div _ _ hq.ne', rfl, (div_le_one hq).2 hbq⟩
  rw [hl] at hfar ⊢
  rw [ht]
  rcases le_or_gt 0 t with h0 | h0
  · obtain ⟨r, hr, her⟩ := loss_error h0 ht1
    rw [hr]
    simp only [Num.le, decide_eq_true_eq]
    rw [abs_le] at her
    rcases lt_abs.1 hfar with hf | hf
    · constructor <;> intro hh <;> linarith
    · constructor <;> intro hh <;> linarith
  · constructor
    · intro hg
      have := loss_anti (a := .fin t) (b := .fin 0) (by simpa [Num.le] using h0.le)
      have h2 := Num.le_trans this hg
      have h3 : sub 1 (rounded (.fin 0)) = .fin 1 := by decide +kernel
      rw [h3] at h2
      simp only [Num.le, decide_eq_true_eq] at h2
      linarith
    · intro hh
      linarith

/-- Non-vacuity: with the performances of `C173_refuted` and epsilon 0.06. -/
example : ∃ e out, toDouble (6 / 100) = .fin e ∧
    rowStep ⟨true, false, .fin e, 1, false, false⟩ [.fin 100, .fin 95] = some out ∧ e < 1 ∧
    1 / 2 ^ 51 < |lossOf true 100 95 - e| ∧ out.yBin = [true, true] := by
  refine ⟨1080863910568919 / 2 ^ 54, _, by decide +kernel, rfl, by norm_num, ?_, by decide +kernel⟩
  rw [lt_abs]
  right
  norm_num [lossOf]

end Verif.Double
