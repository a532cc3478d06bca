import Verif.Prelim.Lemmas
import Mathlib.Tactic.FieldSimp
import Mathlib.Tactic.NormNum
/-!
# C35–C40: goodness, best algorithm and counts

Each theorem is about one instance (row of performances); `C39_rows` lifts to matrices.
-/
set_option autoImplicit false
set_option linter.unusedSectionVars false

namespace Verif.Prelim

open Verif (Num)

/-- Every row with at least one algorithm is processed, and one flag per algorithm comes out. -/
theorem rowStep_exists (o : Opts) (row : List Num) (h : row ≠ []) :
    ∃ out, rowStep o row = some out ∧ out.yBin.length = row.length := by
  cases hr : rowStep o row with
  | none =>
    exfalso
    unfold rowStep at hr
    cases hm : row.map (aux o.maxPerf) with
    | nil => exact h (List.map_eq_nil_iff.1 hm)
    | cons a l => rw [hm] at hr; simp at hr
  | some out =>
    obtain ⟨b, -, -, -, hb, -⟩ := rowStep_some hr
    exact ⟨out, rfl, by rw [hb, List.length_map]⟩

/-! ### C35 -/

/-- **C35** With `AbsPerf`, good means present and at least (at most) the threshold. -/
theorem C35_absolute (o : Opts) (e : ℚ) (habs : o.absPerf = true) (he : o.epsilon = .fin e)
    (row : List Num) (out : Row) (h : rowStep o row = some out) (j : Nat) (v : Num)
    (hv : row[j]? = some v) :
    MarkedGood out j ↔
      v ≠ .nan ∧ (if o.maxPerf then Num.le (.fin e) v = true else Num.le v (.fin e) = true) := by
  rw [yBin_getElem h hv]
  unfold good
  rw [habs, he]
  cases hm : o.maxPerf <;> cases v <;> simp [aux, Num.isNan, Num.le]

example : rowStep ⟨true, true, .fin 2, 1, false, false⟩ [1, .nan, 3, .pinf, 2] =
    some ⟨[false, false, true, true, true], .pinf, 4, 3, false, [1, .nan, 3, .pinf, 2],
      [1, .nan, 3, .pinf, 2]⟩ := by decide +kernel

/-! ### C36 -/

/-- The documented meaning of relative goodness for a finite best value `b` and threshold `e`:
within a fraction `e` of the best. -/
def WithinFraction (maxPerf : Bool) (e b : ℚ) (v : Num) : Prop :=
  if maxPerf then ∃ q, v = .fin q ∧ (1 - e) * b ≤ q else ∃ q, v = .fin q ∧ q ≤ b / (1 - e)

/-- The full claim, for rows of finite or missing performances. -/
def RelativeGoodness : Prop :=
  ∀ (o : Opts) (e : ℚ) (row : List Num) (out : Row) (j : Nat) (v : Num) (b : ℚ),
    o.absPerf = false → o.epsilon = .fin e → 0 ≤ e → e < 1 →
    (∀ w ∈ row, w = .nan ∨ ∃ q, w = .fin q) →
    rowStep o row = some out → row[j]? = some v → IsBest o.maxPerf row (.fin b) →
    (MarkedGood out j ↔ WithinFraction o.maxPerf e b v)

/-- **C36** is false: when maximising negative values every algorithm is good.  Here the best
performance is -1 and -100 counts as within 5% of it. -/
theorem C36_refuted : ¬ RelativeGoodness := by
  intro h
  have h1 := h ⟨true, false, .fin (1/20), 1, false, false⟩ (1/20) [.fin (-1), .fin (-100)]
    ⟨[true, true], .fin (-1), 1, 2, false, [.fin 0, .fin (-99)], [.fin (-1), .fin (-100)]⟩
    1 (.fin (-100)) (-1) rfl rfl (by norm_num) (by norm_num)
    (by
      intro w hw
      simp only [List.mem_cons, List.not_mem_nil, or_false] at hw
      rcases hw with rfl | rfl
      · exact .inr ⟨_, rfl⟩
      · exact .inr ⟨_, rfl⟩)
    (by decide +kernel) rfl
    ⟨by simp, by simp, by
      intro c hc _
      simp only [List.mem_cons, List.not_mem_nil, or_false] at hc
      rcases hc with rfl | rfl <;> simp [AtLeastAsGood, Num.le]⟩
  have h2 := h1.1 rfl
  obtain ⟨q, hq, h3⟩ := h2
  cases hq
  norm_num at h3

theorem isBest_best0 {o : Opts} {row : List Num} {b best0 : Num} (hb : IsBest o.maxPerf row b)
    (h1 : best0 ∈ row.map (aux o.maxPerf))
    (h2 : ∀ v ∈ row, AtLeastAsGood o.maxPerf best0 (aux o.maxPerf v)) : best0 = b := by
  have h3 := h2 b hb.mem
  rw [aux_eq hb.present] at h3
  obtain ⟨v, hv, rfl⟩ := List.mem_map.1 h1
  by_cases hn : v = .nan
  · subst hn
    rw [aux_nan] at h3 ⊢
    exact atLeast_antisymm h3 (atLeast_worst hb.present)
  · rw [aux_eq hn] at h3 ⊢
    exact atLeast_antisymm h3 (hb.best v hv hn)

/-- **C36** when the best performance is positive.  Infinite performances are allowed too: they
are never good when minimising, and when maximising the best would not be finite.  Missing for
the full property: best performances that are zero or negative. -/
theorem C36_partial (o : Opts) (e : ℚ) (row : List Num) (out : Row) (j : Nat) (v : Num) (b : ℚ)
    (habs : o.absPerf = false) (he : o.epsilon = .fin e) (he1 : e < 1)
    (h : rowStep o row = some out) (hv : row[j]? = some v) (hb : IsBest o.maxPerf row (.fin b))
    (hpos : 0 < b) :
    MarkedGood out j ↔ WithinFraction o.maxPerf e b v := by
  obtain ⟨best0, h1, h2, h3, -⟩ := rowStep_some h
  have hbest := isBest_best0 hb h1 h2
  subst hbest
  have hyb : out.yBest = .fin b := by
    rw [h3, habs]
    simp only [Bool.false_eq_true, if_false]
    apply fixZero_ne
    intro h0
    have : b = ((0 : ℕ) : ℚ) := by
      have : Num.fin b = Num.fin ((0 : ℕ) : ℚ) := h0
      injection this
    rw [this] at hpos
    simp at hpos
  rw [yBin_getElem h hv, hyb]
  have hmem : v ∈ row := List.mem_of_getElem? hv
  have hone : (1 : Num) = .fin 1 := by
    change Num.fin ((1 : ℕ) : ℚ) = _
    simp
  unfold good WithinFraction
  rw [habs, he, hone]
  cases hm : o.maxPerf with
  | true =>
    simp only [if_true]
    cases v with
    | nan =>
      have : aux true .nan = .ninf := rfl
      rw [this]
      have : (Num.fin 1 - .ninf / .fin b) = .pinf := by
        change Num.sub _ (Num.div _ _) = _
        simp [Num.div, Num.sub, Num.neg, Num.add, not_lt.2 (le_of_lt hpos)]
      rw [this]
      simp [Num.le]
    | ninf =>
      have : aux true .ninf = .ninf := rfl
      rw [this]
      have : (Num.fin 1 - .ninf / .fin b) = .pinf := by
        change Num.sub _ (Num.div _ _) = _
        simp [Num.div, Num.sub, Num.neg, Num.add, not_lt.2 (le_of_lt hpos)]
      rw [this]
      simp [Num.le]
    | pinf =>
      have h4 := hb.best _ hmem (by simp)
      rw [hm] at h4
      simp [AtLeastAsGood, Num.le] at h4
    | fin q =>
      have : aux true (.fin q) = .fin q := rfl
      rw [this, Num.fin_div _ _ (ne_of_gt hpos), Num.fin_sub]
      simp only [Num.le, decide_eq_true_eq, Num.fin.injEq, exists_eq_left']
      rw [sub_le_comm, le_div_iff₀ hpos]
  | false =>
    simp only [Bool.false_eq_true, if_false]
    have hinf : (Num.fin 1 - .fin b / .pinf) = .fin 1 := by
      have : (Num.fin b / .pinf) = .fin 0 := rfl
      rw [this, Num.fin_sub]
      simp
    cases v with
    | nan =>
      have : aux false .nan = .pinf := rfl
      rw [this, hinf]
      simp [Num.le, he1]
    | pinf =>
      have : aux false .pinf = .pinf := rfl
      rw [this, hinf]
      simp [Num.le, he1]
    | ninf =>
      have h4 := hb.best _ hmem (by simp)
      rw [hm] at h4
      simp [AtLeastAsGood, Num.le] at h4
    | fin q =>
      have h4 := hb.best _ hmem (by simp)
      rw [hm] at h4
      simp only [AtLeastAsGood, Num.le, Bool.false_eq_true, if_false, decide_eq_true_eq] at h4
      have hq : 0 < q := lt_of_lt_of_le hpos h4
      have : aux false (.fin q) = .fin q := rfl
      rw [this, Num.fin_div _ _ (ne_of_gt hq), Num.fin_sub]
      simp only [Num.le, decide_eq_true_eq, Num.fin.injEq, exists_eq_left']
      rw [sub_le_comm, le_div_iff₀ hq, le_div_iff₀ (by linarith), mul_comm]

/-- What happens instead when maximising with a negative best value: every finite performance is
good, whatever the threshold, and so is every missing one. -/
theorem C36_negative_partial (o : Opts) (e : ℚ) (row : List Num) (out : Row) (j : Nat) (v : Num) (b : ℚ)
    (hmax : o.maxPerf = true) (habs : o.absPerf = false) (he : o.epsilon = .fin e) (he0 : 0 ≤ e)
    (h : rowStep o row = some out) (hv : row[j]? = some v)
    (hb : IsBest o.maxPerf row (.fin b)) (hneg : b < 0) : MarkedGood out j := by
  obtain ⟨best0, h1, h2, h3, -⟩ := rowStep_some h
  have hbest := isBest_best0 hb h1 h2
  subst hbest
  have hyb : out.yBest = .fin b := by
    rw [h3, habs]
    simp only [Bool.false_eq_true, if_false]
    apply fixZero_ne
    intro h0
    have : b = ((0 : ℕ) : ℚ) := by
      have : Num.fin b = Num.fin ((0 : ℕ) : ℚ) := h0
      injection this
    rw [this] at hneg
    simp at hneg
  have hone : (1 : Num) = .fin 1 := by
    change Num.fin ((1 : ℕ) : ℚ) = _
    simp
  rw [yBin_getElem h hv, hyb]
  unfold good
  rw [habs, he, hone, hmax]
  have hinf : (Num.fin 1 - .ninf / .fin b) = .ninf := by
    change Num.sub _ (Num.div _ _) = _
    simp [Num.div, Num.sub, Num.neg, Num.add, hneg]
  cases v with
  | nan =>
    have : aux true .nan = .ninf := rfl
    simp [this, hinf, Num.le]
  | ninf =>
    have : aux true .ninf = .ninf := rfl
    simp [this, hinf, Num.le]
  | pinf =>
    have h4 := hb.best _ (List.mem_of_getElem? hv) (by simp)
    rw [hmax] at h4
    simp [AtLeastAsGood, Num.le] at h4
  | fin q =>
    have h4 := hb.best _ (List.mem_of_getElem? hv) (by simp)
    rw [hmax] at h4
    simp only [AtLeastAsGood, Num.le, if_true, decide_eq_true_eq] at h4
    have : aux true (.fin q) = .fin q := rfl
    simp only [this]
    rw [Num.fin_div _ _ (ne_of_lt hneg), Num.fin_sub]
    simp only [Num.le, decide_eq_true_eq]
    have : 1 ≤ q / b := by
      rw [← neg_div_neg_eq, le_div_iff₀ (by linarith)]
      linarith
    linarith

-- A row meeting the hypotheses of `C36_partial`: 95 is within 5% of 100, 94 and NaN are not.
example : (rowStep ⟨true, false, .fin (1/20), 1, false, false⟩ [95, 100, 94, .nan]).map Row.yBin =
    some [true, true, false, false] := by decide +kernel
example : (rowStep ⟨false, false, .fin (1/20), 1, false, false⟩ [95, 100, 101, .nan]).map Row.yBin =
    some [true, true, false, false] := by decide +kernel

/-! ### C86 -/

/-- The full claim: a missing performance is never good. -/
def MissingNeverGood : Prop :=
  ∀ (o : Opts) (e : ℚ) (row : List Num) (out : Row) (j : Nat),
    o.epsilon = .fin e → 0 ≤ e → e < 1 → (∃ q, .fin q ∈ row) →
    rowStep o row = some out → row[j]? = some .nan → ¬ MarkedGood out j

/-- **C86** is false: when maximising relatively and the best performance is negative, a missing
performance (replaced by `-inf`) counts as good. -/
theorem C86_refuted : ¬ MissingNeverGood := by
  intro h
  refine h ⟨true, false, .fin (1/20), 1, false, false⟩ (1/20) [.fin (-1), .nan]
    ⟨[true, true], .fin (-1), 1, 2, false, [.fin 0, .nan], [.fin (-1), .nan]⟩
    1 rfl (by norm_num) (by norm_num) ⟨-1, by simp⟩ (by decide +kernel) rfl rfl

/-- **C86**, the part that holds: a missing performance is not good with `AbsPerf`, when
minimising, or when the best performance is positive.  Missing: maximising relatively with a best
performance that is not positive. -/
theorem C86_partial (o : Opts) (e : ℚ) (row : List Num) (out : Row) (j : Nat) (b : ℚ)
    (he : o.epsilon = .fin e) (he1 : e < 1) (hb : IsBest o.maxPerf row (.fin b))
    (h : rowStep o row = some out) (hv : row[j]? = some .nan)
    (hcase : o.absPerf = true ∨ o.maxPerf = false ∨ 0 < b) : ¬ MarkedGood out j := by
  intro hg
  cases habs : o.absPerf with
  | true => exact ((C35_absolute o e habs he row out h j .nan hv).1 hg).1 rfl
  | false =>
    rw [habs] at hcase
    rcases hcase with hc | hc | hc
    · cases hc
    · obtain ⟨best0, h1, h2, h3, -⟩ := rowStep_some h
      have hbest := isBest_best0 hb h1 h2
      subst hbest
      have hone : (1 : Num) = .fin 1 := by
        change Num.fin ((1 : ℕ) : ℚ) = _
        simp
      have hyb : ∃ q, out.yBest = .fin q := by
        rw [h3, habs]
        simp only [Bool.false_eq_true, if_false]
        unfold fixZero
        split
        · exact ⟨_, rfl⟩
        · exact ⟨_, rfl⟩
      obtain ⟨q, hq⟩ := hyb
      rw [yBin_getElem h hv, hq] at hg
      unfold good at hg
      rw [habs, he, hone, hc] at hg
      have hinf : (Num.fin 1 - .fin q / .pinf) = .fin 1 := by
        have : (Num.fin q / .pinf) = .fin 0 := rfl
        rw [this, Num.fin_sub]
        simp
      have : aux false .nan = .pinf := rfl
      simp only [this, hinf, Num.le, decide_eq_true_eq] at hg
      linarith
    · have := (C36_partial o e row out j .nan b habs he he1 h hv hb hc).1 hg
      unfold WithinFraction at this
      cases hm : o.maxPerf <;> simp [hm] at this

example : (rowStep ⟨false, false, .fin (1/20), 1, false, false⟩ [.fin (-1), .nan]).map Row.yBin =
    some [true, false] := by decide +kernel

/-! ### C37 -/

/-- The full claim. -/
def BestIsGood : Prop :=
  ∀ (o : Opts) (e : ℚ) (row : List Num) (out : Row) (j : Nat) (b : Num),
    o.absPerf = false → o.epsilon = .fin e → 0 ≤ e →
    rowStep o row = some out → row[j]? = some b → IsBest o.maxPerf row b → MarkedGood out j

/-- **C37** is false: when maximising with best performance 0, the best algorithm is not good. -/
theorem C37_refuted : ¬ BestIsGood := by
  intro h
  have := h ⟨true, false, .fin (1/20), 1, false, false⟩ (1/20) [0, .fin (-1)]
    ⟨[false, false], .fin Num.eps, 1, 0, false, [.fin 0, .fin (1 + 2 ^ 52)],
      [.fin Num.eps, .fin (-1)]⟩
    0 0 rfl rfl (by norm_num) (by decide +kernel) rfl
    ⟨by simp, by decide, by
      intro c hc _
      simp only [List.mem_cons, List.not_mem_nil, or_false] at hc
      rcases hc with rfl | rfl
      · change Num.le 0 0 = true; decide +kernel
      · change Num.le (.fin (-1)) 0 = true; decide +kernel⟩
  cases this

/-- **C37** exactly: for a threshold `0 ≤ e < 1`, an algorithm with the best performance is good
if and only if that performance is finite and, when maximising, not zero.  Missing for the full
property: infinite best values, and zero when maximising. -/
theorem C37_partial (o : Opts) (e : ℚ) (row : List Num) (out : Row) (j : Nat) (b : Num)
    (habs : o.absPerf = false) (he : o.epsilon = .fin e) (he0 : 0 ≤ e) (he1 : e < 1)
    (h : rowStep o row = some out) (hv : row[j]? = some b) (hb : IsBest o.maxPerf row b) :
    MarkedGood out j ↔ (∃ q, b = .fin q) ∧ (o.maxPerf = true → b ≠ 0) := by
  obtain ⟨best0, h1, h2, h3, -⟩ := rowStep_some h
  have hbest := isBest_best0 hb h1 h2
  subst hbest
  have hone : (1 : Num) = .fin 1 := by
    change Num.fin ((1 : ℕ) : ℚ) = _
    simp
  have hzero : (0 : Num) = .fin 0 := by
    change Num.fin ((0 : ℕ) : ℚ) = _
    simp
  rw [yBin_getElem h hv, h3, habs, aux_eq hb.present]
  simp only [Bool.false_eq_true, if_false]
  unfold good
  rw [habs, he, hone]
  cases hbf : best0 with
  | nan => exact absurd hbf hb.present
  | ninf =>
    have : fixZero .ninf = .ninf := rfl
    rw [this]
    have : (Num.fin 1 - .ninf / .ninf) = .nan := rfl
    cases o.maxPerf <;> simp [this, Num.le]
  | pinf =>
    have : fixZero .pinf = .pinf := rfl
    rw [this]
    have : (Num.fin 1 - .pinf / .pinf) = .nan := rfl
    cases o.maxPerf <;> simp [this, Num.le]
  | fin b =>
    by_cases h0 : b = 0
    · subst h0
      have : fixZero (.fin 0) = .fin Num.eps := by rw [← hzero]; rfl
      rw [this]
      cases o.maxPerf with
      | true =>
        simp only
        rw [Num.fin_div _ _ (ne_of_gt Num.eps_pos), Num.fin_sub]
        simp [Num.le, he1, hzero]
      | false =>
        simp only
        have : (Num.fin Num.eps / .fin 0) = .pinf := by
          change (if (0 : ℚ) = 0 then Num.infSign Num.eps else .fin (Num.eps / 0)) = _
          rw [if_pos rfl]
          simp [Num.infSign, Num.eps_pos]
        rw [this]
        have : (Num.fin 1 - .pinf) = .ninf := rfl
        rw [this]
        simp [Num.le]
    · have : fixZero (.fin b) = .fin b := fixZero_ne (by rw [hzero]; simpa using h0)
      rw [this, Num.fin_div _ _ h0, div_self h0, Num.fin_sub, hzero]
      cases o.maxPerf <;> simp [Num.le, he0, h0]

example : (rowStep ⟨true, false, .fin 0, 1, false, false⟩ [.fin (-1), .fin (-5), .nan]).map Row.yBin =
    some [true, true, true] := by decide +kernel

/-! ### C38 -/

/-- The full claim: `p` is the one-based position of the first best algorithm and `y_best` its
performance. -/
def BestIndex : Prop :=
  ∀ (o : Opts) (row : List Num) (out : Row) (b : Num), rowStep o row = some out →
    IsBest o.maxPerf row b → b ≠ worst o.maxPerf →
    1 ≤ out.p ∧ out.p ≤ row.length ∧ row[out.p - 1]? = some b ∧
      (∀ k, k < out.p - 1 → row[k]? ≠ some b) ∧ out.yBest = b

/-- **C38** is false: when minimising relatively with best performance 0, two later performances
equal to the machine epsilon make `p` point at the first of these. -/
theorem C38_refuted : ¬ BestIndex := by
  intro h
  have := h ⟨false, false, .fin (1/20), 1, false, false⟩ [0, .fin Num.eps, .fin Num.eps]
    ⟨[true, true, true], .fin Num.eps, 2, 3, false, [.fin 0, .fin 0, .fin 0],
      [.fin Num.eps, .fin Num.eps, .fin Num.eps]⟩ 0
    (by decide +kernel)
    ⟨by simp, by decide, by
      intro c hc _
      simp only [List.mem_cons, List.not_mem_nil, or_false] at hc
      rcases hc with rfl | rfl | rfl
      · change Num.le 0 0 = true; decide +kernel
      · change Num.le 0 (.fin Num.eps) = true; decide +kernel
      · change Num.le 0 (.fin Num.eps) = true; decide +kernel⟩ (by decide)
  exact absurd this.2.2.1 (by decide +kernel)

theorem firstTrue_idxOf (row : List Num) (b : Num) (hb : b ≠ .nan) :
    firstTrue (row.map fun v => v.eq b) = row.idxOf b := by
  unfold firstTrue
  induction row with
  | nil => rfl
  | cons v row ih =>
    rw [List.map_cons, List.idxOf_cons, List.idxOf_cons, ih]
    have : (v.eq b == true) = (v == b) := by
      rw [Bool.eq_iff_iff]
      simp only [beq_iff_eq]
      rw [Num.eq_iff]
      constructor
      · exact fun h => h.1
      · rintro rfl
        exact ⟨rfl, hb⟩
    rw [this]

theorem aux_idxOf (m : Bool) (row : List Num) (b : Num) (hb : b ≠ .nan) (hw : b ≠ worst m) :
    (row.map (aux m)).idxOf b = row.idxOf b := by
  induction row with
  | nil => rfl
  | cons v row ih =>
    rw [List.map_cons, List.idxOf_cons, List.idxOf_cons, ih]
    have : (aux m v == b) = (v == b) := by
      rw [Bool.eq_iff_iff]
      simp only [beq_iff_eq]
      by_cases hv : v = .nan
      · subst hv
        rw [aux_nan]
        exact ⟨fun h => absurd h.symm hw, fun h => absurd h.symm hb⟩
      · rw [aux_eq hv]
    rw [this]

/-- **C38** `p` is the one-based position of the first best algorithm, unless the performances are
minimised relatively, the best is 0 and at least two others equal the machine epsilon; `y_best`
is the best performance, except that in the relative case 0 is replaced by the machine epsilon.
Missing for the full property: these two exceptions. -/
theorem C38_partial (o : Opts) (row : List Num) (out : Row) (b : Num)
    (h : rowStep o row = some out) (hb : IsBest o.maxPerf row b) (hw : b ≠ worst o.maxPerf)
    (hex : o.maxPerf = true ∨ o.absPerf = true ∨ b ≠ 0 ∨ row.count (.fin Num.eps) ≤ 1) :
    1 ≤ out.p ∧ out.p ≤ row.length ∧ row[out.p - 1]? = some b ∧
      (∀ k, k < out.p - 1 → row[k]? ≠ some b) ∧
      out.yBest = (if o.absPerf = false ∧ b = 0 then .fin Num.eps else b) := by
  obtain ⟨best0, h1, h2, h3, -, h5, -⟩ := rowStep_some h
  have hbest := isBest_best0 hb h1 h2
  subst hbest
  have hyb : out.yBest = (if o.absPerf = false ∧ best0 = 0 then .fin Num.eps else best0) := by
    rw [h3]
    cases o.absPerf with
    | true => simp
    | false =>
      by_cases h0 : best0 = 0
      · subst h0; rfl
      · simp [h0, fixZero_ne]
  have hp : out.p = row.idxOf best0 + 1 := by
    rw [h5, aux_idxOf _ _ _ hb.present hw]
    split
    · rename_i hc
      by_cases hz : o.absPerf = false ∧ best0 = 0
      · rw [if_pos hz] at hyb
        rw [hyb] at hc
        exfalso
        have hcount : (row.map fun v => v.eq (.fin Num.eps)).count true =
            row.count (.fin Num.eps) := by
          rw [List.count, List.countP_map, List.count]
          apply List.countP_congr
          intro v _
          simp only [Function.comp, beq_iff_eq]
          rw [Num.eq_iff]
          constructor
          · exact fun h => h.1
          · rintro rfl
            exact ⟨rfl, by simp⟩
        rw [hcount] at hc
        rcases hex with hm | ha | h0 | hcnt
        · have : .fin Num.eps ∈ row := List.count_pos_iff.1 (by omega)
          have := hb.best _ this (by simp)
          rw [hm, hz.2] at this
          have hle : Num.le (.fin Num.eps) (.fin ((0 : ℕ) : ℚ)) = true := this
          simp only [Num.le, decide_eq_true_eq, Nat.cast_zero] at hle
          exact absurd Num.eps_pos (not_lt.2 hle)
        · rw [hz.1] at ha
          cases ha
        · exact h0 hz.2
        · omega
      · rw [if_neg hz] at hyb
        rw [hyb, firstTrue_idxOf _ _ hb.present]
    · rfl
  have hlt : row.idxOf best0 < row.length := List.idxOf_lt_length_of_mem hb.mem
  rw [hp]
  refine ⟨by omega, by omega, ?_, ?_, hyb⟩
  · rw [Nat.add_sub_cancel, List.getElem?_eq_getElem hlt]
    simp
  · intro k hk hkb
    rw [Nat.add_sub_cancel] at hk
    obtain ⟨hk', hke⟩ := List.getElem?_eq_some_iff.1 hkb
    have := List.not_of_lt_findIdx (p := (· == best0)) (xs := row) (i := k) (by simpa [List.idxOf] using hk)
    simp [hke] at this

example : (rowStep ⟨true, false, .fin 0, 1, false, false⟩ [.nan, 3, 5, 5]).map
    (fun r => (r.p, r.yBest)) = some (3, 5) := by decide +kernel

/-! ### C39 -/

/-- **C39** The count of good algorithms, and `beta`. -/
theorem C39_counts (o : Opts) (t : ℚ) (ht : o.betaThreshold = .fin t) (row : List Num) (out : Row)
    (h : rowStep o row = some out) :
    out.yBin.length = row.length ∧
    out.numGood = ((List.range row.length).filter fun j => out.yBin[j]? == some true).length ∧
    (out.beta = true ↔ t * row.length < out.numGood) := by
  obtain ⟨best0, -, -, -, h4, -, h6, h7, -⟩ := rowStep_some h
  have hl : out.yBin.length = row.length := by rw [h4, List.length_map]
  refine ⟨hl, ?_, ?_⟩
  · rw [h6, ← hl]
    generalize out.yBin = l
    induction l with
    | nil => rfl
    | cons b l ih =>
      rw [List.length_cons, List.range_succ_eq_map, List.filter_cons, List.filter_map]
      have : (List.filter ((fun j => (b :: l)[j]? == some true) ∘ Nat.succ)
          (List.range l.length)) = List.filter (fun j => l[j]? == some true) (List.range l.length) := rfl
      rw [this]
      cases b <;> simp [ih]
  · rw [h7, ht]
    simp [Num.lt]

/-- **C39** for the whole matrix: row `i` of the result is the result for instance `i`. -/
theorem C39_rows (o : Opts) (ys : List (List Num)) (h : ∀ r ∈ ys, r ≠ []) :
    ∃ outs, rows o ys = some outs ∧ outs.length = ys.length ∧
      ∀ (i : Nat) (r : List Num), ys[i]? = some r → ∃ out, outs[i]? = some out ∧
        rowStep o r = some out := by
  induction ys with
  | nil => exact ⟨[], rfl, rfl, by simp⟩
  | cons r ys ih =>
    obtain ⟨out, ho, -⟩ := rowStep_exists o r (h r List.mem_cons_self)
    obtain ⟨outs, hos, hl, hi⟩ := ih (fun r hr => h r (List.mem_cons_of_mem _ hr))
    refine ⟨out :: outs, by simp [rows, ho, hos], by simp [hl], ?_⟩
    intro i r' hr'
    cases i with
    | zero =>
      simp only [List.getElem?_cons_zero, Option.some.injEq] at hr'
      subst hr'
      exact ⟨out, rfl, ho⟩
    | succ i => exact hi i r' hr'

example : (rowStep ⟨true, true, 2, .fin (1/2), false, false⟩ [1, 2, 3, 4]).map
    (fun r => (r.numGood, r.beta)) = some (3, true) ∧
  (rowStep ⟨true, true, 3, .fin (1/2), false, false⟩ [1, 2, 3, 4]).map
    (fun r => (r.numGood, r.beta)) = some (2, false) := by decide +kernel

/-! ### C40 -/

/-- **C40** Loosening the threshold keeps good algorithms good.  `o` and `o'` differ only in the
threshold; when maximising absolutely looser means smaller, otherwise larger. -/
theorem C40_monotone (o o' : Opts) (hm : o'.maxPerf = o.maxPerf) (ha : o'.absPerf = o.absPerf)
    (he : if o.maxPerf = true ∧ o.absPerf = true then Num.le o'.epsilon o.epsilon = true
      else Num.le o.epsilon o'.epsilon = true)
    (row : List Num) (out out' : Row) (h : rowStep o row = some out)
    (h' : rowStep o' row = some out') (j : Nat) (hg : MarkedGood out j) : MarkedGood out' j := by
  obtain ⟨b, -, -, hb, hbin, -⟩ := rowStep_some h
  have hv : ∃ v, row[j]? = some v := by
    unfold MarkedGood at hg
    rw [hbin, List.getElem?_map] at hg
    cases hr : row[j]? with
    | none => rw [hr] at hg; cases hg
    | some v => exact ⟨v, rfl⟩
  obtain ⟨v, hv⟩ := hv
  have hbest : out'.yBest = out.yBest := by
    unfold rowStep at h h'
    rw [hm, ha] at h'
    cases hr : row.map (aux o.maxPerf) with
    | nil => rw [hr] at h; cases h
    | cons a l =>
      rw [hr] at h h'
      simp only [Option.some.injEq] at h h'
      rw [← h, ← h']
  rw [yBin_getElem h hv] at hg
  rw [yBin_getElem h' hv, hbest]
  unfold good at hg ⊢
  rw [hm, ha]
  cases h1 : o.maxPerf <;> cases h2 : o.absPerf <;> simp only [h1, h2] at hg he ⊢
  · exact Num.le_trans hg (by simpa using he)
  · exact Num.le_trans hg (by simpa using he)
  · exact Num.le_trans hg (by simpa using he)
  · exact Num.le_trans (by simpa using he) hg

example : (rowStep ⟨true, false, .fin (1/20), 1, false, false⟩ [94, 100]).map Row.yBin =
    some [false, true] ∧
  (rowStep ⟨true, false, .fin (1/10), 1, false, false⟩ [94, 100]).map Row.yBin =
    some [true, true] := by decide +kernel

end Verif.Prelim
