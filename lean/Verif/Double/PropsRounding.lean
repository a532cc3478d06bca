import Verif.Double.Rounding
import Verif.Double.Distance
import Verif.Double.PropsShares
import Verif.Pythia.PropsSummary
/-!
# The rounded numbers of PYTHIA's table in double precision (C182)
-/
set_option autoImplicit false
set_option linter.unusedSectionVars false

namespace Verif.Double

open Verif (Num)

/-! ### Specification -/

/-- `r` is a number with three decimals that is as near to `q` as any other. -/
def NearestDecimal (q r : ℚ) : Prop :=
  ∃ k : ℤ, r = toBits (k / 1000) ∧ ∀ l : ℤ, |(k : ℚ) / 1000 - q| ≤ |(l : ℚ) / 1000 - q|

/-! ### Lemmas -/

theorem rint_mono {a b : Num} (h : a.le b = true) : (rint a).le (rint b) = true := by
  cases a <;> cases b <;> simp_all [rint, Num.le]
  exact nearest_mono h

theorem mul_thousand_mono {a b : Num} (h : a.le b = true) :
    (mul a (.fin 1000)).le (mul b (.fin 1000)) = true := by
  refine rounded_mono ?_
  cases a <;> cases b <;> simp_all [Num.le]
  all_goals first
    | rfl
    | decide
    | skip

theorem nearest_of_close {x : ℚ} {n : ℤ} (h : |x - n| < 1 / 2) : nearest x = n := by
  have h1 := nearest_error x
  rw [abs_le] at h1
  rw [abs_lt] at h
  have h2 : ((nearest x - n : ℤ) : ℚ) < 1 := by push_cast; linarith
  have h3 : (-1 : ℚ) < ((nearest x - n : ℤ) : ℚ) := by push_cast; linarith
  have h4 : nearest x - n < 1 := by exact_mod_cast h2
  have h5 : -1 < nearest x - n := by exact_mod_cast h3
  omega

theorem small_tiny : (1 : ℚ) / 2 ^ 1075 ≤ 1 / 2 ^ 60 :=
  one_div_le_one_div_of_le (by positivity) (pow_le_pow_right₀ (by norm_num) (by norm_num))

theorem toBits_abs_error {q B : ℚ} (h : |q| ≤ B) : |toBits q - q| ≤ B / 2 ^ 53 + 1 / 2 ^ 60 := by
  refine (toBits_error q).trans (add_le_add ?_ small_tiny)
  exact div_le_div_of_nonneg_right h (by positivity)

/-- The rounding of a moderate number: an integer `n` near to a thousand times the number, divided. -/
theorem round3_fin {q : ℚ} (h : |q| ≤ 2 ^ 38) :
    ∃ n : ℤ, round3 (.fin q) = .fin (toBits (n / 1000)) ∧ n = nearest (toBits (q * 1000)) ∧ |(n : ℚ)| ≤ 2 ^ 48 := by
  have h1 : |q * 1000| ≤ 2 ^ 48 := by
    rw [abs_mul, abs_of_pos (by norm_num : (0 : ℚ) < 1000)]
    norm_num at h ⊢
    linarith
  obtain ⟨x, hx, fx, ex⟩ := toDouble_fits (K := 48) (by norm_num) h1
  have hn : |(nearest x : ℚ)| ≤ 2 ^ 48 := by
    obtain ⟨l, u⟩ := abs_le.1 fx.2
    have hu := nearest_mono u
    have hl := nearest_mono l
    rw [nearest_two_pow] at hu
    rw [nearest_neg, nearest_two_pow] at hl
    rw [abs_le]
    constructor
    · have : ((-2 ^ 48 : ℤ) : ℚ) ≤ nearest x := by exact_mod_cast hl
      push_cast at this
      linarith
    · have : (nearest x : ℚ) ≤ ((2 ^ 48 : ℤ) : ℚ) := by exact_mod_cast hu
      push_cast at this
      linarith
  refine ⟨nearest x, ?_, by rw [ex], hn⟩
  have hm : mul (.fin q) (.fin 1000) = .fin x := by
    unfold mul
    rw [Num.fin_mul]
    exact hx
  unfold round3
  rw [hm]
  unfold rint div
  rw [Num.fin_div _ _ (by norm_num)]
  have h3 : |(nearest x : ℚ) / 1000| ≤ 2 ^ 48 := by
    rw [abs_div, abs_of_pos (by norm_num : (0 : ℚ) < 1000), div_le_iff₀ (by norm_num)]
    norm_num at hn ⊢
    linarith [abs_nonneg (nearest x : ℚ)]
  obtain ⟨y, hy, -, ey⟩ := toDouble_fits (K := 48) (by norm_num) h3
  rw [← ey]
  exact hy

/-! ### Theorems -/

/-- **C182.**  The larger of two numbers is never shown as the smaller one. -/
theorem C182_order {a b : Num} (h : a.le b = true) : (round3 a).le (round3 b) = true :=
  div_mono (by norm_num) (rint_mono (mul_thousand_mono h))

/-- **C182.**  A number up to `2 ^ 38` is shown with an error of half a thousandth and four roundings at most. -/
theorem C182_error {q : ℚ} (h : |q| ≤ 2 ^ 38) :
    ∃ r, round3 (.fin q) = .fin r ∧ |r - q| ≤ 1 / 2000 + |q| / 2 ^ 51 + 1 / 2 ^ 50 := by
  obtain ⟨n, hn, en, -⟩ := round3_fin h
  refine ⟨_, hn, ?_⟩
  have e1 := toBits_abs_error (q := q * 1000) le_rfl
  have e2 := nearest_error (toBits (q * 1000))
  rw [← en] at e2
  rw [abs_mul, abs_of_pos (by norm_num : (0 : ℚ) < 1000)] at e1
  have e3 : |(n : ℚ) / 1000 - q| ≤ 1 / 2000 + |q| / 2 ^ 53 + 1 / 2 ^ 60 := by
    have : (n : ℚ) / 1000 - q = ((n - toBits (q * 1000)) + (toBits (q * 1000) - q * 1000)) / 1000 := by ring
    rw [this, abs_div, abs_of_pos (by norm_num : (0 : ℚ) < 1000), div_le_iff₀ (by norm_num)]
    refine (abs_add_le _ _).trans ?_
    norm_num at e1 e2 ⊢
    linarith [abs_nonneg q]
  have hb : |(n : ℚ) / 1000| ≤ |q| + 1 := by
    have h1 : |(n : ℚ) / 1000| ≤ |(n : ℚ) / 1000 - q| + |q| := by
      have := abs_add_le ((n : ℚ) / 1000 - q) q
      rwa [sub_add_cancel] at this
    norm_num at h e3 ⊢
    linarith
  have e4 := toBits_abs_error hb
  have : toBits ((n : ℚ) / 1000) - q = (toBits ((n : ℚ) / 1000) - n / 1000) + (n / 1000 - q) := by ring
  rw [this]
  refine (abs_add_le _ _).trans ?_
  norm_num at e3 e4 ⊢
  linarith [abs_nonneg q]

/-- **C182.**  Rounding twice, as is done with the average performances, is the same as rounding once. -/
theorem C182_twice {q : ℚ} (h : |q| ≤ 2 ^ 38) : round3 (round3 (.fin q)) = round3 (.fin q) := by
  obtain ⟨n, hn, -, hb⟩ := round3_fin h
  rw [hn]
  have e1 := toBits_abs_error (q := (n : ℚ) / 1000) (B := 2 ^ 48 / 1000) (by
    rw [abs_div, abs_of_pos (by norm_num : (0 : ℚ) < 1000)]
    exact div_le_div_of_nonneg_right hb (by norm_num))
  set r := toBits ((n : ℚ) / 1000) with hr
  have hrn : |r * 1000 - n| ≤ 1 / 16 := by
    have : r * 1000 - n = (r - n / 1000) * 1000 := by ring
    rw [this, abs_mul, abs_of_pos (by norm_num : (0 : ℚ) < 1000)]
    norm_num at e1 ⊢
    linarith
  have hr2 : |r * 1000| ≤ 2 ^ 49 := by
    have := abs_add_le (r * 1000 - n) n
    rw [sub_add_cancel] at this
    refine this.trans ?_
    norm_num at hb hrn ⊢
    linarith
  have e2 := toBits_abs_error hr2
  have hclose : |toBits (r * 1000) - n| < 1 / 2 := by
    have : toBits (r * 1000) - n = (toBits (r * 1000) - r * 1000) + (r * 1000 - n) := by ring
    rw [this]
    refine (abs_add_le _ _).trans_lt ?_
    norm_num at e2 hrn ⊢
    linarith
  have hd : toDouble (r * 1000) = .fin (toBits (r * 1000)) := by
    obtain ⟨x, hx, -, ex⟩ := toDouble_fits (K := 49) (by norm_num) hr2
    rw [← ex]
    exact hx
  have hm : mul (.fin r) (.fin 1000) = .fin (toBits (r * 1000)) := by
    unfold mul
    rw [Num.fin_mul]
    exact hd
  unfold round3
  rw [hm]
  unfold rint
  dsimp only
  rw [nearest_of_close hclose]
  unfold div
  rw [Num.fin_div _ _ (by norm_num)]
  change toDouble _ = _
  have h3 : |(n : ℚ) / 1000| ≤ 2 ^ 48 := by
    rw [abs_div, abs_of_pos (by norm_num : (0 : ℚ) < 1000), div_le_iff₀ (by norm_num)]
    norm_num at hb ⊢
    linarith [abs_nonneg (n : ℚ)]
  obtain ⟨y, hy, -, ey⟩ := toDouble_fits (K := 48) (by norm_num) h3
  rw [hy, hr, ey]

/-- **C182 is false**: the number shown is not always the one with three decimals that is nearest to the number; the
double nearest to 0.0005 is more than 0.0005, but shown as 0. -/
theorem C182_refuted : ¬ ∀ q r : ℚ, IsDouble q → |q| ≤ 2 ^ 38 → round3 (.fin q) = .fin r → NearestDecimal q r := by
  intro h
  have hd : toDouble (1 / 2000) = .fin (1152921504606847 / 2 ^ 61) := by decide +kernel
  obtain ⟨k, hk, hn⟩ := h (1152921504606847 / 2 ^ 61) 0 (toDouble_fin hd).2
    (by rw [abs_of_pos (by positivity)]; norm_num) (by decide +kernel)
  have h1 := hn 1
  have hk0 : k ≤ 0 := by
    by_contra hc
    have h2 : (1 : ℚ) / 1000 ≤ k / 1000 := by
      have : (1 : ℚ) ≤ k := by exact_mod_cast (by omega : 1 ≤ k)
      linarith
    have h3 := toBits_mono h2
    rw [← hk] at h3
    have : (0 : ℚ) < toBits (1 / 1000) := by decide +kernel
    linarith
  have hk' : (k : ℚ) ≤ 0 := by exact_mod_cast hk0
  rw [abs_le] at h1
  norm_num [abs_of_pos] at h1
  linarith [h1.1]

/-- The percentage of a share before it is rounded to three decimals. -/
theorem hundred_share {g e : Nat} (hg : g ≤ e) (he : 0 < e) :
    ∃ v, mul (.fin 100) (share g e) = .fin v ∧ |v - 100 * (g / e)| ≤ 1 / 2 ^ 40 ∧ |v| ≤ 101 := by
  have hE : (0 : ℚ) < e := by exact_mod_cast he
  have hq0 : (0 : ℚ) ≤ g / e := by positivity
  have hq1 : (g : ℚ) / e ≤ 1 := (div_le_one hE).2 (by exact_mod_cast hg)
  obtain ⟨r, hr, er⟩ := toDouble_unit hq0 hq1
  have hs : share g e = .fin r := by
    unfold share div
    rw [Num.fin_div _ _ hE.ne']
    exact hr
  rw [abs_le] at er
  have hb : |100 * r| ≤ 2 ^ 7 := by
    rw [abs_le]
    norm_num at er ⊢
    constructor <;> linarith [er.1, er.2]
  obtain ⟨v, hv, -, ev⟩ := toDouble_fits (K := 7) (by norm_num) hb
  have e2 := toBits_abs_error hb
  rw [← ev, abs_le] at e2
  refine ⟨v, ?_, ?_, ?_⟩
  · rw [hs]
    unfold mul
    rw [Num.fin_mul]
    exact hv
  · rw [abs_le]
    norm_num at er e2 ⊢
    constructor <;> linarith [er.1, er.2, e2.1, e2.2]
  · rw [abs_le]
    norm_num at er e2 ⊢
    constructor <;> linarith [er.1, er.2, e2.1, e2.2]

/-- **C182.**  Accuracy, precision and recall are shown in percent with an error of little more than half a
thousandth. -/
theorem C182_percent {g e : Nat} (hg : g ≤ e) (he : 0 < e) :
    ∃ r, percent g e = .fin r ∧ |r - 100 * (g / e)| ≤ 1 / 2000 + 1 / 10 ^ 9 := by
  obtain ⟨v, hv, ev, bv⟩ := hundred_share hg he
  obtain ⟨r, hr, er⟩ := C182_error (q := v) (bv.trans (by norm_num))
  refine ⟨r, by unfold percent; rw [hv, hr], ?_⟩
  have : r - 100 * (g / e) = (r - v) + (v - 100 * (g / e)) := by ring
  rw [this]
  refine (abs_add_le _ _).trans ?_
  norm_num at ev er bv ⊢
  linarith

/-- **C182.**  With up to 300 instances different measures are shown differently, and in the right order. -/
theorem C182_distinct {g e g' e' : Nat} (hg : g ≤ e) (he : 0 < e) (hg' : g' ≤ e') (he' : 0 < e')
    (hs : e ≤ 300) (hs' : e' ≤ 300) (h : (g : ℚ) / e < g' / e') :
    (percent g e).lt (percent g' e') = true := by
  obtain ⟨r, hr, er⟩ := C182_percent hg he
  obtain ⟨r', hr', er'⟩ := C182_percent hg' he'
  rw [hr, hr']
  simp only [Num.lt, decide_eq_true_eq]
  have hE : (0 : ℚ) < e := by exact_mod_cast he
  have hE' : (0 : ℚ) < e' := by exact_mod_cast he'
  have hb : (e : ℚ) * e' ≤ 90000 := by
    have : e * e' ≤ 300 * 300 := Nat.mul_le_mul hs hs'
    exact_mod_cast this
  have hgap : (1 : ℚ) / 90000 ≤ g' / e' - g / e := by
    rw [div_lt_div_iff₀ hE hE'] at h
    have h1 : (g : ℚ) * e' + 1 ≤ g' * e := by
      have : g * e' < g' * e := by exact_mod_cast h
      exact_mod_cast this
    have h2 : (g' : ℚ) / e' - g / e = (g' * e - g * e') / (e * e') := by
      field_simp
    rw [h2]
    refine (one_div_le_one_div_of_le (by positivity) hb).trans ?_
    refine div_le_div_of_nonneg_right ?_ (by positivity)
    linarith
  rw [abs_le] at er er'
  norm_num at er er' hgap ⊢
  linarith [er.2, er'.1]

/-- The numeric functions of the summary, as doubles. -/
def lib : Pythia.Lib := ⟨round3, sqrt⟩

/-- **C182.**  The average performances that PYTHIA's table shows are the averages, rounded once. -/
theorem C182_table {n : Nat} {labels : List String} {y : List (List Num)} {yBin : List (List Bool)}
    {yBest : List Num} {fitted : Nat → Except Pythia.Err Pythia.SvmRes} {out : Pythia.Out}
    (h : Pythia.pythia lib n labels y yBin yBest fitted = .ok out) (hy : Pythia.Rect y n) {j : Nat} (hj : j < n)
    {m : ℚ} (hm : Pythia.Average (Pythia.perfOf y j) m) (hb : |m| ≤ 2 ^ 38) :
    ∃ r, out.summary.avgPerf[j]? = some (.fin r) ∧ |r - m| ≤ 1 / 2000 + |m| / 2 ^ 51 + 1 / 2 ^ 50 := by
  have h1 := (Pythia.C136_average h hy).1 j hj m hm
  change _ = some (round3 (round3 (.fin m))) at h1
  rw [C182_twice hb] at h1
  obtain ⟨r, hr, er⟩ := C182_error hb
  exact ⟨r, by rw [h1, hr], er⟩

/-- Non-vacuity: two thirds are shown as 66.667, 1.0005 as 1 and 2.5 as 2.5. -/
example : percent 2 3 = toDouble (66667 / 1000) ∧ round3 (toDouble (10005 / 10000)) = .fin 1 ∧
    round3 (.fin (5 / 2)) = .fin (5 / 2) ∧ (percent 298 299).lt (percent 299 300) = true ∧
    round3 (round3 (toDouble (10015 / 10000))) = toDouble (1002 / 1000) :=
  ⟨by decide +kernel, by decide +kernel, by decide +kernel, by decide +kernel, by decide +kernel⟩

end Verif.Double
