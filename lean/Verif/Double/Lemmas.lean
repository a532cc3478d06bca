import Verif.Double.Model
import Mathlib.Tactic.Linarith
import Mathlib.Tactic.Positivity
import Mathlib.Tactic.FieldSimp
import Mathlib.Tactic.Ring
/-!
# Rounding to doubles
-/
set_option autoImplicit false

namespace Verif.Double

open Verif (Num)

/-! ### The nearest integer -/

theorem nearest_bounds (q : ℚ) : ⌊q⌋ ≤ nearest q ∧ nearest q ≤ ⌊q⌋ + 1 := by
  unfold nearest
  split
  · omega
  · split
    · omega
    · split <;> omega

theorem nearest_int (k : ℤ) : nearest (k : ℚ) = k := by
  unfold nearest
  rw [Int.floor_intCast, if_pos (by rw [sub_self]; norm_num)]

theorem nearest_error (q : ℚ) : |(nearest q : ℚ) - q| ≤ 1 / 2 := by
  have h1 := Int.floor_le q
  have h2 := Int.lt_floor_add_one q
  unfold nearest
  rw [abs_le]
  split
  · constructor <;> linarith
  · split
    · push_cast
      constructor <;> linarith
    · split
      · constructor <;> linarith
      · push_cast
        constructor <;> linarith

theorem nearest_mono {a b : ℚ} (h : a ≤ b) : nearest a ≤ nearest b := by
  have ha := nearest_bounds a
  have hb := nearest_bounds b
  have hf : ⌊a⌋ ≤ ⌊b⌋ := Int.floor_le_floor h
  rcases hf.lt_or_eq with h1 | h1
  · omega
  · by_contra hlt
    have e1 : nearest a = ⌊a⌋ + 1 := by omega
    have e2 : nearest b = ⌊a⌋ := by omega
    unfold nearest at e1 e2
    rw [← h1] at e2
    split at e1
    · omega
    · split at e2
      · linarith
      · split at e2
        · omega
        · split at e1
          · linarith
          · split at e1
            · omega
            · split at e2 <;> omega

theorem nearest_two_pow (n : ℕ) : nearest ((2 : ℚ) ^ n) = 2 ^ n := by
  have := nearest_int (2 ^ n)
  push_cast at this
  exact this

theorem nearest_zero : nearest 0 = 0 := by exact_mod_cast nearest_int 0

theorem floor_neg_of_ne {q : ℚ} (h : q ≠ ⌊q⌋) : ⌊-q⌋ = -⌊q⌋ - 1 := by
  rw [Int.floor_eq_iff]
  have h1 := Int.floor_le q
  have h2 := Int.lt_floor_add_one q
  have h3 : (⌊q⌋ : ℚ) < q := lt_of_le_of_ne h1 (Ne.symm h)
  push_cast
  constructor <;> linarith

theorem nearest_neg (q : ℚ) : nearest (-q) = -nearest q := by
  by_cases h : q = ⌊q⌋
  · rw [h, ← Int.cast_neg, nearest_int, nearest_int]
  · have hn := floor_neg_of_ne h
    unfold nearest
    rw [hn]
    push_cast
    have e : -q - (-(⌊q⌋ : ℚ) - 1) = 1 - (q - ⌊q⌋) := by ring
    rw [e]
    rcases lt_trichotomy (q - ⌊q⌋) (1 / 2) with h1 | h1 | h1
    · rw [if_neg (by linarith), if_pos (by linarith), if_pos h1]
      omega
    · rw [h1]
      norm_num
      split <;> split <;> omega
    · rw [if_pos (by linarith), if_neg (by linarith), if_pos h1]
      omega

/-! ### Exponents -/

theorem ulp_pos (q : ℚ) : 0 < ulp q := zpow_pos (by norm_num) _

theorem expo_neg (q : ℚ) : expo (-q) = expo q := by unfold expo; rw [abs_neg]

theorem ulp_neg (q : ℚ) : ulp (-q) = ulp q := by unfold ulp; rw [expo_neg]

theorem expo_ge (q : ℚ) : -1022 ≤ expo q := le_max_right _ _

theorem expo_mono {a b : ℚ} (h0 : 0 < a) (h : a ≤ b) : expo a ≤ expo b := by
  unfold expo
  rw [abs_of_pos h0, abs_of_pos (h0.trans_le h)]
  exact max_le_max (Int.log_mono_right h0 h) (le_refl _)

theorem two_zpow_pos (e : ℤ) : (0 : ℚ) < 2 ^ e := zpow_pos (by norm_num) _

theorem two_zpow_mono {a b : ℤ} (h : a ≤ b) : (2 : ℚ) ^ a ≤ 2 ^ b :=
  zpow_le_zpow_right₀ (by norm_num) h

theorem lt_expo {q : ℚ} : |q| < 2 ^ (expo q + 1) := by
  have h := Int.lt_zpow_succ_log_self (b := 2) (by norm_num) |q|
  push_cast at h
  exact h.trans_le (two_zpow_mono (by unfold expo; have := le_max_left (Int.log 2 |q|) (-1022); omega))

theorem expo_le {q : ℚ} (h0 : q ≠ 0) (h : -1022 < expo q) : 2 ^ expo q ≤ |q| := by
  have hlog : expo q = Int.log 2 |q| := by
    unfold expo at h ⊢
    rcases max_choice (Int.log 2 |q|) (-1022) with hm | hm
    · exact hm
    · omega
  rw [hlog]
  have := Int.zpow_log_le_self (b := 2) (r := |q|) (by norm_num) (abs_pos.2 h0)
  exact_mod_cast this

theorem ulp_mul (q : ℚ) (n : ℤ) : (2 : ℚ) ^ n * ulp q = 2 ^ (expo q - 52 + n) := by
  unfold ulp
  rw [← zpow_add₀ (by norm_num : (2 : ℚ) ≠ 0)]
  congr 1
  omega

/-! ### Rounding to 53 bits -/

theorem toBits_zero : toBits 0 = 0 := by
  unfold toBits
  rw [zero_div]
  have : nearest 0 = 0 := by exact_mod_cast nearest_int 0
  rw [this]; simp

theorem toBits_neg (q : ℚ) : toBits (-q) = -toBits q := by
  unfold toBits
  rw [ulp_neg, neg_div, nearest_neg]
  push_cast
  ring

theorem quotient_le (q : ℚ) : |q / ulp q| ≤ 2 ^ 53 := by
  rw [abs_div, abs_of_pos (ulp_pos q), div_le_iff₀ (ulp_pos q)]
  have h := ulp_mul q 53
  have h2 : (2 : ℚ) ^ (53 : ℤ) = 2 ^ 53 := by norm_cast
  rw [h2] at h
  rw [h]
  refine lt_expo.le.trans (two_zpow_mono ?_)
  omega

theorem nearest_quotient_le (q : ℚ) : |nearest (q / ulp q)| ≤ 2 ^ 53 := by
  have h := abs_le.1 (quotient_le q)
  rw [abs_le]
  constructor
  · have := nearest_mono h.1
    rw [nearest_neg, nearest_two_pow] at this
    exact this
  · have := nearest_mono h.2
    rw [nearest_two_pow] at this
    exact this

theorem toBits_nonneg {q : ℚ} (h : 0 ≤ q) : 0 ≤ toBits q := by
  unfold toBits
  refine mul_nonneg ?_ (ulp_pos q).le
  have := nearest_mono (div_nonneg h (ulp_pos q).le)
  have h0 : nearest 0 = 0 := by exact_mod_cast nearest_int 0
  rw [h0] at this
  exact_mod_cast this

theorem toBits_le (q : ℚ) : toBits q ≤ 2 ^ (expo q + 1) := by
  have h := (abs_le.1 (nearest_quotient_le q)).2
  have h1 : ((nearest (q / ulp q) : ℤ) : ℚ) ≤ 2 ^ 53 := by exact_mod_cast h
  unfold toBits
  refine (mul_le_mul_of_nonneg_right h1 (ulp_pos q).le).trans ?_
  have h2 := ulp_mul q 53
  have h3 : (2 : ℚ) ^ (53 : ℤ) = 2 ^ 53 := by norm_cast
  rw [h3] at h2
  rw [h2]
  exact two_zpow_mono (by omega)

theorem le_toBits {q : ℚ} (h0 : 0 < q) (h : -1022 < expo q) : 2 ^ expo q ≤ toBits q := by
  have h1 := expo_le h0.ne' h
  rw [abs_of_pos h0] at h1
  have h2 := ulp_mul q 52
  have h3 : (2 : ℚ) ^ (52 : ℤ) = 2 ^ 52 := by norm_cast
  rw [h3, show expo q - 52 + 52 = expo q by omega] at h2
  have h4 : (2 : ℚ) ^ 52 ≤ q / ulp q := by
    rw [le_div_iff₀ (ulp_pos q), h2]
    exact h1
  have h5 := nearest_mono h4
  rw [nearest_two_pow] at h5
  have h7 : (2 : ℚ) ^ 52 ≤ ((nearest (q / ulp q) : ℤ) : ℚ) := by exact_mod_cast h5
  rw [← h2]
  exact mul_le_mul_of_nonneg_right h7 (ulp_pos q).le

theorem toBits_mono_pos {a b : ℚ} (h0 : 0 < a) (h : a ≤ b) : toBits a ≤ toBits b := by
  rcases (expo_mono h0 h).lt_or_eq with h1 | h1
  · refine (toBits_le a).trans ((two_zpow_mono ?_).trans (le_toBits (h0.trans_le h) ?_))
    · omega
    · have := expo_ge a
      omega
  · have hu : ulp a = ulp b := by unfold ulp; rw [h1]
    unfold toBits
    rw [hu]
    refine mul_le_mul_of_nonneg_right ?_ (ulp_pos b).le
    exact_mod_cast nearest_mono (div_le_div_of_nonneg_right h (ulp_pos b).le)

theorem toBits_mono {a b : ℚ} (h : a ≤ b) : toBits a ≤ toBits b := by
  rcases lt_trichotomy a 0 with ha | ha | ha
  · rcases lt_or_ge b 0 with hb | hb
    · have := toBits_mono_pos (a := -b) (b := -a) (by linarith) (by linarith)
      rw [toBits_neg, toBits_neg] at this
      linarith
    · have h1 := toBits_nonneg hb
      have h2 := toBits_nonneg (q := -a) (by linarith)
      rw [toBits_neg] at h2
      linarith
  · subst ha
    rw [toBits_zero]
    exact toBits_nonneg h
  · exact toBits_mono_pos ha h

/-- A double without the bound on the exponent from above. -/
def Bits (q : ℚ) : Prop := ∃ m k : ℤ, q = m * 2 ^ k ∧ |m| ≤ 2 ^ 53 ∧ -1074 ≤ k

theorem bits_toBits (q : ℚ) : Bits (toBits q) :=
  ⟨nearest (q / ulp q), expo q - 52, rfl, nearest_quotient_le q, by have := expo_ge q; omega⟩

theorem toBits_of_quotient {q : ℚ} {n : ℤ} (h : q = n * ulp q) : toBits q = q := by
  have : q / ulp q = n := by
    rw [div_eq_iff (ulp_pos q).ne']
    exact h
  unfold toBits
  rw [this, nearest_int, ← h]

theorem toBits_exact {q : ℚ} (h : Bits q) : toBits q = q := by
  obtain ⟨m, k, hq, hm, hk⟩ := h
  by_cases h0 : q = 0
  · rw [h0, toBits_zero]
  by_cases he : expo q - 52 ≤ k
  · obtain ⟨n, hn⟩ := Int.le.dest he
    refine toBits_of_quotient (n := m * 2 ^ n) ?_
    rw [hq.trans rfl]
    conv_rhs => rw [← hq]
    push_cast
    rw [mul_assoc, ← zpow_natCast (2 : ℚ) n, ulp_mul, hn]
  · have he' : k < expo q - 52 := by omega
    have hlow := expo_le h0 (by omega)
    have hup : |q| ≤ 2 ^ expo q := by
      rw [hq, abs_mul, abs_of_pos (two_zpow_pos k)]
      have h1 : ((|m| : ℤ) : ℚ) ≤ 2 ^ 53 := by exact_mod_cast hm
      rw [Int.cast_abs] at h1
      refine (mul_le_mul_of_nonneg_right h1 (two_zpow_pos k).le).trans ?_
      have h3 : (2 : ℚ) ^ (53 : ℤ) = 2 ^ 53 := by norm_cast
      rw [← h3, ← zpow_add₀ (by norm_num : (2 : ℚ) ≠ 0), ← hq]
      exact two_zpow_mono (by omega)
    have heq : |q| = 2 ^ expo q := le_antisymm hup hlow
    have hu := ulp_mul q 52
    have h3 : (2 : ℚ) ^ (52 : ℤ) = 2 ^ 52 := by norm_cast
    rw [h3, show expo q - 52 + 52 = expo q by omega, ← heq] at hu
    rcases abs_choice q with hs | hs
    · refine toBits_of_quotient (n := 2 ^ 52) ?_
      rw [Int.cast_pow, Int.cast_ofNat, hu, hs]
    · refine toBits_of_quotient (n := -2 ^ 52) ?_
      rw [Int.cast_neg, Int.cast_pow, Int.cast_ofNat, neg_mul, hu, hs, neg_neg]

theorem toBits_error (q : ℚ) : |toBits q - q| ≤ |q| / 2 ^ 53 + 1 / 2 ^ 1075 := by
  by_cases hq : q = 0
  · rw [hq, toBits_zero, sub_zero, abs_zero]
    positivity
  have h1 : |toBits q - q| ≤ ulp q / 2 := by
    have h := nearest_error (q / ulp q)
    have hu := ulp_pos q
    have e : toBits q - q = ((nearest (q / ulp q) : ℤ) - q / ulp q) * ulp q := by
      unfold toBits
      field_simp
    rw [e, abs_mul, abs_of_pos hu]
    have := mul_le_mul_of_nonneg_right h hu.le
    linarith
  have h2 : ulp q ≤ |q| / 2 ^ 52 + 1 / 2 ^ 1074 := by
    have hn : (0 : ℚ) ≤ |q| / 2 ^ 52 := by positivity
    have hz : (0 : ℚ) ≤ 1 / 2 ^ 1074 := by positivity
    by_cases h0 : expo q ≤ -1022
    · have he : expo q = -1022 := le_antisymm h0 (expo_ge q)
      have : ulp q = 1 / 2 ^ 1074 := by
        unfold ulp
        rw [he, show (-1022 - 52 : ℤ) = -((1074 : ℕ) : ℤ) by norm_num, zpow_neg, zpow_natCast, one_div]
      rw [this]
      linarith
    · have h := expo_le hq (by omega)
      have hu := ulp_mul q 52
      have h3 : (2 : ℚ) ^ (52 : ℤ) = 2 ^ 52 := by norm_cast
      rw [h3, show expo q - 52 + 52 = expo q by omega] at hu
      rw [← hu] at h
      have : ulp q ≤ |q| / 2 ^ 52 := by
        rw [le_div_iff₀ (by positivity)]
        linarith
      linarith
  have h3 : (1 : ℚ) / 2 ^ 1075 = 1 / 2 ^ 1074 / 2 := by rw [pow_succ]; field_simp
  have h4 : |q| / 2 ^ 53 = |q| / 2 ^ 52 / 2 := by rw [pow_succ]; field_simp
  rw [h3, h4]
  linarith

/-! ### Doubles -/

/-- A finite double: an integer of at most 53 bits times a power of two, not too small and not too large. -/
def IsDouble (q : ℚ) : Prop := Bits q ∧ |q| < limit

theorem limit_pos : 0 < limit := by unfold limit; positivity

theorem toDouble_exact {q : ℚ} (h : IsDouble q) : toDouble q = .fin q := by
  have h2 := abs_lt.1 h.2
  unfold toDouble
  rw [toBits_exact h.1, if_neg (not_le.2 h2.2), if_neg (not_le.2 h2.1)]

theorem toDouble_ne_nan (q : ℚ) : toDouble q ≠ .nan := by
  unfold toDouble
  split
  · simp
  · split <;> simp

theorem toDouble_fin {q r : ℚ} (h : toDouble q = .fin r) : r = toBits q ∧ IsDouble r := by
  unfold toDouble at h
  split at h
  · cases h
  · split at h
    · cases h
    · cases h
      refine ⟨rfl, bits_toBits q, abs_lt.2 ⟨?_, ?_⟩⟩
      · rename_i h1; exact not_le.1 h1
      · rename_i h1 _; exact not_le.1 h1

theorem toDouble_mono {a b : ℚ} (h : a ≤ b) : (toDouble a).le (toDouble b) = true := by
  have hm := toBits_mono h
  have hl := limit_pos
  unfold toDouble
  by_cases h1 : limit ≤ toBits b
  · rw [if_pos h1]
    split
    · rfl
    · split <;> rfl
  · rw [if_neg h1, if_neg (fun h => h1 (h.trans hm))]
    by_cases h2 : toBits a ≤ -limit
    · rw [if_pos h2]
      split <;> rfl
    · rw [if_neg h2, if_neg (fun h => h2 (hm.trans h))]
      simp [Num.le, hm]

theorem toDouble_error {q r : ℚ} (h : toDouble q = .fin r) :
    |r - q| ≤ |q| / 2 ^ 53 + 1 / 2 ^ 1075 := by
  rw [(toDouble_fin h).1]
  exact toBits_error q

theorem isDouble_int {k : ℤ} (h : |k| ≤ 2 ^ 53) : IsDouble k := by
  refine ⟨⟨k, 0, by simp, h, by omega⟩, ?_⟩
  have h1 : ((|k| : ℤ) : ℚ) ≤ 2 ^ 53 := by exact_mod_cast h
  rw [Int.cast_abs] at h1
  refine h1.trans_lt ?_
  unfold limit
  exact pow_lt_pow_right₀ (by norm_num) (by norm_num)

theorem isDouble_zero : IsDouble 0 := by exact_mod_cast isDouble_int (k := 0) (by norm_num)
theorem isDouble_one : IsDouble 1 := by exact_mod_cast isDouble_int (k := 1) (by norm_num)

theorem toDouble_zero : toDouble 0 = .fin 0 := toDouble_exact isDouble_zero
theorem toDouble_one : toDouble 1 = .fin 1 := toDouble_exact isDouble_one

theorem rounded_mono {a b : Num} (h : a.le b = true) : (rounded a).le (rounded b) = true := by
  cases a with
  | nan => simp [Num.le] at h
  | ninf =>
    cases b with
    | nan => simp [Num.le] at h
    | ninf => rfl
    | pinf => rfl
    | fin b =>
      have := toDouble_ne_nan b
      simp only [rounded]
      cases hb : toDouble b <;> simp_all [Num.le]
  | pinf =>
    cases b with
    | nan => simp [Num.le] at h
    | ninf => simp [Num.le] at h
    | pinf => rfl
    | fin b => simp [Num.le] at h
  | fin a =>
    cases b with
    | nan => simp [Num.le] at h
    | ninf => simp [Num.le] at h
    | pinf =>
      have := toDouble_ne_nan a
      simp only [rounded]
      cases ha : toDouble a <;> simp_all [Num.le]
    | fin b =>
      exact toDouble_mono (by simpa [Num.le] using h)

theorem rounded_nan {a : Num} : rounded a = .nan ↔ a = .nan := by
  cases a with
  | fin q => simp [rounded, toDouble_ne_nan]
  | _ => simp [rounded]

/-! ### The model rounds to a nearest double, ties to even -/

theorem nearest_best (x : ℚ) (n : ℤ) : |(nearest x : ℚ) - x| ≤ |(n : ℚ) - x| := by
  have he := nearest_error x
  by_cases h : nearest x = n
  · rw [h]
  · have h1 : (1 : ℚ) ≤ |(nearest x : ℚ) - n| := by
      have : 1 ≤ |nearest x - n| := Int.one_le_abs (sub_ne_zero.2 h)
      exact_mod_cast this
    have h2 : |(nearest x : ℚ) - n| ≤ |(nearest x : ℚ) - x| + |(n : ℚ) - x| := by
      have := abs_sub ((nearest x : ℚ) - x) ((n : ℚ) - x)
      rwa [sub_sub_sub_cancel_right] at this
    linarith

theorem toBits_grid (q : ℚ) (n : ℤ) : |toBits q - q| ≤ |n * ulp q - q| := by
  have hu := ulp_pos q
  have h := nearest_best (q / ulp q) n
  have e : ∀ k : ℤ, |(k : ℚ) * ulp q - q| = |(k : ℚ) - q / ulp q| * ulp q := by
    intro k
    rw [← abs_of_pos hu, ← abs_mul, abs_of_pos hu, sub_mul, div_mul_cancel₀ _ hu.ne']
  unfold toBits
  rw [e, e]
  exact mul_le_mul_of_nonneg_right h hu.le

theorem grid_of_expo {q : ℚ} {k : ℤ} (h : expo q - 52 ≤ k) : ∃ n : ℤ, (2 : ℚ) ^ k = n * ulp q := by
  obtain ⟨n, hn⟩ := Int.le.dest h
  refine ⟨2 ^ n, ?_⟩
  unfold ulp
  rw [← hn, zpow_add₀ (by norm_num), zpow_natCast]
  push_cast
  ring

theorem toBits_nearest_pos {q : ℚ} (hq : 0 < q) {d : ℚ} (hd : Bits d) : |toBits q - q| ≤ |d - q| := by
  rcases le_or_gt d 0 with h0 | h0
  · refine (toBits_grid q 0).trans ?_
    rw [Int.cast_zero, zero_mul, zero_sub, abs_neg, abs_of_pos hq, abs_of_nonpos (by linarith)]
    linarith
  · have ld := lt_expo (q := d)
    rw [abs_of_pos h0] at ld
    have lq := lt_expo (q := q)
    rw [abs_of_pos hq] at lq
    rcases lt_trichotomy (expo d) (expo q) with h | h | h
    · have h1 := expo_le hq.ne' (lt_of_le_of_lt (expo_ge d) h)
      rw [abs_of_pos hq] at h1
      obtain ⟨n, hn⟩ := grid_of_expo (q := q) (k := expo q) (by omega)
      have h2 : d ≤ 2 ^ expo q := ld.le.trans (two_zpow_mono (by omega))
      refine (toBits_grid q n).trans ?_
      rw [← hn, abs_of_nonpos (by linarith), abs_of_nonpos (by linarith)]
      linarith
    · have h1 : d = nearest (d / ulp d) * ulp q := by
        have := toBits_exact hd
        unfold toBits at this
        have hu : ulp d = ulp q := by unfold ulp; rw [h]
        rw [← hu, this]
      rw [h1]
      exact toBits_grid q _
    · have h1 := expo_le h0.ne' (lt_of_le_of_lt (expo_ge q) h)
      rw [abs_of_pos h0] at h1
      obtain ⟨n, hn⟩ := grid_of_expo (q := q) (k := expo q + 1) (by omega)
      have h2 : 2 ^ (expo q + 1) ≤ d := (two_zpow_mono (by omega)).trans h1
      refine (toBits_grid q n).trans ?_
      rw [← hn, abs_of_nonneg (by linarith), abs_of_nonneg (by linarith)]
      linarith

theorem toBits_nearest (q : ℚ) {d : ℚ} (hd : Bits d) : |toBits q - q| ≤ |d - q| := by
  rcases lt_trichotomy q 0 with h | h | h
  · have hd' : Bits (-d) := by
      obtain ⟨m, k, h1, h2, h3⟩ := hd
      exact ⟨-m, k, by rw [h1]; push_cast; ring, by rwa [abs_neg], h3⟩
    have := toBits_nearest_pos (q := -q) (by linarith) hd'
    rw [toBits_neg] at this
    rwa [← abs_neg (toBits q - q), ← abs_neg (d - q), neg_sub', neg_sub']
  · rw [h, toBits_zero]
    simp
  · exact toBits_nearest_pos h hd

/-- Rounding gives a double nearest to the number. -/
theorem toDouble_nearest {q r : ℚ} (h : toDouble q = .fin r) {d : ℚ} (hd : IsDouble d) :
    |r - q| ≤ |d - q| := by
  rw [(toDouble_fin h).1]
  exact toBits_nearest q hd.1

theorem nearest_tie {x : ℚ} (h : |(nearest x : ℚ) - x| = 1 / 2) : nearest x % 2 = 0 := by
  unfold nearest at h ⊢
  have h1 := Int.floor_le x
  have h2 := Int.lt_floor_add_one x
  split_ifs at h ⊢ with c1 c2 c3
  · rw [abs_of_nonpos (by linarith)] at h
    linarith
  · push_cast at h
    rw [abs_of_nonneg (by linarith)] at h
    linarith
  · exact c3
  · omega

/-- `2^53 + 1` and `2^53 + 3` lie between two doubles. -/
example : toDouble (2 ^ 53 + 1) = .fin (2 ^ 53) ∧ toDouble (2 ^ 53 + 3) = .fin (2 ^ 53 + 4) := by
  decide +kernel

end Verif.Double
