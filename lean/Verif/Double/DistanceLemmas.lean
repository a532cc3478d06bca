import Verif.Double.Distance
import Verif.Double.ColumnLemmas
import Verif.Filter.Uniformity
import Mathlib.Data.Real.Sqrt
/-!
# Lemmas about distances in double precision
-/
set_option autoImplicit false
set_option linter.unusedSectionVars false

namespace Verif.Double

open Verif (Num)

/-- The relative error of a rounding. -/
def unit : ℚ := 1 / 2 ^ 53

theorem unit_pos : 0 < unit := by unfold unit; norm_num
theorem unit_lt : unit < 1 := by unfold unit; norm_num

theorem ulp_error (q : ℚ) : |toBits q - q| ≤ ulp q / 2 := by
  have h := nearest_error (q / ulp q)
  have hu := ulp_pos q
  have e : toBits q - q = ((nearest (q / ulp q) : ℤ) - q / ulp q) * ulp q := by
    unfold toBits
    field_simp
  rw [e, abs_mul, abs_of_pos hu]
  have := mul_le_mul_of_nonneg_right h hu.le
  linarith

/-- Without underflow the error is relative. -/
theorem toBits_rel {q : ℚ} (h : q = 0 ∨ 2 ^ (-1022 : ℤ) ≤ |q|) : |toBits q - q| ≤ |q| * unit := by
  rcases h with rfl | h
  · rw [toBits_zero]
    simp
  have hq : q ≠ 0 := by
    rintro rfl
    rw [abs_zero] at h
    exact absurd h (not_le.2 (two_zpow_pos _))
  have he : 2 ^ expo q ≤ |q| := by
    by_cases h0 : expo q ≤ -1022
    · rw [le_antisymm h0 (expo_ge q)]
      exact h
    · exact expo_le hq (by omega)
  refine (ulp_error q).trans ?_
  have hu := ulp_mul q 52
  have h3 : (2 : ℚ) ^ (52 : ℤ) = 2 ^ 52 := by norm_cast
  rw [h3, show expo q - 52 + 52 = expo q by omega] at hu
  rw [← hu] at he
  have : ulp q ≤ |q| / 2 ^ 52 := by
    rw [le_div_iff₀ (by positivity)]
    linarith
  unfold unit
  norm_num at this ⊢
  linarith

/-- `x` is `y` up to `m` roundings. -/
def Within (m : ℕ) (x y : ℚ) : Prop := (1 - unit) ^ m * y ≤ x ∧ x ≤ (1 + unit) ^ m * y

theorem Within.step {m : ℕ} {x y : ℚ} (h : Within m x y) (hx : 0 ≤ x) (hn : x = 0 ∨ 2 ^ (-1022 : ℤ) ≤ |x|) :
    Within (m + 1) (toBits x) y := by
  have := toBits_rel hn
  rw [abs_of_nonneg hx, abs_le] at this
  have hu := unit_pos
  have hu1 := unit_lt
  constructor
  · rw [pow_succ]
    have := mul_le_mul_of_nonneg_left h.1 (a := 1 - unit) (by linarith)
    nlinarith
  · rw [pow_succ]
    have := mul_le_mul_of_nonneg_left h.2 (a := 1 + unit) (by linarith)
    nlinarith

theorem Within.mono {m n : ℕ} (hmn : m ≤ n) {x y : ℚ} (hy : 0 ≤ y) (h : Within m x y) : Within n x y := by
  have hu := unit_pos
  have hu1 := unit_lt
  constructor
  · exact (mul_le_mul_of_nonneg_right (pow_le_pow_of_le_one (by linarith) (by linarith) hmn) hy).trans h.1
  · exact h.2.trans (mul_le_mul_of_nonneg_right (pow_le_pow_right₀ (by linarith) hmn) hy)

theorem Within.add {m : ℕ} {x y x' y' : ℚ} (h : Within m x y) (h' : Within m x' y') :
    Within m (x + x') (y + y') := by
  constructor
  · rw [mul_add]; exact add_le_add h.1 h'.1
  · rw [mul_add]; exact add_le_add h.2 h'.2

theorem Within.mul {m n : ℕ} {x y x' y' : ℚ} (hx : 0 ≤ x) (hx' : 0 ≤ x') (hy : 0 ≤ y) (hy' : 0 ≤ y')
    (h : Within m x y) (h' : Within n x' y') : Within (m + n) (x * x') (y * y') := by
  have hu := unit_pos
  have hu1 := unit_lt
  constructor
  · calc (1 - unit) ^ (m + n) * (y * y') = ((1 - unit) ^ m * y) * ((1 - unit) ^ n * y') := by ring
      _ ≤ x * x' := mul_le_mul h.1 h'.1 (mul_nonneg (pow_nonneg (by linarith) _) hy') hx
  · calc x * x' ≤ ((1 + unit) ^ m * y) * ((1 + unit) ^ n * y') :=
        mul_le_mul h.2 h'.2 hx' (mul_nonneg (pow_nonneg (by linarith) _) hy)
      _ = (1 + unit) ^ (m + n) * (y * y') := by ring

theorem Within.refl (x : ℚ) : Within 0 x x := by simp [Within]

/-! ### The square of a difference -/

theorem bits_zpow {k : ℤ} (h : -1074 ≤ k) : Bits (2 ^ k) := ⟨1, k, by simp, by norm_num, h⟩

theorem abs_toBits (q : ℚ) : |toBits q| = toBits |q| := by
  rcases le_total 0 q with h | h
  · rw [abs_of_nonneg h, abs_of_nonneg (toBits_nonneg h)]
  · rw [abs_of_nonpos h, toBits_neg]
    have := toBits_nonneg (q := -q) (by linarith)
    rw [toBits_neg] at this
    rw [abs_of_nonpos (by linarith)]

/-- Two entries are equal or clearly different, and not too large. -/
def Apart (a b : ℚ) : Prop :=
  Fits 500 a ∧ Fits 500 b ∧ (a = b ∨ 2 ^ (-500 : ℤ) ≤ |a - b|)

theorem square {a b : ℚ} (h : Apart a b) :
    ∃ p, Double.mul (sub (.fin a) (.fin b)) (sub (.fin a) (.fin b)) = .fin p ∧ Bits p ∧ p ≤ 2 ^ 1002 ∧
      (p = 0 ∨ 2 ^ (-1000 : ℤ) ≤ p) ∧ Within 3 p ((a - b) ^ 2) := by
  obtain ⟨ha, hb, hab⟩ := h
  obtain ⟨c, hc, fc, ec⟩ := sub_fits (K := 500) (by norm_num) ha hb
  have h2 : |c * c| ≤ 2 ^ 1002 := by
    rw [abs_mul]
    calc |c| * |c| ≤ 2 ^ 501 * 2 ^ 501 := mul_le_mul fc.2 fc.2 (abs_nonneg _) (by positivity)
      _ = 2 ^ 1002 := by rw [← pow_add]
  obtain ⟨p, hp, fp, ep⟩ := mul_fits (K := 501) (L := 1002) (by norm_num) h2 fc
  have hcc : 0 ≤ c * c := mul_self_nonneg c
  have p0 : 0 ≤ p := by rw [ep]; exact toBits_nonneg hcc
  have e500 : (2 : ℚ) ^ (-500 : ℤ) * 2 ^ (-500 : ℤ) = 2 ^ (-1000 : ℤ) := by
    rw [← zpow_add₀ (by norm_num : (2 : ℚ) ≠ 0)]
    norm_num
  have hc0 : c = 0 ∨ 2 ^ (-500 : ℤ) ≤ |c| := by
    rcases hab with h | h
    · left
      rw [ec, h, sub_self, toBits_zero]
    · right
      rw [ec, abs_toBits]
      exact le_toBits_of (bits_zpow (by norm_num)) h
  have hcc0 : c * c = 0 ∨ 2 ^ (-1000 : ℤ) ≤ c * c := by
    rcases hc0 with h | h
    · left
      rw [h, mul_zero]
    · right
      rw [← abs_mul_abs_self c, ← e500]
      exact mul_le_mul h h (two_zpow_pos _).le (abs_nonneg _)
  refine ⟨p, by rw [hc, hp], fp.1.1, (le_abs_self p).trans fp.2, ?_, ?_⟩
  · rcases hcc0 with h | h
    · left
      rw [ep, h, toBits_zero]
    · right
      rw [ep]
      exact le_toBits_of (bits_zpow (by norm_num)) h
  · have w1 : Within 1 |c| |a - b| := by
      rw [ec, abs_toBits]
      refine Within.step (Within.refl _) (abs_nonneg _) ?_
      rcases hab with h | h
      · left
        rw [h, sub_self, abs_zero]
      · right
        rw [abs_abs]
        exact (two_zpow_mono (by norm_num)).trans h
    have w2 := w1.mul (abs_nonneg _) (abs_nonneg _) (abs_nonneg _) (abs_nonneg _) w1
    rw [abs_mul_abs_self, abs_mul_abs_self, ← sq (a - b)] at w2
    rw [ep]
    refine (w2.step hcc ?_)
    rcases hcc0 with h | h
    · exact Or.inl h
    · right
      rw [abs_of_nonneg hcc]
      exact (two_zpow_mono (by norm_num)).trans h

/-- The exact sum of the squared differences. -/
def exactSum (a b : List ℚ) : ℚ := (List.zipWith (fun u v => (u - v) ^ 2) a b).sum

theorem exactSum_nonneg (a b : List ℚ) : 0 ≤ exactSum a b := by
  refine List.sum_nonneg fun x hx => ?_
  obtain ⟨i, hi⟩ := List.mem_iff_getElem?.1 hx
  rw [List.getElem?_zipWith] at hi
  cases ha : a[i]? with
  | none => simp [ha] at hi
  | some u =>
    cases hb : b[i]? with
    | none => simp [ha, hb] at hi
    | some v =>
      simp [ha, hb] at hi
      rw [← hi]
      positivity

theorem bits_int_mul {k : ℕ} (hk : k ≤ 2 ^ 53) : Bits (k * 2 ^ 1002) :=
  ⟨k, 1002, by norm_cast, by simpa using (by exact_mod_cast hk), by norm_num⟩

theorem sumSquares_within : ∀ (a b : List ℚ) (k m : ℕ) (s S : ℚ), List.Forall₂ Apart a b →
    k + a.length ≤ 2 ^ 20 → 3 ≤ m → Bits s → 0 ≤ S → s ≤ k * 2 ^ 1002 → (s = 0 ∨ 2 ^ (-1000 : ℤ) ≤ s) →
    Within m s S →
    ∃ r, sumSquares (.fin s) (a.map .fin) (b.map .fin) = .fin r ∧ (r = 0 ∨ 2 ^ (-1000 : ℤ) ≤ r) ∧
      Within (m + a.length) r (S + exactSum a b)
  | _, _, k, m, s, S, .nil, _, _, _, _, _, hs0, hw =>
      ⟨s, rfl, hs0, by simpa [exactSum] using hw⟩
  | _, _, k, m, s, S, .cons (a := x) (b := y) (l₁ := a) (l₂ := b) hxy hr, hk, hm, hb, hS, hle, hs0, hw => by
      obtain ⟨p, hp, bp, lp, p0, wp⟩ := square hxy
      simp only [List.length_cons] at hk
      have sn : 0 ≤ s := by
        rcases hs0 with h | h
        · exact h.ge
        · exact (two_zpow_pos _).le.trans h
      have pn : 0 ≤ p := by
        rcases p0 with h | h
        · exact h.ge
        · exact (two_zpow_pos _).le.trans h
      have hle' : s + p ≤ ((k + 1 : ℕ) : ℚ) * 2 ^ 1002 := by
        push_cast
        rw [add_mul, one_mul]
        exact add_le_add hle lp
      have b1 : toBits (s + p) ≤ ((k + 1 : ℕ) : ℚ) * 2 ^ 1002 :=
        toBits_le_of (bits_int_mul (by omega)) hle'
      have hlim : ((k + 1 : ℕ) : ℚ) * 2 ^ 1002 < limit := by
        have h1 : ((k + 1 : ℕ) : ℚ) ≤ 2 ^ 20 := by exact_mod_cast (by omega : k + 1 ≤ 2 ^ 20)
        have h2 : ((k + 1 : ℕ) : ℚ) * 2 ^ 1002 ≤ 2 ^ 20 * 2 ^ 1002 :=
          mul_le_mul_of_nonneg_right h1 (by positivity)
        refine h2.trans_lt ?_
        unfold limit
        rw [← pow_add]
        exact pow_lt_pow_right₀ (by norm_num) (by norm_num)
      have n1 : 0 ≤ toBits (s + p) := toBits_nonneg (by linarith)
      have hadd : Double.add (.fin s) (.fin p) = .fin (toBits (s + p)) := by
        unfold Double.add
        rw [Num.fin_add]
        change toDouble (s + p) = _
        unfold toDouble
        rw [if_neg (not_le.2 (b1.trans_lt hlim)), if_neg]
        exact fun h => absurd (n1.trans h) (not_le.2 (neg_neg_of_pos limit_pos))
      have hz : s + p = 0 ∨ 2 ^ (-1000 : ℤ) ≤ s + p := by
        rcases hs0 with h | h
        · rcases p0 with h' | h'
          · left; rw [h, h', add_zero]
          · right; rw [h, zero_add]; exact h'
        · right; linarith
      have hw' : Within (m + 1) (toBits (s + p)) (S + (x - y) ^ 2) := by
        refine (hw.add (wp.mono hm (by positivity))).step (by linarith) ?_
        rcases hz with h | h
        · exact Or.inl h
        · right
          rw [abs_of_nonneg (by linarith)]
          exact (two_zpow_mono (by norm_num)).trans h
      obtain ⟨r, h1, h2, h3⟩ := sumSquares_within a b (k + 1) (m + 1) (toBits (s + p)) (S + (x - y) ^ 2) hr
        (by omega) (by omega) (bits_toBits _) (by positivity) b1 (by
          rcases hz with h | h
          · left; rw [h, toBits_zero]
          · right; exact le_toBits_of (bits_zpow (by norm_num)) h) hw'
      refine ⟨r, ?_, h2, ?_⟩
      · simp only [List.map_cons, sumSquares]
        rw [hp, hadd]
        exact h1
      · rw [List.length_cons, ← Nat.add_assoc, Nat.add_right_comm]
        have : S + exactSum (x :: a) (y :: b) = S + (x - y) ^ 2 + exactSum a b := by
          unfold exactSum
          rw [List.zipWith_cons_cons, List.sum_cons]
          ring
        rw [this]
        exact h3

/-! ### Square roots -/

theorem sqrtBits_error {q : ℚ} (hq : 0 < q) :
    |(sqrtBits q : ℝ) - Real.sqrt q| ≤ Real.sqrt q * unit ∧ (-1074 ≤ Int.log 2 q → Bits (sqrtBits q)) := by
  unfold sqrtBits
  dsimp only
  set h := Int.log 2 q / 2 with hh
  set u : ℚ := 2 ^ (h - 52) with hu
  set t : ℚ := q / u ^ 2 with ht
  set k := Nat.sqrt ⌊t⌋₊ with hk
  have u0 : 0 < u := two_zpow_pos _
  have u52 : u * 2 ^ 52 = 2 ^ h := by
    have h3 : (2 : ℚ) ^ (52 : ℤ) = 2 ^ 52 := by norm_cast
    rw [hu, ← h3, ← zpow_add₀ (by norm_num : (2 : ℚ) ≠ 0)]
    congr 1
    omega
  have hlow : ((2 : ℚ) ^ h) ^ 2 ≤ q := by
    rw [← zpow_natCast, ← zpow_mul]
    refine (two_zpow_mono ?_).trans (Int.zpow_log_le_self (b := 2) (by norm_num) hq)
    push_cast
    omega
  have hup : q < ((2 : ℚ) ^ h) ^ 2 * 4 := by
    refine (Int.lt_zpow_succ_log_self (b := 2) (by norm_num) q).trans_le ?_
    have : ((2 : ℚ) ^ h) ^ 2 * 4 = 2 ^ (h * 2 + 2) := by
      rw [zpow_add₀ (by norm_num : (2 : ℚ) ≠ 0), ← zpow_natCast, ← zpow_mul]
      norm_num
    rw [this]
    exact two_zpow_mono (by omega)
  have t0 : 0 < t := div_pos hq (by positivity)
  have qt : q = t * u ^ 2 := by
    rw [ht, div_mul_cancel₀ _ (by positivity)]
  have tlow : (2 ^ 52 : ℚ) ^ 2 ≤ t := by
    rw [ht, le_div_iff₀ (by positivity), ← mul_pow, mul_comm, u52]
    exact hlow
  have tup : t < (2 ^ 53 : ℚ) ^ 2 := by
    rw [ht, div_lt_iff₀ (by positivity)]
    refine hup.trans_eq ?_
    rw [← u52]
    ring
  have k1 : (k : ℚ) ^ 2 ≤ t := by
    have h1 : k * k ≤ ⌊t⌋₊ := Nat.sqrt_le _
    have h2 : ((k * k : ℕ) : ℚ) ≤ t := (by exact_mod_cast h1 : ((k * k : ℕ) : ℚ) ≤ ⌊t⌋₊).trans (Nat.floor_le t0.le)
    push_cast at h2
    rw [sq]
    exact h2
  have k2 : t < ((k : ℚ) + 1) ^ 2 := by
    have h1 : ⌊t⌋₊ < (k + 1) * (k + 1) := Nat.lt_succ_sqrt _
    rw [Nat.floor_lt t0.le] at h1
    push_cast at h1
    rw [sq]
    exact h1
  have k3 : k + 1 ≤ 2 ^ 53 := by
    by_contra hc
    have h1 : (2 ^ 53 : ℕ) ≤ k := by omega
    have h2 : (2 ^ 53 : ℚ) ≤ k := by exact_mod_cast h1
    have h3 : (2 ^ 53 : ℚ) ^ 2 ≤ (k : ℚ) ^ 2 := pow_le_pow_left₀ (by norm_num) h2 2
    linarith
  have hR : Real.sqrt q = Real.sqrt t * u := by
    rw [show (q : ℝ) = (t : ℝ) * (u : ℝ) ^ 2 by exact_mod_cast qt, Real.sqrt_mul (by exact_mod_cast t0.le),
      Real.sqrt_sq (by exact_mod_cast u0.le)]
  have w0 : 0 ≤ Real.sqrt t := Real.sqrt_nonneg _
  have w2 : Real.sqrt t ^ 2 = t := Real.sq_sqrt (by exact_mod_cast t0.le)
  have wk1 : (k : ℝ) ≤ Real.sqrt t := Real.le_sqrt_of_sq_le (by exact_mod_cast k1)
  have wk2 : Real.sqrt t < (k : ℝ) + 1 := by
    rw [Real.sqrt_lt' (by positivity)]
    exact_mod_cast k2
  have w52 : (2 : ℝ) ^ 52 ≤ Real.sqrt t := Real.le_sqrt_of_sq_le (by exact_mod_cast tlow)
  have near : |(((if 4 * t < (2 * k + 1) ^ 2 then (k : ℚ) else k + 1) : ℚ) : ℝ) - Real.sqrt t| ≤ 1 / 2 := by
    by_cases hc : 4 * t < (2 * k + 1) ^ 2
    · rw [if_pos hc]
      have hc' : 4 * (t : ℝ) < (2 * k + 1) ^ 2 := by exact_mod_cast hc
      have : 2 * Real.sqrt t < 2 * k + 1 := by
        refine lt_of_pow_lt_pow_left₀ 2 (by positivity) ?_
        rw [mul_pow, w2]
        linarith
      push_cast
      rw [abs_le]
      constructor <;> linarith
    · rw [if_neg hc]
      have hc' : (2 * (k : ℝ) + 1) ^ 2 ≤ 4 * (t : ℝ) := by exact_mod_cast not_lt.1 hc
      have : 2 * (k : ℝ) + 1 ≤ 2 * Real.sqrt t := by
        refine le_of_sq_le_sq ?_ (by positivity)
        rw [mul_pow, w2]
        linarith
      push_cast
      rw [abs_le]
      constructor <;> linarith
  constructor
  · rw [hR]
    push_cast at near ⊢
    rw [← sub_mul, abs_mul, abs_of_pos (by exact_mod_cast u0 : (0 : ℝ) < u)]
    have hu' : (0 : ℝ) < u := by exact_mod_cast u0
    have h1 := mul_le_mul_of_nonneg_right near hu'.le
    have h2 := mul_le_mul_of_nonneg_right w52 hu'.le
    unfold unit
    push_cast
    norm_num at h2 ⊢
    linarith
  · intro hl
    refine ⟨if 4 * t < (2 * k + 1) ^ 2 then (k : ℤ) else k + 1, h - 52, ?_, ?_, by omega⟩
    · split <;> push_cast <;> rfl
    · split
      · rw [abs_of_nonneg (by positivity)]
        exact_mod_cast (by omega : k ≤ 2 ^ 53)
      · rw [abs_of_nonneg (by positivity)]
        exact_mod_cast k3

/-! ### Distances -/

/-- The numbers in a row of finite doubles. -/
def values (l : List Num) : List ℝ := l.map fun v => match v with | .fin q => (q : ℝ) | _ => 0

theorem values_fin (v : List ℚ) : values (v.map .fin) = v.map fun q : ℚ => (q : ℝ) := by
  simp [values]

theorem euclid_exact : ∀ v w : List ℚ,
    Filter.euclid (v.map fun q : ℚ => (q : ℝ)) (w.map fun q : ℚ => (q : ℝ)) = Real.sqrt (exactSum v w) := by
  intro v w
  unfold Filter.euclid exactSum
  congr 1
  induction v generalizing w with
  | nil => simp
  | cons a v ih =>
    cases w with
    | nil => simp
    | cons b w =>
      simp only [List.map_cons, List.zipWith_cons_cons, List.sum_cons, ih w]
      push_cast
      rfl

theorem dist_within {v w : List ℚ} (h : List.Forall₂ Apart v w) (hn : v.length ≤ 2 ^ 20) :
    ∃ r : ℚ, dist (v.map .fin) (w.map .fin) = .fin r ∧
      (1 - (unit : ℝ)) ^ (v.length + 4) * Filter.euclid (values (v.map .fin)) (values (w.map .fin)) ≤ r ∧
      r ≤ (1 + (unit : ℝ)) ^ (v.length + 4) * Filter.euclid (values (v.map .fin)) (values (w.map .fin)) := by
  obtain ⟨s, hs, s0, ws⟩ := sumSquares_within v w 0 3 0 0 h (by omega) le_rfl
    ⟨0, 0, by simp, by norm_num, by norm_num⟩ le_rfl (by simp) (Or.inl rfl) (by simp [Within])
  rw [zero_add] at ws
  rw [values_fin, values_fin, euclid_exact]
  have S0 := exactSum_nonneg v w
  set S := exactSum v w
  have u0 : (0 : ℝ) < unit := by exact_mod_cast unit_pos
  have u1 : (unit : ℝ) < 1 := by exact_mod_cast unit_lt
  have lo : (1 - (unit : ℝ)) ^ (3 + v.length) * S ≤ s := by exact_mod_cast ws.1
  have hi : (s : ℝ) ≤ (1 + (unit : ℝ)) ^ (3 + v.length) * S := by exact_mod_cast ws.2
  have S0' : (0 : ℝ) ≤ S := by exact_mod_cast S0
  have p1 : 0 ≤ (1 - (unit : ℝ)) ^ (3 + v.length) := pow_nonneg (by linarith) _
  have p2 : (1 - (unit : ℝ)) ^ (3 + v.length) ≤ 1 := pow_le_one₀ (by linarith) (by linarith)
  have p3 : 1 ≤ (1 + (unit : ℝ)) ^ (3 + v.length) := one_le_pow₀ (by linarith)
  have rlo : (1 - (unit : ℝ)) ^ (3 + v.length) * Real.sqrt S ≤ Real.sqrt s := by
    refine Real.le_sqrt_of_sq_le ?_
    rw [mul_pow, Real.sq_sqrt S0']
    refine le_trans ?_ lo
    refine mul_le_mul_of_nonneg_right ?_ S0'
    rw [sq]
    exact mul_le_of_le_one_left p1 p2
  have rhi : Real.sqrt s ≤ (1 + (unit : ℝ)) ^ (3 + v.length) * Real.sqrt S := by
    refine Real.sqrt_le_iff.2 ⟨by positivity, ?_⟩
    rw [mul_pow, Real.sq_sqrt S0']
    refine hi.trans (mul_le_mul_of_nonneg_right ?_ S0')
    rw [sq]
    exact le_mul_of_one_le_left (by linarith) p3
  have root : ∃ r : ℚ, sqrt (.fin s) = .fin r ∧ (1 - (unit : ℝ)) * Real.sqrt s ≤ r ∧
      r ≤ (1 + (unit : ℝ)) * Real.sqrt s := by
    unfold sqrt
    rcases s0 with h0 | hp
    · refine ⟨0, by simp [h0], ?_⟩
      simp [h0]
    · have sp : 0 < s := (two_zpow_pos _).trans_le hp
      refine ⟨sqrtBits s, by dsimp only; rw [if_neg (not_lt.2 sp.le), if_neg sp.ne'], ?_⟩
      have := abs_le.1 (sqrtBits_error sp).1
      constructor <;> linarith [this.1, this.2]
  obtain ⟨r, hr, r1, r2⟩ := root
  refine ⟨r, ?_, ?_, ?_⟩
  · unfold dist
    rw [hs, hr]
  · refine le_trans ?_ r1
    have := mul_le_mul_of_nonneg_left rlo (by linarith : 0 ≤ 1 - (unit : ℝ))
    refine le_trans (le_of_eq ?_) this
    rw [show v.length + 4 = 3 + v.length + 1 by omega, pow_succ]
    ring
  · refine r2.trans ?_
    have := mul_le_mul_of_nonneg_left rhi (by linarith : 0 ≤ 1 + (unit : ℝ))
    refine this.trans (le_of_eq ?_)
    rw [show v.length + 4 = 3 + v.length + 1 by omega, pow_succ]
    ring

theorem rounded_neg (a : Num) : rounded (-a) = -rounded a := by
  cases a with
  | nan => rfl
  | ninf => rfl
  | pinf => rfl
  | fin q =>
    change toDouble (-q) = -toDouble q
    have hl := limit_pos
    unfold toDouble
    rw [toBits_neg]
    by_cases h1 : limit ≤ toBits q
    · rw [if_pos h1, if_neg (by linarith), if_pos (by linarith)]
      rfl
    · by_cases h2 : toBits q ≤ -limit
      · rw [if_pos (by linarith), if_neg h1, if_pos h2]
        rfl
      · rw [if_neg (by linarith), if_neg (by linarith), if_neg h1, if_neg h2]
        rfl

theorem square_symm (a b : Num) : mul (sub a b) (sub a b) = mul (sub b a) (sub b a) := by
  have h1 : sub a b = -sub b a := by
    unfold sub
    rw [← rounded_neg]
    congr 1
    cases a <;> cases b <;> try rfl
    simp only [Num.fin_sub]
    change _ = Num.fin (-_)
    rw [neg_sub]
  have h2 : ∀ c : Num, (-c) * (-c) = c * c := by
    intro c
    cases c with
    | nan => rfl
    | ninf => rfl
    | pinf => rfl
    | fin q =>
      change Num.fin (-q * -q) = Num.fin (q * q)
      rw [neg_mul_neg]
  unfold mul
  rw [h1, h2]

theorem dist_symm (a b : List Num) : dist a b = dist b a := by
  unfold dist
  congr 1
  generalize Num.fin 0 = acc
  induction a generalizing b acc with
  | nil => cases b <;> rfl
  | cons x a ih =>
    cases b with
    | nil => rfl
    | cons y b =>
      simp only [sumSquares]
      rw [square_symm x y]
      exact ih _ _

theorem dist_self (v : List ℚ) : dist (v.map .fin) (v.map .fin) = .fin 0 := by
  have h : sumSquares (.fin 0) (v.map .fin) (v.map .fin) = .fin 0 := by
    induction v with
    | nil => rfl
    | cons q v ih =>
      simp only [List.map_cons, sumSquares]
      have : add (.fin 0) (mul (sub (.fin q) (.fin q)) (sub (.fin q) (.fin q))) = .fin 0 := by
        unfold add mul sub
        rw [Num.fin_sub, sub_self]
        simp [rounded, toDouble_zero]
      rw [this]
      exact ih
  unfold dist
  rw [h]
  simp [sqrt]

end Verif.Double
