import Verif.Double.Lemmas
import Verif.Double.Columns
import Verif.Prelim.Lemmas
import Verif.Prelim.PropsData
import Verif.Export.ColourLemmas
/-!
# Lemmas about columns in double precision
-/
set_option autoImplicit false
set_option linter.unusedSectionVars false

namespace Verif.Double

open Verif (Num)

theorem pow_two_double {K : ℕ} (h : K < 1024) : IsDouble (2 ^ K) := by
  refine ⟨⟨1, K, by simp, by norm_num, by omega⟩, ?_⟩
  rw [abs_of_pos (by positivity)]
  unfold limit
  exact pow_lt_pow_right₀ (by norm_num) h

theorem isDouble_neg {q : ℚ} (h : IsDouble q) : IsDouble (-q) := by
  obtain ⟨⟨m, k, hq, hm, hk⟩, hl⟩ := h
  exact ⟨⟨-m, k, by rw [hq]; push_cast; ring, by rwa [abs_neg], hk⟩, by rwa [abs_neg]⟩

/-- A number is a double of magnitude at most `2 ^ K`. -/
def Fits (K : ℕ) (q : ℚ) : Prop := IsDouble q ∧ |q| ≤ 2 ^ K

theorem toDouble_fits {K : ℕ} (hK : K < 1024) {q : ℚ} (h : |q| ≤ 2 ^ K) :
    ∃ r, toDouble q = .fin r ∧ Fits K r ∧ r = toBits q := by
  obtain ⟨h1, h2⟩ := abs_le.1 h
  have hd := pow_two_double hK
  have a := toDouble_mono h2
  have b := toDouble_mono h1
  rw [toDouble_exact hd] at a
  rw [toDouble_exact (isDouble_neg hd)] at b
  cases hr : toDouble q with
  | nan => exact absurd hr (toDouble_ne_nan _)
  | ninf => rw [hr] at b; simp [Num.le] at b
  | pinf => rw [hr] at a; simp [Num.le] at a
  | fin r =>
    rw [hr] at a b
    simp only [Num.le, decide_eq_true_eq] at a b
    exact ⟨r, rfl, ⟨(toDouble_fin hr).2, abs_le.2 ⟨b, a⟩⟩, (toDouble_fin hr).1⟩

theorem Fits.mono {K L : ℕ} (h : K ≤ L) {q : ℚ} (hq : Fits K q) : Fits L q :=
  ⟨hq.1, hq.2.trans (pow_le_pow_right₀ (by norm_num) h)⟩

theorem add_fits {K : ℕ} (hK : K < 1023) {a b : ℚ} (ha : Fits K a) (hb : Fits K b) :
    ∃ r, add (.fin a) (.fin b) = .fin r ∧ Fits (K + 1) r ∧ r = toBits (a + b) := by
  refine toDouble_fits (by omega) ((abs_add_le _ _).trans ?_)
  rw [pow_succ]
  linarith [ha.2, hb.2]

theorem fin_add (a b : ℚ) : (Num.fin a + Num.fin b : Num) = .fin (a + b) := rfl

theorem sub_fits {K : ℕ} (hK : K < 1023) {a b : ℚ} (ha : Fits K a) (hb : Fits K b) :
    ∃ r, sub (.fin a) (.fin b) = .fin r ∧ Fits (K + 1) r ∧ r = toBits (a - b) := by
  have := toDouble_fits (K := K + 1) (by omega) (q := a - b) ((abs_sub a b).trans ?_)
  · unfold sub
    rwa [Num.fin_sub]
  · rw [pow_succ]
    linarith [ha.2, hb.2]

theorem mul_fits {K L : ℕ} (hK : L < 1024) {a b : ℚ} (h : |a * b| ≤ 2 ^ L) (_ : Fits K b) :
    ∃ r, mul (.fin a) (.fin b) = .fin r ∧ Fits L r ∧ r = toBits (a * b) := by
  have := toDouble_fits hK h
  unfold mul
  rwa [Num.fin_mul]

theorem toBits_le_of {a b : ℚ} (hb : Bits b) (h : a ≤ b) : toBits a ≤ b := by
  have := toBits_mono h
  rwa [toBits_exact hb] at this

theorem le_toBits_of {a b : ℚ} (ha : Bits a) (h : a ≤ b) : a ≤ toBits b := by
  have := toBits_mono h
  rwa [toBits_exact ha] at this

/-- The least positive double. -/
def tiny : ℚ := 2 ^ (-1074 : ℤ)

theorem tiny_pos : 0 < tiny := two_zpow_pos _

theorem Bits.multiple {q : ℚ} (h : Bits q) : ∃ n : ℤ, q = n * tiny := by
  obtain ⟨m, k, hq, -, hk⟩ := h
  obtain ⟨n, hn⟩ := Int.le.dest hk
  refine ⟨m * 2 ^ n, ?_⟩
  rw [hq, ← hn, zpow_add₀ (by norm_num)]
  unfold tiny
  push_cast
  rw [zpow_natCast]
  ring

theorem bits_tiny {n : ℤ} (h : |n| ≤ 2 ^ 53) : Bits (n * tiny) := ⟨n, -1074, rfl, h, le_refl _⟩

theorem sub_multiple {a b : ℚ} (ha : Bits a) (hb : Bits b) : ∃ n : ℤ, a - b = n * tiny := by
  obtain ⟨m, rfl⟩ := ha.multiple
  obtain ⟨n, rfl⟩ := hb.multiple
  exact ⟨m - n, by push_cast; ring⟩

/-- Different doubles have a difference that is not rounded to zero. -/
theorem sub_pos' {a b : ℚ} (ha : Bits a) (hb : Bits b) (h : b < a) : 0 < toBits (a - b) := by
  obtain ⟨n, hn⟩ := sub_multiple ha hb
  have hn1 : 0 < n := by
    by_contra hc
    have : (n : ℚ) ≤ 0 := by exact_mod_cast not_lt.1 hc
    have := mul_nonpos_of_nonpos_of_nonneg this tiny_pos.le
    linarith
  have h1 : Bits tiny := by
    have := bits_tiny (n := 1) (by norm_num)
    simpa using this
  refine tiny_pos.trans_le (le_toBits_of h1 ?_)
  rw [hn]
  have : (1 : ℚ) ≤ n := by exact_mod_cast hn1
  nlinarith [tiny_pos]

/-- Half of the rounded difference is at most the difference. -/
theorem half_le {a b : ℚ} (ha : Bits a) (hb : Bits b) (h : b ≤ a) :
    toBits (toBits (a - b) * (1 / 2)) ≤ a - b := by
  have h0 : 0 ≤ a - b := by linarith
  obtain ⟨n, hn⟩ := sub_multiple ha hb
  by_cases hs : |n| ≤ 2 ^ 53
  · have hbits : Bits (a - b) := by rw [hn]; exact bits_tiny hs
    rw [toBits_exact hbits]
    exact toBits_le_of hbits (by linarith)
  · have hbig : (2 : ℚ) ^ 53 * tiny ≤ a - b := by
      have hn0 : 0 ≤ n := by
        by_contra hc
        have hc' : (n : ℚ) < 0 := by exact_mod_cast not_le.1 hc
        have := mul_neg_of_neg_of_pos hc' tiny_pos
        linarith
      rw [abs_of_nonneg hn0] at hs
      rw [hn]
      have : ((2 : ℚ) ^ 53) ≤ n := by exact_mod_cast (not_le.1 hs).le
      exact mul_le_mul_of_nonneg_right this tiny_pos.le
    have htiny : (1 : ℚ) / 2 ^ 1075 = tiny / 2 := by
      unfold tiny
      rw [zpow_neg, show (1074 : ℤ) = ((1074 : ℕ) : ℤ) by rfl, zpow_natCast,
        show (2 : ℚ) ^ 1075 = 2 ^ 1074 * 2 from pow_succ _ _]
      field_simp
    have e1 := toBits_error (a - b)
    rw [abs_of_nonneg h0, htiny, abs_le] at e1
    have h1 := toBits_nonneg h0
    have e2 := toBits_error (toBits (a - b) * (1 / 2))
    rw [abs_of_nonneg (show 0 ≤ toBits (a - b) * (1 / 2) by linarith), htiny, abs_le] at e2
    norm_num at hbig e1 e2 ⊢
    linarith [e1.2, e2.2]

/-! ### The bounds -/

/-- A sorted column of doubles of moderate size. -/
structure Moderate (K : ℕ) (s : List ℚ) : Prop where
  sorted : s.Pairwise (· ≤ ·)
  fits : ∀ q ∈ s, Fits K q

theorem Moderate.getD {K : ℕ} {s : List ℚ} (h : Moderate K s) {i : Nat} (hi : i < s.length) :
    Fits K (s.getD i 0) := by
  rw [List.getD_eq_getElem?_getD, List.getElem?_eq_getElem hi]
  exact h.fits _ (List.getElem_mem hi)

theorem median_fits {K : ℕ} (hK : K < 1000) {s : List ℚ} (h : Moderate K s) (hl : 0 < s.length) :
    ∃ m, median s = .fin m ∧ Fits (K + 1) m := by
  unfold median
  split
  · exact ⟨_, rfl, (h.getD (by omega)).mono (by omega)⟩
  · obtain ⟨r, h1, h2, -⟩ := add_fits (K := K) (by omega) (h.getD (i := s.length / 2 - 1) (by omega))
      (h.getD (i := s.length / 2) (by omega))
    unfold at'
    rw [h1]
    have hr := h2.2
    have := toDouble_fits (K := K + 1) (by omega) (q := r / 2) (by
      rw [abs_div, abs_of_pos (show (0 : ℚ) < 2 by norm_num)]
      linarith [abs_nonneg r])
    obtain ⟨m, h3, h4, -⟩ := this
    refine ⟨m, ?_, h4⟩
    unfold div
    rw [Num.fin_div _ _ (by norm_num)]
    exact h3

theorem quartile_fits {K : ℕ} (hK : K < 1000) {k : Nat} {s : List ℚ} (hk : k ≤ 4) (h : Moderate K s)
    (hl : 0 < s.length) :
    ∃ m, quartile k s = .fin m ∧ Fits (K + 2) m ∧ s.getD (k * (s.length - 1) / 4) 0 ≤ m ∧
      m ≤ s.getD ((k * (s.length - 1) + 3) / 4) 0 := by
  have hkl : k * (s.length - 1) ≤ 4 * (s.length - 1) := Nat.mul_le_mul_right _ hk
  have fa := h.getD (i := k * (s.length - 1) / 4) (by omega)
  have fb := h.getD (i := min (k * (s.length - 1) / 4 + 1) (s.length - 1)) (by omega)
  have hab := Prelim.sorted_getD_le h.sorted
    (show k * (s.length - 1) / 4 ≤ min (k * (s.length - 1) / 4 + 1) (s.length - 1) by omega) (by omega)
  unfold quartile at'
  obtain ⟨d, hd, fd, ed⟩ := sub_fits (by omega) fb fa
  simp only [hd]
  have hd0 : 0 ≤ d := by
    rw [ed]
    exact toBits_nonneg (by linarith)
  split
  · rename_i hz
    have hm : mul (.fin d) (.fin 0) = .fin 0 := by
      unfold mul
      rw [Num.fin_mul, mul_zero]
      exact toDouble_zero
    have ha : add (.fin (s.getD (k * (s.length - 1) / 4) 0)) (.fin 0) =
        .fin (s.getD (k * (s.length - 1) / 4) 0) := by
      unfold add
      rw [fin_add, add_zero]
      exact toDouble_exact fa.1
    rw [hm, ha]
    refine ⟨_, rfl, fa.mono (by omega), le_refl _, ?_⟩
    rw [show (k * (s.length - 1) + 3) / 4 = k * (s.length - 1) / 4 by omega]
  · rename_i hz
    obtain ⟨e, he, fe, ee⟩ := mul_fits (K := 1) (L := K + 1) (a := d) (b := 1 / 2) (by omega)
      (by
        rw [abs_mul, abs_of_pos (show (0 : ℚ) < 1 / 2 by norm_num)]
        linarith [fd.2, abs_nonneg d])
      ⟨⟨⟨1, -1, by norm_num, by norm_num, by norm_num⟩, by
        rw [abs_of_pos (by norm_num)]
        unfold limit
        exact lt_of_lt_of_le (by norm_num) (one_le_pow₀ (by norm_num))⟩,
        by rw [abs_of_pos (by norm_num)]; norm_num⟩
    have he0 : 0 ≤ e := by
      rw [ee]
      exact toBits_nonneg (by linarith)
    obtain ⟨r, hr, fr, er⟩ := sub_fits (by omega) (fb.mono (show K ≤ K + 1 by omega)) fe
    rw [he]
    refine ⟨r, hr, fr, ?_, ?_⟩
    · rw [er]
      refine le_toBits_of fa.1.1 ?_
      have := half_le fb.1.1 fa.1.1 hab
      rw [← ed, ← ee] at this
      linarith
    · rw [er, show (k * (s.length - 1) + 3) / 4 = min (k * (s.length - 1) / 4 + 1) (s.length - 1) by omega]
      exact toBits_le_of fb.1.1 (by linarith)

/-- The quartiles are in order. -/
theorem quartile_le {K : ℕ} (hK : K < 1000) {s : List ℚ} (h : Moderate K s) (hl : 0 < s.length) :
    ∃ a b, quartile 1 s = .fin a ∧ quartile 3 s = .fin b ∧ Fits (K + 2) a ∧ Fits (K + 2) b ∧ a ≤ b := by
  obtain ⟨a, h1, h2, h3, h4⟩ := quartile_fits hK (k := 1) (by omega) h hl
  obtain ⟨b, h5, h6, h7, h8⟩ := quartile_fits hK (k := 3) (by omega) h hl
  refine ⟨a, b, h1, h5, h2, h6, ?_⟩
  by_cases hs : s.length = 2
  · have : quartile 1 s = quartile 3 s := by
      unfold quartile
      rw [hs]
      rfl
    rw [h1, h5] at this
    cases this
    exact le_refl _
  · exact h4.trans ((Prelim.sorted_getD_le h.sorted (by omega) (by omega)).trans h7)

/-- The bounds are doubles in order. -/
theorem bounds_fits {K : ℕ} (hK : K < 1000) {col : List ℚ} (hne : col ≠ []) (h : ∀ q ∈ col, Fits K q) :
    ∃ lo hi, bounds col = (.fin lo, .fin hi) ∧ IsDouble lo ∧ IsDouble hi ∧ lo ≤ hi := by
  have hm : Moderate K (col.mergeSort (fun a b => decide (a ≤ b))) := by
    refine ⟨?_, fun q hq => h q ((List.mergeSort_perm _ _).mem_iff.1 hq)⟩
    have := List.pairwise_mergeSort (le := fun a b : ℚ => decide (a ≤ b))
      (by intro a b c h1 h2; simp only [decide_eq_true_eq] at *; exact le_trans h1 h2)
      (by intro a b; simp only [Bool.or_eq_true, decide_eq_true_eq]; exact le_total a b) col
    exact this.imp (by intro a b h; simpa using h)
  have hl : 0 < (col.mergeSort (fun a b => decide (a ≤ b))).length := by
    rw [List.length_mergeSort]
    exact List.length_pos_iff.2 hne
  unfold bounds
  generalize col.mergeSort (fun a b => decide (a ≤ b)) = s at hm hl
  obtain ⟨m, m1, m2⟩ := median_fits hK hm hl
  obtain ⟨a, b, h1, h3, fa, fb, hab⟩ := quartile_le hK hm hl
  obtain ⟨r, r1, r2, r3⟩ := sub_fits (by omega) fb fa
  have r0 : 0 ≤ r := by
    rw [r3]
    exact toBits_nonneg (by linarith)
  obtain ⟨t, t1, t2, t3⟩ := mul_fits (K := K + 3) (L := K + 6) (a := 5) (b := r) (by omega)
    (by
      rw [abs_mul, abs_of_pos (show (0 : ℚ) < 5 by norm_num)]
      have := r2.2
      rw [show K + 6 = K + 2 + 1 + 3 by omega, pow_add _ (K + 2 + 1) 3]
      linarith [abs_nonneg r]) r2
  have t0 : 0 ≤ t := by
    rw [t3]
    exact toBits_nonneg (by linarith)
  simp only [m1, h1, h3, r1, t1]
  have m3 := m2.mono (show K + 1 ≤ K + 6 by omega)
  obtain ⟨lo, l1, l2, l3⟩ := sub_fits (by omega) m3 t2
  obtain ⟨hi, u1, u2, u3⟩ := add_fits (by omega) m3 t2
  refine ⟨lo, hi, by rw [l1, u1], l2.1, u2.1, ?_⟩
  have e1 : lo ≤ m := by rw [l3]; exact toBits_le_of m3.1.1 (by linarith)
  have e2 : m ≤ hi := by rw [u3]; exact le_toBits_of m3.1.1 (by linarith)
  linarith

theorem rounded_fin {q : ℚ} (h : IsDouble q) : rounded (.fin q) = .fin q := toDouble_exact h

theorem boundEntry_fin {lo hi v : ℚ} (hlo : IsDouble lo) (hhi : IsDouble hi) (hv : IsDouble v)
    (h : lo ≤ hi) : boundEntry (.fin lo) (.fin hi) (.fin v) = .fin (max lo (min hi v)) := by
  have one : (1 : Num) = .fin 1 := by
    change Num.fin ((1 : ℕ) : ℚ) = _
    simp
  have zero : (0 : Num) = .fin 0 := by
    change Num.fin ((0 : ℕ) : ℚ) = _
    simp
  unfold boundEntry Prelim.ofBool mul add
  simp only [Num.lt]
  by_cases h1 : hi < v
  · have h2 : ¬ v < lo := by linarith
    rw [min_eq_left h1.le, max_eq_right h]
    simp only [h1, h2, decide_true, decide_false, Bool.or_false, Bool.not_true, if_true, Bool.false_eq_true,
      if_false, one, zero, Num.fin_mul, mul_zero, zero_mul, one_mul, rounded_fin isDouble_zero,
      rounded_fin hhi, fin_add, zero_add, add_zero]
  · by_cases h2 : v < lo
    · rw [min_eq_right (by linarith), max_eq_left h2.le]
      simp only [h1, h2, decide_true, decide_false, Bool.false_or, Bool.not_true, if_true, Bool.false_eq_true,
        if_false, one, zero, Num.fin_mul, mul_zero, zero_mul, one_mul, rounded_fin isDouble_zero,
        rounded_fin hlo, fin_add, zero_add, add_zero]
    · rw [min_eq_right (by linarith), max_eq_right (by linarith)]
      simp only [h1, h2, decide_false, Bool.or_false, Bool.not_false, if_true, Bool.false_eq_true,
        if_false, one, zero, Num.fin_mul, mul_one, zero_mul, rounded_fin isDouble_zero,
        rounded_fin hv, fin_add, add_zero]

/-! ### Rounded operations keep the order -/

theorem fin_mono {a b : Num} (f : ℚ → ℚ) (hf : ∀ x y, x ≤ y → f x ≤ f y) {g : Num → Num}
    (hg : ∀ x, g (.fin x) = .fin (f x)) (hp : g .pinf = .pinf) (hn : g .ninf = .ninf)
    (h : a.le b = true) : (g a).le (g b) = true := by
  cases a <;> cases b <;> simp_all [Num.le]

theorem add_mono {a b c : Num} (h : a.le b = true) (hc : ∃ q, c = .fin q) :
    (add a c).le (add b c) = true := by
  obtain ⟨c, rfl⟩ := hc
  exact rounded_mono (fin_mono (g := fun v => v + .fin c) (fun x => x + c) (fun x y h => by linarith)
    (fun x => rfl) rfl rfl h)

theorem sub_mono {a b : Num} {c : ℚ} (h : a.le b = true) : (sub a (.fin c)).le (sub b (.fin c)) = true :=
  rounded_mono (fin_mono (g := fun v => v - .fin c) (fun x => x - c) (fun x y h => by linarith)
    (fun x => Num.fin_sub x c) rfl rfl h)

theorem div_mono {a b : Num} {c : ℚ} (hc : 0 < c) (h : a.le b = true) :
    (div a (.fin c)).le (div b (.fin c)) = true :=
  rounded_mono (fin_mono (g := fun v => v / .fin c) (fun x => x / c)
    (fun x y h => div_le_div_of_nonneg_right h hc.le) (fun x => Num.fin_div x c hc.ne')
    (if_neg (not_lt.2 hc.le)) (if_neg (not_lt.2 hc.le)) h)

theorem one_fin : (1 : Num) = .fin 1 := by
  change Num.fin ((1 : ℕ) : ℚ) = _
  simp

end Verif.Double
