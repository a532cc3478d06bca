import Verif.Double.ColumnLemmas
/-! How far the bounds computed in double precision are from the exact ones. -/
set_option autoImplicit false
set_option linter.unusedSectionVars false

namespace Verif.Double

open Verif (Num)

/-- Half of the smallest positive double. -/
def eta : ℚ := 1 / 2 ^ 1075

theorem eta_pos : 0 < eta := by unfold eta; positivity

/-- One rounding of a number that is within `e` of `X`. -/
theorem round_close {x X e A : ℚ} (h : |x - X| ≤ e) (hA : |X| ≤ A) :
    |toBits x - X| ≤ e + (A + e) / 2 ^ 53 + eta := by
  have h1 : |toBits x - x| ≤ |x| / 2 ^ 53 + eta := toBits_error x
  have h2 : |x| ≤ A + e := by
    have := abs_sub_abs_le_abs_sub x X
    linarith
  have h3 : |toBits x - X| ≤ |toBits x - x| + |x - X| := abs_sub_le _ _ _
  have h4 : |x| / 2 ^ 53 ≤ (A + e) / 2 ^ 53 := by gcongr
  linarith

theorem getD_abs {s : List ℚ} {M : ℚ} (h : ∀ q ∈ s, |q| ≤ M) {i : Nat} (hi : i < s.length) :
    |s.getD i 0| ≤ M := by
  rw [List.getD_eq_getElem?_getD, List.getElem?_eq_getElem hi]
  exact h _ (List.getElem_mem hi)

theorem half_abs {a b M : ℚ} (ha : |a| ≤ M) (hb : |b| ≤ M) : |(a + b) / 2| ≤ M := by
  rw [abs_le] at *
  constructor <;> linarith [ha.1, ha.2, hb.1, hb.2]

theorem scaled_close {x X e c : ℚ} (hc : 0 ≤ c) (h : |x - X| ≤ e) : |c * x - c * X| ≤ c * e := by
  rw [← mul_sub, abs_mul, abs_of_nonneg hc]
  exact mul_le_mul_of_nonneg_left h hc

theorem close_sub {x X y Y e f : ℚ} (h : |x - X| ≤ e) (h' : |y - Y| ≤ f) : |x - y - (X - Y)| ≤ e + f := by
  rw [abs_le] at *
  constructor <;> linarith [h.1, h.2, h'.1, h'.2]

theorem close_add {x X y Y e f : ℚ} (h : |x - X| ≤ e) (h' : |y - Y| ≤ f) : |x + y - (X + Y)| ≤ e + f := by
  rw [abs_le] at *
  constructor <;> linarith [h.1, h.2, h'.1, h'.2]

theorem median_error {K : ℕ} (hK : K < 1000) {s : List ℚ} (h : Moderate K s) (hl : 0 < s.length) {M : ℚ}
    (hM : ∀ q ∈ s, |q| ≤ M) {m : ℚ} (hm : median s = .fin m) :
    |m - Prelim.median s| ≤ 3 * M / 2 ^ 53 + 3 * eta ∧ |Prelim.median s| ≤ M := by
  have a1 := getD_abs hM (i := (s.length - 1) / 2) (by omega)
  have a2 := getD_abs hM (i := s.length / 2) (by omega)
  have hM0 : 0 ≤ M := (abs_nonneg _).trans a1
  have hη := eta_pos
  have hmed : |Prelim.median s| ≤ M := half_abs a1 a2
  refine ⟨?_, hmed⟩
  unfold median at hm
  split at hm
  · rename_i hodd
    have : Prelim.median s = s.getD (s.length / 2) 0 := by
      unfold Prelim.median
      rw [show (s.length - 1) / 2 = s.length / 2 by omega]
      ring
    unfold at' at hm
    cases hm
    rw [this, sub_self, abs_zero]
    positivity
  · rename_i heven
    obtain ⟨r, h1, h2, h3⟩ := add_fits (K := K) (by omega) (h.getD (i := s.length / 2 - 1) (by omega))
      (h.getD (i := s.length / 2) (by omega))
    unfold at' at hm
    rw [h1] at hm
    unfold div at hm
    rw [Num.fin_div _ _ (by norm_num)] at hm
    obtain ⟨m', e1, e2, e3⟩ := toDouble_fits (K := K + 1) (by omega) (q := r / 2) (by
      rw [abs_div, abs_of_pos (show (0 : ℚ) < 2 by norm_num)]
      linarith [abs_nonneg r, h2.2])
    rw [show rounded (.fin (r / 2)) = Num.fin m' from e1] at hm
    cases hm
    have hsum : s.getD (s.length / 2 - 1) 0 + s.getD (s.length / 2) 0 = 2 * Prelim.median s := by
      unfold Prelim.median
      rw [show (s.length - 1) / 2 = s.length / 2 - 1 by omega]
      ring
    rw [hsum] at h3
    have c1 := round_close (x := 2 * Prelim.median s) (X := 2 * Prelim.median s) (e := 0) (A := 2 * M)
      (by simp) (by rw [abs_mul, abs_of_pos (show (0 : ℚ) < 2 by norm_num)]; linarith)
    rw [← h3] at c1
    have c2 := scaled_close (c := 1 / 2) (by norm_num) c1
    rw [show 1 / 2 * r = r / 2 by ring, show 1 / 2 * (2 * Prelim.median s) = Prelim.median s by ring] at c2
    have c4 := round_close c2 hmed
    rw [← e3] at c4
    linarith

theorem quartile_error {K : ℕ} (hK : K < 1000) {k : Nat} {s : List ℚ} (hk : k ≤ 4) (h : Moderate K s)
    (hl : 0 < s.length) {M : ℚ} (hM : ∀ q ∈ s, |q| ≤ M) {m : ℚ} (hm : quartile k s = .fin m) :
    |m - Prelim.quartile k s| ≤ 5 * M / 2 ^ 53 + 4 * eta ∧ |Prelim.quartile k s| ≤ M := by
  have hkl : k * (s.length - 1) ≤ 4 * (s.length - 1) := Nat.mul_le_mul_right _ hk
  have fa := h.getD (i := k * (s.length - 1) / 4) (by omega)
  have fb := h.getD (i := min (k * (s.length - 1) / 4 + 1) (s.length - 1)) (by omega)
  have a1 := getD_abs hM (i := k * (s.length - 1) / 4) (by omega)
  have a2 := getD_abs hM (i := (k * (s.length - 1) + 3) / 4) (by omega)
  have hM0 : 0 ≤ M := (abs_nonneg _).trans a1
  have hη := eta_pos
  have hq : |Prelim.quartile k s| ≤ M := half_abs a1 a2
  refine ⟨?_, hq⟩
  unfold quartile at' at hm
  obtain ⟨d, hd, fd, ed⟩ := sub_fits (by omega) fb fa
  simp only [hd] at hm
  split at hm
  · rename_i hz
    have hmz : mul (.fin d) (.fin 0) = .fin 0 := by
      unfold mul
      rw [Num.fin_mul, mul_zero]
      exact toDouble_zero
    have ha : add (.fin (s.getD (k * (s.length - 1) / 4) 0)) (.fin 0) =
        .fin (s.getD (k * (s.length - 1) / 4) 0) := by
      unfold add
      rw [fin_add, add_zero]
      exact toDouble_exact fa.1
    rw [hmz, ha] at hm
    cases hm
    have : Prelim.quartile k s = s.getD (k * (s.length - 1) / 4) 0 := by
      unfold Prelim.quartile
      rw [show (k * (s.length - 1) + 3) / 4 = k * (s.length - 1) / 4 by omega]
      ring
    rw [this, sub_self, abs_zero]
    positivity
  · rename_i hz
    obtain ⟨e, he, fe, ee⟩ := mul_fits (K := 1) (L := K + 1) (a := d) (b := 1 / 2) (by omega)
      (by
        rw [abs_mul, abs_of_pos (show (0 : ℚ) < 1 / 2 by norm_num)]
        linarith [fd.2, abs_nonneg d])
      ⟨⟨⟨1, -1, by norm_num, by norm_num, by norm_num⟩, by
        rw [abs_of_pos (by norm_num)]
        unfold limit
        exact lt_of_lt_of_le (by norm_num) (one_le_pow₀ (by norm_num))⟩,
        by rw [abs_of_pos (by norm_num)]; norm_num⟩
    obtain ⟨r, hr, fr, er⟩ := sub_fits (by omega) (fb.mono (show K ≤ K + 1 by omega)) fe
    rw [he, hr] at hm
    cases hm
    have hidx : min (k * (s.length - 1) / 4 + 1) (s.length - 1) = (k * (s.length - 1) + 3) / 4 := by omega
    rw [hidx] at ed er
    generalize ha : s.getD (k * (s.length - 1) / 4) 0 = a at *
    generalize hb : s.getD ((k * (s.length - 1) + 3) / 4) 0 = b at *
    have hqe : Prelim.quartile k s = b - (b - a) / 2 := by
      unfold Prelim.quartile
      rw [ha, hb]
      ring
    have c1 := round_close (x := b - a) (X := b - a) (e := 0) (A := 2 * M) (by simp)
      ((abs_sub b a).trans (by linarith))
    rw [← ed] at c1
    have c2 := scaled_close (c := 1 / 2) (by norm_num) c1
    have c3 := round_close c2 (A := M) (by
      rw [abs_mul, abs_of_pos (show (0 : ℚ) < 1 / 2 by norm_num)]
      linarith [(abs_sub b a).trans (add_le_add a2 a1)])
    rw [show 1 / 2 * d = d * (1 / 2) by ring, ← ee] at c3
    have c4 := close_sub (x := b) (X := b) (e := 0) (by simp) c3
    have c5 := round_close c4 (A := M) (by
      rw [show b - 1 / 2 * (b - a) = Prelim.quartile k s by rw [hqe]; ring]
      exact hq)
    rw [← er, show b - 1 / 2 * (b - a) = Prelim.quartile k s by rw [hqe]; ring] at c5
    linarith

/-- The bounds are close to the exact ones. -/
theorem bounds_error {K : ℕ} (hK : K < 1000) {col : List ℚ} (hne : col ≠ []) (h : ∀ q ∈ col, Fits K q)
    {M : ℚ} (hM : ∀ q ∈ col, |q| ≤ M) {lo hi : ℚ} (hb : bounds col = (.fin lo, .fin hi)) :
    |lo - (Prelim.bounds col).1| ≤ 100 * M / 2 ^ 53 + 100 * eta ∧
      |hi - (Prelim.bounds col).2| ≤ 100 * M / 2 ^ 53 + 100 * eta := by
  have hm : Moderate K (col.mergeSort (fun a b => decide (a ≤ b))) := by
    refine ⟨?_, fun q hq => h q ((List.mergeSort_perm _ _).mem_iff.1 hq)⟩
    have := List.pairwise_mergeSort (le := fun a b : ℚ => decide (a ≤ b))
      (by intro a b c h1 h2; simp only [decide_eq_true_eq] at *; exact le_trans h1 h2)
      (by intro a b; simp only [Bool.or_eq_true, decide_eq_true_eq]; exact le_total a b) col
    exact this.imp (by intro a b h; simpa using h)
  have hl : 0 < (col.mergeSort (fun a b => decide (a ≤ b))).length := by
    rw [List.length_mergeSort]
    exact List.length_pos_iff.2 hne
  have hMs : ∀ q ∈ col.mergeSort (fun a b => decide (a ≤ b)), |q| ≤ M :=
    fun q hq => hM q ((List.mergeSort_perm _ _).mem_iff.1 hq)
  have hM0 : 0 ≤ M := by
    obtain ⟨q, hq⟩ := List.exists_mem_of_ne_nil col hne
    exact (abs_nonneg _).trans (hM q hq)
  have hη := eta_pos
  unfold bounds at hb
  unfold Prelim.bounds
  generalize col.mergeSort (fun a b => decide (a ≤ b)) = s at hm hl hMs hb
  obtain ⟨m, m1, m2⟩ := median_fits hK hm hl
  obtain ⟨a, b, h1, h3, fa, fb, hab⟩ := quartile_le hK hm hl
  obtain ⟨r, r1, r2, r3⟩ := sub_fits (by omega) fb fa
  obtain ⟨t, t1, t2, t3⟩ := mul_fits (K := K + 3) (L := K + 6) (a := 5) (b := r) (by omega)
    (by
      rw [abs_mul, abs_of_pos (show (0 : ℚ) < 5 by norm_num)]
      have := r2.2
      rw [show K + 6 = K + 2 + 1 + 3 by omega, pow_add _ (K + 2 + 1) 3]
      linarith [abs_nonneg r]) r2
  simp only [m1, h1, h3, r1, t1] at hb
  have m3 := m2.mono (show K + 1 ≤ K + 6 by omega)
  obtain ⟨lo', l1, l2, l3⟩ := sub_fits (by omega) m3 t2
  obtain ⟨hi', u1, u2, u3⟩ := add_fits (by omega) m3 t2
  rw [l1, u1] at hb
  cases hb
  obtain ⟨em, bm⟩ := median_error hK hm hl hMs m1
  obtain ⟨ea, ba⟩ := quartile_error hK (by omega) hm hl hMs h1
  obtain ⟨eb, bb⟩ := quartile_error hK (by omega) hm hl hMs h3
  dsimp only
  generalize Prelim.median s = Em at *
  generalize Prelim.quartile 1 s = Ea at *
  generalize Prelim.quartile 3 s = Eb at *
  have bd : |Eb - Ea| ≤ 2 * M := (abs_sub Eb Ea).trans (by linarith)
  have c1 := round_close (close_sub eb ea) bd
  rw [← r3] at c1
  have b5 : |5 * (Eb - Ea)| ≤ 10 * M := by
    rw [abs_mul, abs_of_pos (show (0 : ℚ) < 5 by norm_num)]
    linarith
  have c2 := round_close (scaled_close (c := 5) (by norm_num) c1) b5
  rw [← t3] at c2
  have c3 := round_close (close_sub em c2) (A := 11 * M) ((abs_sub _ _).trans (by linarith))
  have c4 := round_close (close_add em c2) (A := 11 * M) ((abs_add_le _ _).trans (by linarith))
  rw [← l3] at c3
  rw [← u3] at c4
  constructor <;> linarith

end Verif.Double
