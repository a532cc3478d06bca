import Verif.Pilot.Props
import Verif.Pilot.SpecVector
import Mathlib.Tactic.FieldSimp
import Mathlib.Tactic.Positivity
import Mathlib.Algebra.BigOperators.Ring.Finset
/-!
# Properties of PILOT's solution vector (C135) and of the explained variation (C79)
-/
set_option autoImplicit false
set_option linter.unusedSectionVars false

namespace Verif.Pilot

open Matrix

variable {K : Type} [Field K] [LinearOrder K] [IsStrictOrderedRing K] {p n q : Nat}

/-! ### C135 -/

theorem encodes_iff {v : Fin (len n q) → K} {a : Matrix (Fin 2) (Fin n) K}
    {b : Matrix (Fin n) (Fin 2) K} {c : Matrix (Fin 2) (Fin q) K} :
    Encodes v a b c ↔ a = aOf v ∧ (b = fun j => bOf v (Fin.castAdd q j)) ∧
      c = fun k j => bOf v (Fin.natAdd n j) k := by
  constructor
  · rintro ⟨h1, h2, h3, h4⟩
    refine ⟨?_, ?_, ?_⟩
    · funext k j
      unfold aOf
      match k with
      | 0 => exact (h1 _ j (by simp)).symm
      | 1 => exact (h2 _ j (by simp)).symm
    · funext j k
      unfold bOf
      exact (h3 _ j k (by simp only [Fin.val_castAdd]; omega)).symm
    · funext k j
      unfold bOf
      exact (h4 _ j k (by simp only [Fin.val_natAdd]; omega)).symm
  · rintro ⟨rfl, rfl, rfl⟩
    refine ⟨?_, ?_, ?_, ?_⟩
    · intro i j h
      unfold aOf
      congr 1
      apply Fin.ext
      simp [h]
    · intro i j h
      unfold aOf
      congr 1
      apply Fin.ext
      simp [h]
    · intro i j k h
      unfold bOf
      congr 1
      apply Fin.ext
      simp only [Fin.val_castAdd]
      omega
    · intro i j k h
      unfold bOf
      congr 1
      apply Fin.ext
      simp only [Fin.val_natAdd]
      omega

/-- **C135, the search space.**  Every choice of coefficients is exactly one vector. -/
theorem C135_space (a : Matrix (Fin 2) (Fin n) K) (b : Matrix (Fin n) (Fin 2) K)
    (c : Matrix (Fin 2) (Fin q) K) : ∃ v : Fin (2 * (n + q) + 2 * n) → K, Encodes v a b c ∧
      ∀ w, Encodes w a b c → w = v := by
  let v : Fin (2 * (n + q) + 2 * n) → K := fun i =>
    if h1 : i.val < n then a 0 ⟨i.val, h1⟩
    else if h2 : i.val < 2 * n then a 1 ⟨i.val - n, by omega⟩
    else if h3 : i.val < 4 * n then b ⟨(i.val - 2 * n) / 2, by omega⟩ ⟨(i.val - 2 * n) % 2, by omega⟩
    else c ⟨(i.val - 4 * n) % 2, by omega⟩ ⟨(i.val - 4 * n) / 2, by omega⟩
  have hv : Encodes v a b c := by
    refine ⟨?_, ?_, ?_, ?_⟩
    · intro i j h
      have h1 : i.val < n := by omega
      simp only [v, dif_pos h1]
      congr 1
      exact Fin.ext h
    · intro i j h
      have h1 : ¬ i.val < n := by omega
      have h2 : i.val < 2 * n := by omega
      simp only [v, dif_neg h1, dif_pos h2]
      congr 1
      apply Fin.ext
      simp only
      omega
    · intro i j k h
      have h1 : ¬ i.val < n := by omega
      have h2 : ¬ i.val < 2 * n := by omega
      have h3 : i.val < 4 * n := by omega
      simp only [v, dif_neg h1, dif_neg h2, dif_pos h3]
      congr 1 <;> (apply Fin.ext; simp only; omega)
    · intro i j k h
      have h1 : ¬ i.val < n := by omega
      have h2 : ¬ i.val < 2 * n := by omega
      have h3 : ¬ i.val < 4 * n := by omega
      simp only [v, dif_neg h1, dif_neg h2, dif_neg h3]
      congr 1 <;> (apply Fin.ext; simp only; omega)
  refine ⟨v, hv, ?_⟩
  intro w hw
  funext i
  by_cases h1 : i.val < n
  · exact (hw.first i ⟨i, h1⟩ rfl).trans (hv.first i ⟨i, h1⟩ rfl).symm
  by_cases h2 : i.val < 2 * n
  · have h : i.val = n + (⟨i.val - n, by omega⟩ : Fin n).val := by simp only; omega
    exact (hw.second i _ h).trans (hv.second i _ h).symm
  by_cases h3 : i.val < 4 * n
  · have h : i.val = 2 * n + 2 * (⟨(i.val - 2 * n) / 2, by omega⟩ : Fin n).val +
        (⟨(i.val - 2 * n) % 2, by omega⟩ : Fin 2).val := by simp only; omega
    exact (hw.features i _ _ h).trans (hv.features i _ _ h).symm
  · have h : i.val = 2 * n + 2 * n + 2 * (⟨(i.val - 4 * n) / 2, by omega⟩ : Fin q).val +
        (⟨(i.val - 4 * n) % 2, by omega⟩ : Fin 2).val := by simp only; omega
    exact (hw.algorithms i _ _ h).trans (hv.algorithms i _ _ h).symm

/-- **C135, the objective.**  The function given to the optimiser is the mean, over instances,
features and algorithms, of the squared difference between the data and its reconstruction from the
plane, for the coefficients the vector stands for. -/
theorem C135_objective (x : Matrix (Fin p) (Fin n) K) (y : Matrix (Fin p) (Fin q) K)
    {v : Fin (2 * (n + q) + 2 * n) → K} {a : Matrix (Fin 2) (Fin n) K}
    {b : Matrix (Fin n) (Fin 2) K} {c : Matrix (Fin 2) (Fin q) K} (hv : Encodes v a b c)
    {z : Matrix (Fin p) (Fin 2) K} (hz : Projects x a z) :
    errorFunction (xBar x y) v = residual x y z b c / ((p : K) * ((n + q : Nat) : K)) := by
  obtain ⟨rfl, rfl, rfl⟩ := encodes_iff.1 hv
  have hzz : z = x * (aOf v).transpose := by
    funext i k
    rw [hz i k, mul_apply]
    rfl
  have hx : (fun i j => xBar x y i (Fin.castAdd q j) : Matrix (Fin p) (Fin n) K) = x := by
    funext i j
    unfold xBar
    rw [Fin.append_left]
  have happ : (bOf v * aOf v * x.transpose).transpose = z * (bOf v).transpose := by
    rw [transpose_mul, transpose_mul, transpose_transpose, hzz, ← Matrix.mul_assoc]
  unfold errorFunction
  simp only [hx]
  rw [happ, ← residual_eq]
  unfold sumSquares
  rw [← Finset.sum_div, div_div, mul_comm (p : K)]

/-- **C135, the result.**  In numerical mode the returned coefficients are those of the vector the
optimiser reached from one of the starting points, rounded to half precision; `c` is without the
first algorithm's. -/
theorem C135_result {lib : Lib K p n q} {x : Matrix (Fin p) (Fin n) K}
    {y : Matrix (Fin p) (Fin q) K} {labels : List String} {opts : Options K n q} {out : Out K p n q}
    (hm : opts.analytic = false) (h : pilot lib x y labels opts = .ok out) :
    ∃ x0 guess, out.x0 = some x0 ∧ guess ∈ x0 ∧ ∃ coef : Matrix (Fin 2) (Fin q) K,
      Encodes (fun i => lib.half ((lib.bfgs (errorFunction (xBar x y)) guess).1 i)) out.a out.b coef ∧
      ∀ (k : Fin 2) (j : Fin out.cCols) (r : Fin q), r.val = j.val + 1 → out.c k j = coef k r := by
  obtain ⟨x0, idx, guess, alpha, _, _, _, hg, hal, hx0, _, _, _, ha, _, hb, ⟨hc, hcv⟩, _⟩ :=
    numerical_ok hm h
  refine ⟨x0, guess, hx0, List.mem_of_getElem? hg, fun k j => bOf alpha (Fin.natAdd n j) k, ?_, ?_⟩
  · rw [← hal]
    exact encodes_iff.2 ⟨ha, hb, rfl⟩
  · intro k j r hr
    rw [hcv]
    congr 1
    apply Fin.ext
    simp only [Fin.val_natAdd]
    omega

-- One feature, one algorithm.
example : Encodes (n := 1) (q := 1) (![1, 2, 3, 4, 5, 6] : Fin 6 → ℚ) (of ![![1], ![2]])
    (of ![![3, 4]]) (of ![![5], ![6]]) := by
  refine ⟨by decide +kernel, by decide +kernel, fun i j k => ?_, fun i j k => ?_⟩
  all_goals
    revert i
    match j, k with
    | 0, 0 => decide +kernel
    | 0, 1 => decide +kernel
example : errorFunction (xBar (of ![![1], ![2]] : Matrix (Fin 2) (Fin 1) ℚ)
    (of ![![1], ![0]] : Matrix (Fin 2) (Fin 1) ℚ)) ![1, 2, 3, 4, 5, 6] =
    ((1 - 11) ^ 2 + (1 - 17) ^ 2 + (2 - 22) ^ 2 + (0 - 34) ^ 2) / 4 := by decide +kernel
example : ((pilot exLib exX exY exLabels (exOpts false)).toOption.isSome) = true := by decide +kernel

/-! ### C79 -/

theorem sum_sub_mean {r : Nat} (hr : (r : K) ≠ 0) (u : Fin r → K) : ∑ i, (u i - mean u) = 0 := by
  rw [Finset.sum_sub_distrib]
  simp only [Finset.sum_const, Finset.card_univ, Fintype.card_fin, nsmul_eq_mul]
  unfold mean
  rw [mul_div_cancel₀ _ hr]
  exact sub_self _

theorem sum_line {r : Nat} (hr : (r : K) ≠ 0) (u v : Fin r → K) (a b : K) :
    ∑ i, (u i - (a + b * v i)) ^ 2 =
      (∑ i, (u i - mean u) ^ 2) - 2 * b * (∑ i, (u i - mean u) * (v i - mean v)) +
        b ^ 2 * (∑ i, (v i - mean v) ^ 2) + r * (mean u - a - b * mean v) ^ 2 := by
  have h : ∀ i, (u i - (a + b * v i)) ^ 2 =
      (u i - mean u) ^ 2 - 2 * b * ((u i - mean u) * (v i - mean v)) + b ^ 2 * (v i - mean v) ^ 2 +
      (mean u - a - b * mean v) ^ 2 + 2 * (mean u - a - b * mean v) * (u i - mean u) -
      2 * (mean u - a - b * mean v) * b * (v i - mean v) := fun i => by ring
  simp only [h]
  rw [Finset.sum_sub_distrib, Finset.sum_add_distrib, Finset.sum_add_distrib, Finset.sum_add_distrib,
    Finset.sum_sub_distrib, ← Finset.mul_sum, ← Finset.mul_sum, ← Finset.mul_sum, ← Finset.mul_sum,
    sum_sub_mean hr, sum_sub_mean hr]
  simp only [Finset.sum_const, Finset.card_univ, Fintype.card_fin, nsmul_eq_mul]
  ring

theorem sum_constant {r : Nat} (hr : (r : K) ≠ 0) (u : Fin r → K) (a : K) :
    ∑ i, (u i - a) ^ 2 = (∑ i, (u i - mean u) ^ 2) + r * (mean u - a) ^ 2 := by
  have h := sum_line hr u u a 0
  simp only [zero_mul, add_zero] at h
  rw [h]
  ring

theorem variation_zero {r : Nat} (u : Fin r → K) : ∑ i, (u i - mean u) ^ 2 = 0 ↔ Constant u := by
  constructor
  · intro h i j
    have h := (Finset.sum_eq_zero_iff_of_nonneg fun i _ => sq_nonneg (u i - mean u)).1 h
    have hi := pow_eq_zero_iff (two_ne_zero) |>.1 (h i (Finset.mem_univ _))
    have hj := pow_eq_zero_iff (two_ne_zero) |>.1 (h j (Finset.mem_univ _))
    linarith
  · intro h
    apply Finset.sum_eq_zero
    intro i _
    have hr : (r : K) ≠ 0 := by
      have : 0 < r := by have := i.isLt; omega
      exact_mod_cast this.ne'
    have hm : mean u = u i := by
      unfold mean
      rw [Finset.sum_congr rfl fun j _ => h j i]
      simp only [Finset.sum_const, Finset.card_univ, Fintype.card_fin, nsmul_eq_mul]
      rw [mul_div_assoc, mul_comm, div_mul_cancel₀ _ hr]
    rw [hm]
    ring

theorem sqCorr_none {r : Nat} (u v : Fin r → K) : sqCorr u v = none ↔ Constant u ∨ Constant v := by
  unfold sqCorr
  dsimp only
  split
  · next h => simpa [variation_zero] using h
  · next h => simpa [variation_zero] using h

theorem sqCorr_some {r : Nat} {u v : Fin r → K} {s : K} (h : sqCorr u v = some s) :
    Explains u v s := by
  unfold sqCorr at h
  simp only at h
  split at h
  · cases h
  rename_i hne
  push Not at hne
  obtain ⟨hu, hv⟩ := hne
  injection h with h
  have hr : (r : K) ≠ 0 := by
    intro h0
    apply hu
    have : r = 0 := by exact_mod_cast h0
    subst this
    simp
  have hrp : (0 : K) ≤ r := Nat.cast_nonneg _
  have hup : 0 < ∑ i, (u i - mean u) ^ 2 :=
    lt_of_le_of_ne (Finset.sum_nonneg fun i _ => sq_nonneg _) (Ne.symm hu)
  have hvp : 0 < ∑ i, (v i - mean v) ^ 2 :=
    lt_of_le_of_ne (Finset.sum_nonneg fun i _ => sq_nonneg _) (Ne.symm hv)
  generalize huu : ∑ i, (u i - mean u) ^ 2 = uu at *
  generalize hvv : ∑ i, (v i - mean v) ^ 2 = vv at *
  generalize huv : ∑ i, (u i - mean u) * (v i - mean v) = uv at *
  refine ⟨uu, uu - uv ^ 2 / vv, hup, ?_, ⟨⟨mean u, huu.symm⟩, ?_⟩,
    ⟨⟨mean u - uv / vv * mean v, uv / vv, ?_⟩, ?_⟩⟩
  · rw [← h]
    field_simp
    ring
  · rintro w ⟨a, rfl⟩
    rw [sum_constant hr, huu]
    have := mul_nonneg hrp (sq_nonneg (mean u - a))
    linarith
  · rw [sum_line hr, huu, hvv, huv]
    field_simp
    ring
  · rintro w ⟨a, b, rfl⟩
    rw [sum_line hr, huu, hvv, huv]
    have h1 := mul_nonneg hrp (sq_nonneg (mean u - a - b * mean v))
    have h2 : uu - 2 * b * uv + b ^ 2 * vv = uu - uv ^ 2 / vv + vv * (b - uv / vv) ^ 2 := by
      field_simp
      ring
    have h3 := mul_nonneg hvp.le (sq_nonneg (b - uv / vv))
    linarith

/-- **C79, what the number means.**  In analytic mode `r2` has, for every feature and every
algorithm, the part of its variation explained by its reconstruction, rounded to half precision; it
is undefined exactly if the values or their reconstructions are constant. -/
theorem C79_explained_partial {lib : Lib K p n q} {x : Matrix (Fin p) (Fin n) K}
    {y : Matrix (Fin p) (Fin q) K} {labels : List String} {opts : Options K n q} {out : Out K p n q}
    (hm : opts.analytic = true) (h : pilot lib x y labels opts = .ok out) :
    ∃ hc : out.cCols = q, out.r2.length = n + q ∧
      (∀ j : Fin n,
        (out.r2[j.val]? = some none ∧ (Constant (fun i => x i j) ∨
          Constant fun i => reconX out.z out.b i j)) ∨
        ∃ s, Explains (fun i => x i j) (fun i => reconX out.z out.b i j) s ∧
          out.r2[j.val]? = some (some (lib.half s))) ∧
      (∀ j : Fin q,
        (out.r2[n + j.val]? = some none ∧ (Constant (fun i => y i j) ∨
          Constant fun i => reconY out.z (fun k j => out.c k (j.cast hc.symm)) i j)) ∨
        ∃ s, Explains (fun i => y i j)
            (fun i => reconY out.z (fun k j => out.c k (j.cast hc.symm)) i j) s ∧
          out.r2[n + j.val]? = some (some (lib.half s))) := by
  obtain ⟨hc, hl, hx, hy⟩ := C79_partial hm h
  refine ⟨hc, hl, ?_, ?_⟩
  · intro j
    rw [hx j]
    cases hs : sqCorr (fun i => x i j) (fun i => reconX out.z out.b i j) with
    | none => exact .inl ⟨rfl, (sqCorr_none _ _).1 hs⟩
    | some s => exact .inr ⟨s, sqCorr_some hs, rfl⟩
  · intro j
    rw [hy j]
    cases hs : sqCorr (fun i => y i j)
        (fun i => reconY out.z (fun k j => out.c k (j.cast hc.symm)) i j) with
    | none => exact .inl ⟨rfl, (sqCorr_none _ _).1 hs⟩
    | some s => exact .inr ⟨s, sqCorr_some hs, rfl⟩

example : Explains (![1, 2, 4] : Fin 3 → ℚ) ![0, 1, 2] (27 / 28) :=
  sqCorr_some (by decide +kernel)

end Verif.Pilot
