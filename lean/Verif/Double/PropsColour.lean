import Verif.Double.ColumnLemmas
/-!
# The colours of the web export in double precision (C177)
-/
set_option autoImplicit false
set_option linter.unusedSectionVars false

namespace Verif.Double

open Verif (Num)
open Verif.Export (Coloured Varies roundEven floorInt roundInt)

/-- The full claim: doubles that vary are coloured from 0 to 255, in their order, by column and globally. -/
def DoublesColoured : Prop :=
  ∀ l : List ℚ, (∀ q ∈ l, IsDouble q) → Varies l →
    Coloured l (colours (l.map Num.fin)) ∧ Coloured l (coloursG (l.map Num.fin))

/-- **C177** is false: the range of `-2^1023` and `2^1023` overflows, and infinity by infinity has no colour. -/
theorem C177_refuted : ¬ DoublesColoured := by
  intro hall
  have hd : IsDouble ((2 : ℚ) ^ 1023) := pow_two_double (by norm_num)
  obtain ⟨⟨ks, h, -⟩, -⟩ := hall [-2 ^ 1023, 2 ^ 1023]
    (by
      intro q hq
      simp only [List.mem_cons, List.not_mem_nil, or_false] at hq
      rcases hq with rfl | rfl
      · exact isDouble_neg hd
      · exact hd)
    ⟨-2 ^ 1023, by simp, 2 ^ 1023, by simp, neg_lt_self (by positivity)⟩
  have e : colours ([-2 ^ 1023, 2 ^ 1023].map Num.fin) = [.fin 0, .nan] := by decide +kernel
  rw [e] at h
  match ks, h with
  | [a, b], h => simp at h

/-- The number that is rounded to a colour. -/
def scale (lo hi q : ℚ) : ℚ := toBits (255 * toBits (toBits (q - lo) / toBits (hi - lo)))

theorem double_255 : IsDouble 255 := by exact_mod_cast isDouble_int (k := 255) (by norm_num)

theorem scale_bounds {lo hi q : ℚ} (h0 : 0 < toBits (hi - lo)) (h1 : lo ≤ q) (h2 : q ≤ hi) :
    0 ≤ toBits (toBits (q - lo) / toBits (hi - lo)) ∧ toBits (toBits (q - lo) / toBits (hi - lo)) ≤ 1 := by
  constructor
  · exact toBits_nonneg (div_nonneg (toBits_nonneg (by linarith)) h0.le)
  · exact toBits_le_of isDouble_one.1 ((div_le_one h0).2 (toBits_mono (by linarith)))

theorem scaled_fin {l : List ℚ} {lo hi : ℚ} (hlo : Export.npMin (l.map Num.fin) = .fin lo)
    (hhi : Export.npMax (l.map Num.fin) = .fin hi) (hr : |hi - lo| ≤ 2 ^ 1000)
    (h0 : 0 < toBits (hi - lo)) {q : ℚ} (h1 : lo ≤ q) (h2 : q ≤ hi) :
    scaled (l.map Num.fin) (.fin q) = .fin (scale lo hi q) := by
  obtain ⟨d, d1, -, d2⟩ := toDouble_fits (K := 1000) (by norm_num) hr
  obtain ⟨n, n1, -, n2⟩ := toDouble_fits (K := 1000) (by norm_num) (q := q - lo) (by
    refine le_trans ?_ hr
    rw [abs_of_nonneg (by linarith), abs_of_nonneg (by linarith)]
    linarith)
  have e1 : sub (.fin hi) (.fin lo) = .fin d := by unfold sub; rw [Num.fin_sub]; exact d1
  have e2 : sub (.fin q) (.fin lo) = .fin n := by unfold sub; rw [Num.fin_sub]; exact n1
  have hb := scale_bounds h0 h1 h2
  have hn : 0 ≤ n / d := by
    rw [n2, d2]
    exact div_nonneg (toBits_nonneg (by linarith)) h0.le
  have hn1 : n / d ≤ 1 := by
    rw [n2, d2]
    exact (div_le_one h0).2 (toBits_mono (by linarith))
  obtain ⟨u, u1, -, u2⟩ := toDouble_fits (K := 0) (by norm_num) (q := n / d)
    (by rw [abs_of_nonneg hn]; simpa using hn1)
  have e3 : div (.fin n) (.fin d) = .fin u := by
    unfold div
    rw [Num.fin_div _ _ (by rw [d2]; exact h0.ne')]
    exact u1
  rw [n2, d2] at u2
  rw [← u2] at hb
  obtain ⟨t, t1, -, t2⟩ := toDouble_fits (K := 8) (by norm_num) (q := 255 * u)
    (by rw [abs_of_nonneg (by linarith)]; norm_num; linarith)
  unfold scaled scale
  rw [hlo, hhi, e1, e2, e3, ← u2, ← t2]
  unfold mul
  rw [Num.fin_mul]
  exact t1

/-- Both scales: a monotone rounding that keeps integers. -/
theorem coloured_of {f : ℚ → ℤ} (hm : ∀ a b, a ≤ b → f a ≤ f b) (hi : ∀ k : ℤ, f k = k) {l : List ℚ}
    (hd : ∀ q ∈ l, IsDouble q ∧ |q| ≤ 2 ^ 999) (h : Varies l) {g : Num → Num}
    (hg : ∀ q, g (.fin q) = .fin (f q)) :
    Coloured l ((l.map Num.fin).map fun v => g (scaled (l.map Num.fin) v)) := by
  obtain ⟨lo, hi', h1, h2, h3, h4, h5, h6⟩ := Export.range_fin h
  have hr : |hi' - lo| ≤ 2 ^ 1000 := by
    rw [pow_succ]
    linarith [abs_sub hi' lo, (hd _ h3).2, (hd _ h4).2]
  have h0 : 0 < toBits (hi' - lo) := sub_pos' (hd _ h4).1.1 (hd _ h3).1.1 h6
  have c0 : f 0 = 0 := by exact_mod_cast hi 0
  have c1 : f 255 = 255 := by exact_mod_cast hi 255
  have mono : ∀ a b, lo ≤ a → a ≤ b → b ≤ hi' → scale lo hi' a ≤ scale lo hi' b := by
    intro a b _ hab _
    unfold scale
    have h7 : toBits (a - lo) / toBits (hi' - lo) ≤ toBits (b - lo) / toBits (hi' - lo) :=
      div_le_div_of_nonneg_right (toBits_mono (by linarith)) h0.le
    have := toBits_mono h7
    exact toBits_mono (by linarith)
  have s0 : scale lo hi' lo = 0 := by
    unfold scale
    rw [sub_self, toBits_zero, zero_div, toBits_zero, mul_zero, toBits_zero]
  have s1 : scale lo hi' hi' = 255 := by
    unfold scale
    rw [div_self h0.ne', toBits_exact isDouble_one.1, mul_one, toBits_exact double_255.1]
  refine ⟨l.map fun q => f (scale lo hi' q), ?_, by simp, ?_, ?_, ?_, ?_⟩
  · simp only [List.map_map]
    refine List.map_congr_left fun q hq => ?_
    simp only [Function.comp, scaled_fin h1 h2 hr h0 (h5 q hq).1 (h5 q hq).2, hg]
  · intro k hk
    obtain ⟨q, hq, rfl⟩ := List.mem_map.1 hk
    have a := hm _ _ (mono lo q (le_refl _) (h5 q hq).1 (h5 q hq).2)
    have b := hm _ _ (mono q hi' (h5 q hq).1 (h5 q hq).2 (le_refl _))
    rw [s0, c0] at a
    rw [s1, c1] at b
    exact ⟨a, b⟩
  · intro i j a b k m ha hb hk hm' hab
    simp only [List.getElem?_map, ha, hb, Option.map_some, Option.some.injEq] at hk hm'
    rw [← hk, ← hm']
    exact hm _ _ (mono a b (h5 a (List.mem_of_getElem? ha)).1 hab (h5 b (List.mem_of_getElem? hb)).2)
  · intro i a k ha hk hmin
    simp only [List.getElem?_map, ha, Option.map_some, Option.some.injEq] at hk
    have : a = lo := le_antisymm (hmin lo h3) (h5 a (List.mem_of_getElem? ha)).1
    rw [← hk, this, s0, c0]
  · intro i a k ha hk hmax
    simp only [List.getElem?_map, ha, Option.map_some, Option.some.injEq] at hk
    have : a = hi' := le_antisymm (h5 a (List.mem_of_getElem? ha)).2 (hmax hi' h4)
    rw [← hk, this, s1, c1]

/-- **C177, the true part.**  Doubles of magnitude at most `2 ^ 999` that vary are coloured from 0 to 255, in
their order, the least 0 and the greatest 255, however close they are.  Missing for the full property: larger
numbers. -/
theorem C177_partial {l : List ℚ} (hd : ∀ q ∈ l, IsDouble q ∧ |q| ≤ 2 ^ 999) (h : Varies l) :
    Coloured l (colours (l.map Num.fin)) ∧ Coloured l (coloursG (l.map Num.fin)) :=
  ⟨coloured_of (f := fun q => ⌊q⌋) (fun _ _ => Int.floor_le_floor) (fun k => Int.floor_intCast k) hd h
    (fun _ => rfl),
   coloured_of (f := roundEven) (fun _ _ => Export.roundEven_mono) Export.roundEven_int hd h (fun _ => rfl)⟩

/-- Non-vacuity: three values, and two neighbouring doubles next to zero. -/
example : colours ([1, 2, 4].map Num.fin) = [.fin 0, .fin 85, .fin 255] ∧
    coloursG ([0, 1 / 2 ^ 1074].map Num.fin) = [.fin 0, .fin 255] ∧
    Varies ([1, 2, 4] : List ℚ) :=
  ⟨by decide +kernel, by decide +kernel, ⟨1, by simp, 4, by simp, by norm_num⟩⟩

end Verif.Double
