import Verif.Prelim.PropsBound
import Verif.Prelim.NormalLemmas
import Verif.Prelim.MetaLemmas
import Mathlib.Tactic.Linarith
import Mathlib.Tactic.Ring
import Mathlib.Tactic.FieldSimp
/-!
# Lemmas on moving and scaling a feature
-/
set_option autoImplicit false
set_option linter.unusedSectionVars false

namespace Verif.Prelim

open Verif (Num)

theorem move_sub (v m : Num) (q : ℚ) : (v + .fin q) - (m + .fin q) = v - m := by
  cases v <;> cases m <;> try rfl
  rename_i a b
  simp only [Num.fin_add, Num.fin_sub, Num.fin.injEq]
  ring

theorem move_isNan (v : Num) (q : ℚ) : (v + .fin q).isNan = v.isNan := by cases v <;> rfl

theorem move_lt (v m : Num) (q : ℚ) : (v + .fin q).lt (m + .fin q) = v.lt m := by
  cases v <;> cases m <;> try rfl
  rename_i a b
  simp only [Num.fin_add, Num.lt]
  rw [Bool.eq_iff_iff, decide_eq_true_eq, decide_eq_true_eq]
  constructor <;> intro h <;> linarith

theorem npMin_move (q : ℚ) : ∀ (l : List Num) (a : Num),
    npMin (a + .fin q) (l.map (· + .fin q)) = npMin a l + .fin q
  | [], _ => rfl
  | b :: l, a => by
    have e : (if (a + .fin q).isNan then Num.nan else if (b + .fin q).isNan then .nan
          else if (b + .fin q).lt (a + .fin q) then b + .fin q else a + .fin q) =
        (if a.isNan then Num.nan else if b.isNan then .nan else if b.lt a then b else a) + .fin q := by
      rw [move_isNan, move_isNan, move_lt]
      split
      · rfl
      · split
        · rfl
        · split <;> rfl
    rw [List.map_cons, npMin, npMin, e, npMin_move q l]

theorem normX_move (tr : List Num → List Num) (q : ℚ) (l : List Num) :
    normX tr (l.map (· + .fin q)) = normX tr l := by
  cases l with
  | nil => rfl
  | cons a l =>
    rw [List.map_cons, normX, normX, npMin_move]
    congr 1
    rw [List.map_cons, List.map_cons, List.map_map, move_sub]
    congr 1
    apply List.map_congr_left
    intro v _
    simp only [Function.comp, move_sub]

/-- The order of `mergeSort` in `bounds`. -/
private abbrev srt (l : List ℚ) : List ℚ := l.mergeSort (fun a b => decide (a ≤ b))

private theorem srt_sorted (l : List ℚ) : (srt l).Pairwise (· ≤ ·) := by
  have := List.pairwise_mergeSort (le := fun a b : ℚ => decide (a ≤ b))
    (by intro a b c h1 h2; simp only [decide_eq_true_eq] at *; exact le_trans h1 h2)
    (by intro a b; simp only [Bool.or_eq_true, decide_eq_true_eq]; exact le_total a b) l
  exact this.imp (by intro a b h; simpa using h)

private theorem srt_map (f : ℚ → ℚ) (hf : Monotone f) (l : List ℚ) : srt (l.map f) = (srt l).map f := by
  apply List.Perm.eq_of_pairwise (le := fun a b : ℚ => a ≤ b)
  · intro a b _ _ h1 h2; exact le_antisymm h1 h2
  · exact srt_sorted _
  · rw [List.pairwise_map]
    exact (srt_sorted l).imp fun h => hf h
  · exact (List.mergeSort_perm _ _).trans ((List.mergeSort_perm l _).symm.map f)

theorem bounds_affine (k q : ℚ) (hk : 0 < k) (l : List ℚ) (hl : l ≠ []) :
    bounds (l.map fun v => v * k + q) = ((bounds l).1 * k + q, (bounds l).2 * k + q) := by
  have hm : Monotone fun v : ℚ => v * k + q := by
    intro a b h
    have := mul_le_mul_of_nonneg_right h hk.le
    show a * k + q ≤ b * k + q
    linarith
  have hp : 0 < (srt l).length := by
    rw [List.length_mergeSort]
    exact List.length_pos_iff.2 hl
  have hg : ∀ i, i < (srt l).length →
      ((srt l).map fun v => v * k + q).getD i 0 = (srt l).getD i 0 * k + q := by
    intro i hi
    simp [List.getD_eq_getElem?_getD, List.getElem?_eq_getElem hi]
  have e := srt_map _ hm l
  unfold bounds
  simp only [srt] at e hp hg
  rw [e]
  simp only [median, quartile, List.length_map]
  rw [hg _ (by omega), hg _ (by omega), hg _ (by omega), hg _ (by omega), hg _ (by omega),
    hg _ (by omega)]
  rw [Prod.mk.injEq]
  constructor <;> ring

theorem allFin_exists : ∀ {l : List Num}, (∀ v ∈ l, ∃ q, v = .fin q) →
    ∃ qs : List ℚ, l = qs.map .fin
  | [], _ => ⟨[], rfl⟩
  | v :: l, h => by
    obtain ⟨q, rfl⟩ := h v List.mem_cons_self
    obtain ⟨qs, rfl⟩ := allFin_exists fun w hw => h w (List.mem_cons_of_mem _ hw)
    exact ⟨q :: qs, rfl⟩

theorem boundCol_affine (junk : Num × Num) (k q : ℚ) (hk : 0 < k) (l : List Num)
    (hc : .nan ∈ l ∨ ∀ v ∈ l, ∃ q, v = .fin q) :
    boundCol junk (l.map fun v => v * .fin k + .fin q) =
      (boundCol junk l).map fun v => v * .fin k + .fin q := by
  rcases hc with hc | hc
  · rw [C87_wiped_partial junk l hc,
      C87_wiped_partial junk _ (List.mem_map.2 ⟨.nan, hc, rfl⟩), List.map_map, List.map_map]
    rfl
  · obtain ⟨qs, rfl⟩ := allFin_exists hc
    by_cases hq : qs = []
    · subst hq; rfl
    have e : ((qs.map Num.fin).map fun v => v * .fin k + .fin q) =
        (qs.map fun v => v * k + q).map .fin := by
      rw [List.map_map, List.map_map]; rfl
    obtain ⟨lo, hi, hb, -, h1, -⟩ := C41_clamp junk qs hq
    obtain ⟨lo', hi', hb', -, h2, -⟩ := C41_clamp junk (qs.map fun v => v * k + q) (by simpa using hq)
    rw [bounds_affine k q hk qs hq, hb] at hb'
    cases hb'
    rw [e, h1, h2, List.map_map, List.map_map]
    apply List.map_congr_left
    intro v _
    simp only [Function.comp, Num.fin_mul, Num.fin_add, Num.fin.injEq]
    have hm : Monotone fun v : ℚ => v * k + q := by
      intro a b h
      have := mul_le_mul_of_nonneg_right h hk.le
      show a * k + q ≤ b * k + q
      linarith
    rw [hm.map_max, hm.map_min]

theorem boundCol_move (junk : Num × Num) (q : ℚ) (l : List Num)
    (hc : .nan ∈ l ∨ ∀ v ∈ l, ∃ q, v = .fin q) :
    boundCol junk (l.map (· + .fin q)) = (boundCol junk l).map (· + .fin q) := by
  have h := boundCol_affine junk 1 q one_pos l hc
  have e : ∀ v : Num, v * .fin 1 = v := by
    intro v
    cases v with
    | nan => rfl
    | fin a => simp
    | pinf => change Num.infSign 1 = _; simp [Num.infSign]
    | ninf => change Num.infSign (-1) = _; norm_num [Num.infSign]
  simpa only [e] using h

/-! ### Over the reals -/

theorem meanR_mul (c : ℝ) (l : List ℝ) : meanR (l.map (c * ·)) = c * meanR l := by
  unfold meanR
  rw [List.sum_map_mul_left, List.length_map, List.map_id', mul_div_assoc]

theorem stdR_mul {c : ℝ} (hc : 0 < c) (l : List ℝ) : stdR (l.map (c * ·)) = c * stdR l := by
  unfold stdR
  rw [meanR_mul, List.map_map, List.length_map]
  have e : ((fun v => (v - c * meanR l) ^ 2) ∘ (c * ·)) = fun v => c ^ 2 * (v - meanR l) ^ 2 := by
    funext v
    simp only [Function.comp]
    ring
  rw [e, List.sum_map_mul_left, mul_div_assoc, Real.sqrt_mul (sq_nonneg c), Real.sqrt_sq hc.le]

theorem zscore_mul {c : ℝ} (hc : 0 < c) (l : List ℝ) : zscore (l.map (c * ·)) = zscore l := by
  have hiff : (∃ a, ∀ v ∈ l.map (c * ·), v = a) ↔ ∃ a, ∀ v ∈ l, v = a := by
    constructor
    · rintro ⟨a, h⟩
      refine ⟨a / c, fun v hv => ?_⟩
      have := h _ (List.mem_map_of_mem hv)
      rw [← this]
      field_simp
    · rintro ⟨a, h⟩
      refine ⟨c * a, fun v hv => ?_⟩
      obtain ⟨w, hw, rfl⟩ := List.mem_map.1 hv
      rw [h w hw]
  unfold zscore
  by_cases h : ∃ a, ∀ v ∈ l, v = a
  · rw [if_pos h, if_pos (hiff.2 h), List.map_map]
    rfl
  · rw [if_neg h, if_neg (fun h' => h (hiff.1 h')), List.map_map]
    apply List.map_congr_left
    intro v _
    simp only [Function.comp, meanR_mul, stdR_mul hc, Option.some.injEq]
    rw [← mul_sub, mul_div_mul_left _ _ hc.ne']

end Verif.Prelim
