import Verif.Prelim.Normal
import Mathlib.Algebra.BigOperators.Group.List.Basic
import Mathlib.Algebra.Order.BigOperators.Group.List
/-!
# Lemmas about the normalisation
-/
set_option autoImplicit false
set_option linter.unusedSectionVars false

namespace Verif.Prelim

theorem boxcox_lt {lmbda u v : ℝ} (hu : 0 < u) (huv : u < v) : boxcox lmbda u < boxcox lmbda v := by
  unfold boxcox
  rcases lt_trichotomy lmbda 0 with h | h | h
  · rw [if_neg h.ne, if_neg h.ne]
    have : v ^ lmbda < u ^ lmbda := Real.rpow_lt_rpow_of_neg hu huv h
    exact div_lt_div_of_neg_of_lt h (by linarith)
  · rw [if_pos h, if_pos h]
    exact Real.log_lt_log hu huv
  · rw [if_neg h.ne', if_neg h.ne']
    have : u ^ lmbda < v ^ lmbda := Real.rpow_lt_rpow hu.le huv h
    exact div_lt_div_of_pos_right (by linarith) h

theorem boxcox_lt_iff {lmbda u v : ℝ} (hu : 0 < u) (hv : 0 < v) :
    boxcox lmbda u < boxcox lmbda v ↔ u < v := by
  constructor
  · intro h
    by_contra hn
    rcases (not_lt.1 hn).lt_or_eq with h1 | h1
    · exact absurd h (not_lt.2 (boxcox_lt hv h1).le)
    · rw [h1] at h; exact lt_irrefl _ h
  · exact boxcox_lt hu

theorem boxcox_inj {lmbda u v : ℝ} (hu : 0 < u) (hv : 0 < v)
    (h : boxcox lmbda u = boxcox lmbda v) : u = v := by
  rcases lt_trichotomy u v with h1 | h1 | h1
  · exact absurd h (boxcox_lt hu h1).ne
  · exact h1
  · exact absurd h (boxcox_lt hv h1).ne'

theorem sum_sub_const (l : List ℝ) (a : ℝ) :
    (l.map fun v => v - a).sum = l.sum - l.length * a := by
  induction l with
  | nil => simp
  | cons b l ih => simp only [List.map_cons, List.sum_cons, ih, List.length_cons]; push_cast; ring

theorem sum_div_const (l : List ℝ) (a : ℝ) : (l.map fun v => v / a).sum = l.sum / a := by
  induction l with
  | nil => simp
  | cons b l ih => simp only [List.map_cons, List.sum_cons, ih]; ring

theorem sum_sq_pos {l : List ℝ} {f : ℝ → ℝ} (h : ∃ v ∈ l, f v ≠ 0) :
    0 < (l.map fun v => f v ^ 2).sum := by
  induction l with
  | nil => obtain ⟨v, hv, -⟩ := h; cases hv
  | cons b l ih =>
    rw [List.map_cons, List.sum_cons]
    have h0 : 0 ≤ (l.map fun v => f v ^ 2).sum := by
      apply List.sum_nonneg
      intro x hx
      obtain ⟨v, -, rfl⟩ := List.mem_map.1 hx
      positivity
    obtain ⟨v, hv, hf⟩ := h
    rcases List.mem_cons.1 hv with rfl | hv
    · have : 0 < f v ^ 2 := by positivity
      linarith
    · have := ih ⟨v, hv, hf⟩
      have : 0 ≤ f b ^ 2 := by positivity
      linarith

theorem two_le_of_not_const {l : List ℝ} (h : ¬ ∃ a, ∀ v ∈ l, v = a) : 2 ≤ l.length := by
  rcases l with _ | ⟨a, _ | ⟨b, l⟩⟩
  · exact absurd ⟨0, by simp⟩ h
  · exact absurd ⟨a, by simp⟩ h
  · simp

theorem stdR_pos {l : List ℝ} (h : ¬ ∃ a, ∀ v ∈ l, v = a) : 0 < stdR l := by
  unfold stdR
  apply Real.sqrt_pos.2
  have h2 := two_le_of_not_const h
  have : (2 : ℝ) ≤ l.length := by exact_mod_cast h2
  apply div_pos _ (by linarith)
  apply sum_sq_pos (f := fun v => v - meanR l)
  by_contra hn
  push Not at hn
  exact h ⟨meanR l, fun v hv => sub_eq_zero.1 (hn v hv)⟩

/-- A standardised list has sum zero and the sum of squares `n - 1`. -/
theorem standardised {l : List ℝ} (h : ¬ ∃ a, ∀ v ∈ l, v = a) :
    (l.map fun v => (v - meanR l) / stdR l).sum = 0 ∧
    ((l.map fun v => (v - meanR l) / stdR l).map fun z => z ^ 2).sum = (l.length : ℝ) - 1 := by
  have hs := stdR_pos h
  have h2 := two_le_of_not_const h
  have hn : (2 : ℝ) ≤ l.length := by exact_mod_cast h2
  constructor
  · have := sum_div_const (l.map fun v => v - meanR l) (stdR l)
    rw [List.map_map] at this
    rw [show (fun v => (v - meanR l) / stdR l) = (fun v => v / stdR l) ∘ (fun v => v - meanR l)
      from rfl, this, sum_sub_const]
    unfold meanR
    have : (l.length : ℝ) ≠ 0 := by linarith
    field_simp
    simp
  · rw [List.map_map]
    have e : ((fun z : ℝ => z ^ 2) ∘ fun v => (v - meanR l) / stdR l) =
        (fun w => w / stdR l ^ 2) ∘ (fun v => (v - meanR l) ^ 2) := by
      funext v
      simp only [Function.comp]
      rw [div_pow]
    rw [e, ← List.map_map, sum_div_const]
    have hsq : stdR l ^ 2 = (l.map fun v => (v - meanR l) ^ 2).sum / (l.length - 1) := by
      unfold stdR
      apply Real.sq_sqrt
      apply div_nonneg _ (by linarith)
      apply List.sum_nonneg
      intro x hx
      obtain ⟨v, -, rfl⟩ := List.mem_map.1 hx
      positivity
    have hp : stdR l ^ 2 ≠ 0 := by positivity
    rw [div_eq_iff hp, hsq]
    have : (l.length : ℝ) - 1 ≠ 0 := by linarith
    field_simp

theorem minR_mem {l : List ℝ} (h : l ≠ []) : minR l ∈ l ∧ ∀ v ∈ l, minR l ≤ v := by
  unfold minR
  cases hm : l.min? with
  | none => exact absurd (List.min?_eq_none_iff.1 hm) h
  | some m =>
    have := List.min?_eq_some_iff.1 hm
    exact ⟨this.1, this.2⟩

end Verif.Prelim
