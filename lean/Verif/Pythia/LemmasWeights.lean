import Verif.Pythia.Lemmas
import Verif.Pythia.Znorm
/-!
# Lemmas on PYTHIA's weights, normalisation and hyper-parameters
-/
set_option autoImplicit false
set_option linter.unusedSectionVars false

namespace Verif.Pythia

open Verif (Num)

/-! ### Weights are positive -/

/-- NaN or positive. -/
def Pos (v : Num) : Prop := v = .nan ∨ Num.lt 0 v = true

theorem absNum_cases (v : Num) : (absNum v).eq 0 = true ∨ Pos (absNum v) := by
  rcases v with _ | _ | q | _
  · exact .inr (.inl rfl)
  · exact .inr (.inr rfl)
  · unfold absNum
    by_cases h0 : q = 0
    · subst h0
      exact .inl (by decide +kernel)
    · refine .inr (.inr ?_)
      change decide ((0 : ℚ) < _) = true
      rw [decide_eq_true_eq]
      split
      · linarith
      · rename_i h
        exact lt_of_le_of_ne (not_lt.1 h) (Ne.symm h0)
  · exact .inr (.inr rfl)

theorem minOf_pos : ∀ (l : List Num) (a : Num), Pos a → (∀ v ∈ l, Pos v) → Pos (minOf a l)
  | [], _, ha, _ => ha
  | b :: l, a, ha, hl => by
      unfold minOf
      apply minOf_pos l
      · split
        · exact ha
        · split
          · exact hl b List.mem_cons_self
          · split
            · exact hl b List.mem_cons_self
            · exact ha
      · exact fun v hv => hl v (List.mem_cons_of_mem _ hv)

theorem maxOf_mem : ∀ (l : List Num) (a : Num), maxOf a l ∈ a :: l
  | [], a => by simp [maxOf]
  | b :: l, a => by
      unfold maxOf
      rcases List.mem_cons.1 (maxOf_mem l (if a.lt b then b else a)) with h | h
      · rw [h]
        split <;> simp
      · exact List.mem_cons_of_mem _ (List.mem_cons_of_mem _ h)

theorem weights_pos {y w : List Num} (h : weights y = .ok w) :
    w.length = y.length ∧ ∀ v ∈ w, v ≠ .nan ∧ Num.lt 0 v = true := by
  unfold weights at h
  simp only at h
  split at h
  · cases h
  rename_i a l e
  split at h
  · cases h
  rename_i b k e'
  injection h with h
  subst h
  refine ⟨by simp, ?_⟩
  have hlow : Pos (minOf a l) := by
    have hmem : ∀ v ∈ a :: l, Pos v := by
      rw [← e]
      intro v hv
      obtain ⟨hv, hne⟩ := List.mem_filter.1 hv
      obtain ⟨u, _, rfl⟩ := List.mem_map.1 hv
      rcases absNum_cases (u - nanmean y) with h | h
      · rw [h] at hne
        cases hne
      · exact h
    exact minOf_pos l a (hmem a List.mem_cons_self) fun v hv => hmem v (List.mem_cons_of_mem _ hv)
  have hall : ∀ v ∈ (y.map fun v => absNum (v - nanmean y)).map
      (fun v => if v.eq 0 then minOf a l else v), Pos v := by
    intro v hv
    obtain ⟨u, hu, rfl⟩ := List.mem_map.1 hv
    split
    · exact hlow
    · rename_i hne
      obtain ⟨x, _, rfl⟩ := List.mem_map.1 hu
      rcases absNum_cases (x - nanmean y) with h | h
      · exact absurd h hne
      · exact h
  have hhigh : maxOf b k ≠ .nan ∧ Num.lt 0 (maxOf b k) = true := by
    have hm := maxOf_mem k b
    rw [← e'] at hm
    obtain ⟨hm, hn⟩ := List.mem_filter.1 hm
    have hne : maxOf b k ≠ .nan := by
      intro h
      rw [h] at hn
      cases hn
    exact ⟨hne, (hall _ hm).resolve_left hne⟩
  intro v hv
  obtain ⟨u, hu, rfl⟩ := List.mem_map.1 hv
  split
  · exact hhigh
  · rename_i hn
    have hne : u ≠ .nan := by
      intro h
      rw [h] at hn
      exact hn rfl
    exact ⟨hne, (hall u hu).resolve_left hne⟩

/-! ### Finite performances -/

theorem foldl_fin : ∀ (l : List ℚ) (a : ℚ), (l.map Num.fin).foldl (· + ·) (Num.fin a) = .fin (a + l.sum)
  | [], a => by simp
  | b :: l, a => by
      rw [List.map_cons, List.foldl_cons, Num.fin_add, foldl_fin l]
      simp [add_assoc]

theorem nanmean_fin {l : List ℚ} (h : l ≠ []) :
    nanmean (l.map Num.fin) = .fin (l.sum / l.length) := by
  unfold nanmean
  have : (l.map Num.fin).filter (fun v => !v.isNan) = l.map Num.fin := by
    apply List.filter_eq_self.2
    intro v hv
    obtain ⟨q, _, rfl⟩ := List.mem_map.1 hv
    rfl
  simp only [this]
  rw [show (0 : Num) = Num.fin ((0 : Nat) : ℚ) from rfl, foldl_fin]
  simp only [List.length_map, Nat.cast_zero, zero_add]
  rw [Num.fin_div]
  simpa using h

theorem absNum_fin (q : ℚ) : absNum (.fin q) = .fin |q| := by
  change Num.fin (if q < 0 then -q else q) = _
  split
  · rename_i h
    rw [abs_of_neg h]
  · rename_i h
    rw [abs_of_nonneg (not_lt.1 h)]

theorem minOf_fin : ∀ (l : List ℚ) (a : ℚ), ∃ r ∈ a :: l, minOf (.fin a) (l.map Num.fin) = .fin r ∧
    ∀ x ∈ a :: l, r ≤ x
  | [], a => ⟨a, by simp, rfl, by simp⟩
  | b :: l, a => by
      rw [List.map_cons]
      unfold minOf
      have e : (if (Num.fin a).isNan = true then Num.fin a else if (Num.fin b).isNan = true then Num.fin b
          else if (Num.fin b).lt (Num.fin a) = true then Num.fin b else Num.fin a) =
          Num.fin (if b < a then b else a) := by
        by_cases h : b < a <;> simp [Num.isNan, Num.lt, h]
      rw [e]
      obtain ⟨r, hr, h1, h2⟩ := minOf_fin l (if b < a then b else a)
      refine ⟨r, ?_, h1, ?_⟩
      · rcases List.mem_cons.1 hr with h | h
        · rw [h]
          split <;> simp
        · simp [h]
      · intro x hx
        have h0 := h2 _ List.mem_cons_self
        rcases List.mem_cons.1 hx with rfl | hx
        · refine le_trans h0 ?_
          split
          · rename_i h; exact le_of_lt h
          · exact le_refl _
        · rcases List.mem_cons.1 hx with rfl | hx
          · refine le_trans h0 ?_
            split
            · exact le_refl _
            · rename_i h; exact not_lt.1 h
          · exact h2 x (List.mem_cons_of_mem _ hx)

theorem eq_zero_fin (q : ℚ) : (Num.fin q).eq 0 = decide (q = 0) := by
  change decide (Num.fin q = Num.fin ((0 : Nat) : ℚ)) = _
  simp

/-- The distances of the performances to their mean. -/
def dists (l : List ℚ) : List ℚ := l.map fun q => |q - l.sum / l.length|

theorem map_dists {l : List ℚ} (h : l ≠ []) :
    (l.map Num.fin).map (fun v => absNum (v - nanmean (l.map Num.fin))) = (dists l).map Num.fin := by
  rw [nanmean_fin h]
  simp only [dists, List.map_map]
  apply List.map_congr_left
  intro q _
  simp [absNum_fin]

theorem filter_fin (l : List ℚ) : (l.map Num.fin).filter (fun v => !v.eq 0) =
    (l.filter fun q => decide (q ≠ 0)).map Num.fin := by
  rw [List.filter_map]
  congr 1
  apply List.filter_congr
  intro q _
  simp [eq_zero_fin]

theorem weights_fin {l : List ℚ} (h : l ≠ []) :
    ((∀ d ∈ dists l, d = 0) ∧ weights (l.map Num.fin) = .error .valueError) ∨
    ∃ low, low ∈ dists l ∧ low ≠ 0 ∧ (∀ d ∈ dists l, d ≠ 0 → low ≤ d) ∧
      weights (l.map Num.fin) = .ok ((dists l).map fun d => .fin (if d = 0 then low else d)) := by
  unfold weights
  simp only
  rw [map_dists h, filter_fin]
  rcases hf : (dists l).filter (fun q => decide (q ≠ 0)) with _ | ⟨a, m⟩
  · refine .inl ⟨?_, rfl⟩
    intro d hd
    by_contra hne
    have : d ∈ (dists l).filter (fun q => decide (q ≠ 0)) := List.mem_filter.2 ⟨hd, by simpa using hne⟩
    rw [hf] at this
    cases this
  · refine .inr ?_
    obtain ⟨low, hlow, e, hmin⟩ := minOf_fin m a
    have hmem := hlow
    rw [← hf] at hmem
    obtain ⟨h1, h2⟩ := List.mem_filter.1 hmem
    refine ⟨low, h1, by simpa using h2, ?_, ?_⟩
    · intro d hd hne
      apply hmin
      rw [← hf]
      exact List.mem_filter.2 ⟨hd, by simpa using hne⟩
    · simp only [List.map_cons]
      rw [e]
      have e2 : ((dists l).map Num.fin).map (fun v => if v.eq 0 = true then Num.fin low else v) =
          (dists l).map fun d => Num.fin (if d = 0 then low else d) := by
        rw [List.map_map]
        apply List.map_congr_left
        intro d _
        simp only [Function.comp, eq_zero_fin, decide_eq_true_eq]
        split <;> rfl
      rw [e2]
      have e3 : ((dists l).map fun d => Num.fin (if d = 0 then low else d)).filter
          (fun v => !v.isNan) = (dists l).map fun d => Num.fin (if d = 0 then low else d) := by
        apply List.filter_eq_self.2
        intro v hv
        obtain ⟨q, _, rfl⟩ := List.mem_map.1 hv
        rfl
      rw [e3]
      rcases hd : (dists l) with _ | ⟨d, ds⟩
      · rw [hd] at h1
        cases h1
      · simp only [List.map_cons]
        congr 1
        simp [Num.isNan]

theorem dists_zero {l : List ℚ} (h : l ≠ []) :
    (∀ d ∈ dists l, d = 0) ↔ ∀ a ∈ l, ∀ b ∈ l, a = b := by
  constructor
  · intro hd a ha b hb
    have h1 := hd _ (List.mem_map.2 ⟨a, ha, rfl⟩)
    have h2 := hd _ (List.mem_map.2 ⟨b, hb, rfl⟩)
    rw [abs_eq_zero, sub_eq_zero] at h1 h2
    rw [h1, h2]
  · intro he d hd
    obtain ⟨a, ha, rfl⟩ := List.mem_map.1 hd
    have : l = List.replicate l.length a := List.eq_replicate_iff.2 ⟨rfl, fun b hb => he b hb a ha⟩
    have hs : l.sum = l.length * a := by
      conv_lhs => rw [this]
      simp
    have hn : (l.length : ℚ) ≠ 0 := by simpa using h
    rw [hs, mul_div_cancel_left₀ _ hn]
    simp

/-! ### The z-score -/

theorem sum_map_sub_div (l : List ℝ) (m s : ℝ) :
    (l.map fun v => (v - m) / s).sum = (l.sum - l.length * m) / s := by
  induction l with
  | nil => simp
  | cons a l ih =>
    simp only [List.map_cons, List.sum_cons, ih, List.length_cons, Nat.cast_add, Nat.cast_one]
    ring

theorem mean_zscore {l : List ℝ} (h : l ≠ []) (s : ℝ) :
    mean (l.map fun v => (v - mean l) / s) = 0 := by
  have hn : (l.length : ℝ) ≠ 0 := by simpa using h
  unfold mean
  rw [sum_map_sub_div, mul_div_cancel₀ _ hn]
  simp

theorem std_ne_zero_ne_nil {l : List ℝ} (h : std l ≠ 0) : l ≠ [] := by
  rintro rfl
  exact h (by simp [std])

theorem std_zscore {l : List ℝ} (h : std l ≠ 0) :
    std (l.map fun v => (v - mean l) / std l) = 1 := by
  have hl := std_ne_zero_ne_nil h
  have hpos : 0 < (l.map fun v => (v - mean l) ^ 2).sum / (l.length - 1 : ℝ) := by
    by_contra hc
    exact h (Real.sqrt_eq_zero_of_nonpos (not_lt.1 hc))
  have hsq : std l ^ 2 = (l.map fun v => (v - mean l) ^ 2).sum / (l.length - 1 : ℝ) :=
    Real.sq_sqrt hpos.le
  have hs2 : std l ^ 2 ≠ 0 := pow_ne_zero 2 h
  unfold std
  rw [mean_zscore hl]
  have e : ((l.map fun v => (v - mean l) / std l).map fun v => (v - 0) ^ 2).sum =
      (l.map fun v => (v - mean l) ^ 2).sum / std l ^ 2 := by
    have : (l.map fun v => (v - mean l) / std l).map (fun v => (v - 0) ^ 2) =
        l.map fun v => (v - mean l) ^ 2 * (1 / std l ^ 2) := by
      rw [List.map_map]
      apply List.map_congr_left
      intro v _
      simp only [Function.comp, sub_zero, div_pow]
      ring
    rw [this, List.sum_map_mul_right]
    ring
  unfold std at e
  rw [e]
  rw [List.length_map]
  have hsq' := hsq
  have hs2' := hs2
  unfold std at hsq' hs2'
  rw [div_right_comm, hsq', div_self (by rw [← hsq']; exact hs2'), Real.sqrt_one]

end Verif.Pythia
