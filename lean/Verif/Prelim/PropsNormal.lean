import Verif.Prelim.NormalLemmas
import Verif.Prelim.PropsData
import Mathlib.Tactic.FinCases
/-!
# What normalisation does to a column: C122, C123; the treatment of features as a whole: C41
-/
set_option autoImplicit false
set_option linter.unusedSectionVars false

namespace Verif.Prelim

/-- `zs` is a standardised, order preserving image of `col`: mean 0, sample variance 1. -/
structure Standard (col zs : List ℝ) : Prop where
  length : zs.length = col.length
  mean : zs.sum / zs.length = 0
  variance : (zs.map fun z => z ^ 2).sum / ((zs.length : ℝ) - 1) = 1
  order : ∀ (i k : Nat) (u v a b : ℝ), col[i]? = some u → col[k]? = some v → zs[i]? = some a →
    zs[k]? = some b → (u < v ↔ a < b)

/-- The recorded parameters describe how `zs` was computed from `col`: shift by the minimum, Box-Cox
with the recorded exponent, then subtract the mean and divide by the standard deviation. -/
structure Recorded (f : Fitted) (shift : ℝ) (col zs : List ℝ) : Prop where
  sigma : 0 < f.sigma
  value : ∀ (i : Nat) (u a : ℝ), col[i]? = some u → zs[i]? = some a →
    0 < u - f.min + shift ∧
    (f.lambda = 0 → a = (Real.log (u - f.min + shift) - f.mu) / f.sigma) ∧
    (f.lambda ≠ 0 → a = (((u - f.min + shift) ^ f.lambda - 1) / f.lambda - f.mu) / f.sigma)

theorem fitCol_spec (lam : List ℝ → ℝ) (m shift : ℝ) (col : List ℝ) (hs : 0 < shift)
    (hm : ∀ v ∈ col, m ≤ v) (hc : ¬ ∃ a, ∀ v ∈ col, v = a) :
    (fitCol lam m shift col).min = m ∧
    ∃ zs : List ℝ, (fitCol lam m shift col).values = zs.map some ∧ Standard col zs ∧
      Recorded (fitCol lam m shift col) shift col zs := by
  set aux := col.map fun v => v - m + shift with haux
  set tr := aux.map (boxcox (lam aux)) with htr
  have hpos : ∀ v ∈ col, 0 < v - m + shift := fun v hv => by linarith [hm v hv]
  have htr' : tr = col.map fun v => boxcox (lam aux) (v - m + shift) := by
    rw [htr, haux, List.map_map]; rfl
  have hct : ¬ ∃ a, ∀ v ∈ tr, v = a := by
    rintro ⟨a, ha⟩
    apply hc
    cases hcol : col with
    | nil => exact ⟨0, by simp⟩
    | cons c l =>
      refine ⟨c, fun v hv => ?_⟩
      rw [← hcol] at hv
      have hcm : c ∈ col := by rw [hcol]; simp
      have h1 := ha _ (by rw [htr']; exact List.mem_map.2 ⟨v, hv, rfl⟩)
      have h2 := ha _ (by rw [htr']; exact List.mem_map.2 ⟨c, hcm, rfl⟩)
      have := boxcox_inj (hpos v hv) (hpos c hcm) (h1.trans h2.symm)
      linarith
  have hsig := stdR_pos hct
  obtain ⟨hz0, hz1⟩ := standardised hct
  have hlen : tr.length = col.length := by rw [htr']; simp
  have h2 := two_le_of_not_const hct
  have h2' : (2 : ℝ) ≤ tr.length := by exact_mod_cast h2
  refine ⟨rfl, tr.map fun v => (v - meanR tr) / stdR tr, ?_, ?_, ?_⟩
  · change zscore tr = _
    unfold zscore
    rw [if_neg hct, List.map_map (l := tr)]
    rfl
  · have hget : ∀ (i : Nat) (u a : ℝ), col[i]? = some u →
        (tr.map fun v => (v - meanR tr) / stdR tr)[i]? = some a →
        a = (boxcox (lam aux) (u - m + shift) - meanR tr) / stdR tr := by
      intro i u a h1 h2
      rw [List.getElem?_map, htr', List.getElem?_map, h1] at h2
      simp only [Option.map_some, Option.some.injEq] at h2
      rw [← h2, ← htr']
    refine ⟨by simp [hlen], by rw [hz0]; simp, ?_, ?_⟩
    · rw [hz1, List.length_map (as := tr)]
      exact div_self (by
        have : (0 : ℝ) < tr.length - 1 := by linarith
        exact this.ne')
    · intro i k u v a b hu hv ha hb
      rw [hget i u a hu ha, hget k v b hv hb, div_lt_div_iff_of_pos_right hsig,
        sub_lt_sub_iff_right, boxcox_lt_iff (hpos u (List.mem_of_getElem? hu))
          (hpos v (List.mem_of_getElem? hv))]
      constructor <;> intro h <;> linarith
  · refine ⟨hsig, ?_⟩
    intro i u a hu ha
    have ha' : a = (boxcox (lam aux) (u - m + shift) - meanR tr) / stdR tr := by
      rw [List.getElem?_map, htr', List.getElem?_map, hu] at ha
      simp only [Option.map_some, Option.some.injEq] at ha
      rw [← ha, ← htr']
    refine ⟨hpos u (List.mem_of_getElem? hu), ?_, ?_⟩
    · intro h0
      have h0' : lam aux = 0 := h0
      rw [ha', boxcox, if_pos h0']
      rfl
    · intro h0
      have h0' : lam aux ≠ 0 := h0
      rw [ha', boxcox, if_neg h0']
      rfl

/-- **C122** for features: whatever exponents the optimiser returns, every feature that is not
constant becomes a column of numbers with mean 0 and standard deviation 1 in which all
values keep their order, and the recorded parameters describe the transformation. -/
theorem C122_features (lam : List ℝ → ℝ) (cols : List (List ℝ)) (j : Nat) (col : List ℝ)
    (hj : cols[j]? = some col) (hc : ¬ ∃ a, ∀ v ∈ col, v = a) :
    ∃ f zs, (fitX lam cols)[j]? = some f ∧ f.values = zs.map some ∧
      IsLeast {v | v ∈ col} f.min ∧ Standard col zs ∧ Recorded f 1 col zs := by
  have hne : col ≠ [] := by rintro rfl; exact hc ⟨0, by simp⟩
  obtain ⟨h1, h2⟩ := minR_mem hne
  obtain ⟨hmin, zs, e, hs, hr⟩ := fitCol_spec lam (minR col) 1 col one_pos h2 hc
  refine ⟨_, zs, by rw [fitX, List.getElem?_map, hj]; rfl, e, ?_, hs, hr⟩
  exact ⟨h1, h2⟩

/-- **C122** for performances: the minimum is the one of all columns together. -/
theorem C122_performances (lam : List ℝ → ℝ) (cols : List (List ℝ)) (j : Nat) (col : List ℝ)
    (hj : cols[j]? = some col) (hc : ¬ ∃ a, ∀ v ∈ col, v = a) :
    ∃ f zs, (fitY lam cols)[j]? = some f ∧ f.values = zs.map some ∧
      IsLeast {v | ∃ c ∈ cols, v ∈ c} f.min ∧ Standard col zs ∧ Recorded f (Num.eps : ℚ) col zs := by
  have hmem := List.mem_of_getElem? hj
  have hne : col ≠ [] := by rintro rfl; exact hc ⟨0, by simp⟩
  have hfl : cols.flatten ≠ [] := by
    obtain ⟨a, ha⟩ := List.exists_mem_of_ne_nil _ hne
    exact List.ne_nil_of_mem (List.mem_flatten.2 ⟨col, hmem, ha⟩)
  obtain ⟨h1, h2⟩ := minR_mem hfl
  have heps : (0 : ℝ) < (Num.eps : ℚ) := by exact_mod_cast Num.eps_pos
  obtain ⟨hmin, zs, e, hs, hr⟩ := fitCol_spec lam (minR cols.flatten) (Num.eps : ℚ) col heps
    (fun v hv => h2 v (List.mem_flatten.2 ⟨col, hmem, hv⟩)) hc
  refine ⟨_, zs, by rw [fitY, List.getElem?_map, hj]; rfl, e, ⟨?_, ?_⟩, hs, hr⟩
  · obtain ⟨c, h3, h4⟩ := List.mem_flatten.1 h1
    exact ⟨c, h3, h4⟩
  · rintro v ⟨c, h3, h4⟩
    exact h2 v (List.mem_flatten.2 ⟨c, h3, h4⟩)

/-- Non-vacuity for C122: a feature with three different values. -/
example : ∃ f zs, (fitX (fun _ => 1) [[5, 5], [3, 1, 2]])[1]? = some f ∧
    f.values = zs.map some ∧ IsLeast {v | v ∈ [(3 : ℝ), 1, 2]} f.min ∧ Standard [3, 1, 2] zs ∧
      Recorded f 1 [3, 1, 2] zs := by
  apply C122_features (fun _ => 1) _ 1 _ rfl
  rintro ⟨a, ha⟩
  have h1 := ha 3 (by simp)
  have h2 := ha 1 (by simp)
  linarith

/-! ### C123 -/

/-- The full claim: normalisation turns numbers into numbers. -/
def StaysNumeric : Prop :=
  ∀ (lam : List ℝ → ℝ) (cols : List (List ℝ)), ∀ f ∈ fitX lam cols, none ∉ f.values

/-- **C123** exactly: a normalised feature contains NaN exactly when the feature is constant (and
has an entry), and then all its entries are NaN. -/
theorem C123_exact_partial (lam : List ℝ → ℝ) (cols : List (List ℝ)) (j : Nat) (col : List ℝ)
    (hj : cols[j]? = some col) (hne : col ≠ []) :
    ∃ f, (fitX lam cols)[j]? = some f ∧
      ((∃ a, ∀ v ∈ col, v = a) → f.values = col.map fun _ => none) ∧
      (none ∈ f.values → ∃ a, ∀ v ∈ col, v = a) := by
  refine ⟨_, by rw [fitX, List.getElem?_map, hj]; rfl, ?_, ?_⟩
  · rintro ⟨a, ha⟩
    change zscore _ = _
    unfold zscore
    rw [if_pos]
    · simp only [List.map_map]; rfl
    · refine ⟨boxcox (lam (col.map fun v => v - minR col + 1)) (a - minR col + 1), ?_⟩
      intro v hv
      obtain ⟨w, hw, rfl⟩ := List.mem_map.1 hv
      obtain ⟨u, hu, rfl⟩ := List.mem_map.1 hw
      rw [ha u hu]
  · intro hnone
    by_contra hc
    obtain ⟨-, zs, e, -⟩ := fitCol_spec lam (minR col) 1 col one_pos (minR_mem hne).2 hc
    rw [e] at hnone
    simp at hnone

/-- **C123** is false: a feature that is 7 on both instances becomes NaN. -/
theorem C123_refuted : ¬ StaysNumeric := by
  intro h
  obtain ⟨f, hf, h1, -⟩ := C123_exact_partial (fun _ => 1) [[7, 7]] 0 [7, 7] rfl (by simp)
  have h2 := h1 ⟨7, by simp⟩
  exact h (fun _ => 1) [[7, 7]] f (List.mem_of_getElem? hf) (by rw [h2]; simp)

/-! ### The features returned by PRELIM -/

/-- **C41, C89 for the stage as a whole**, on columns without missing or infinite entries: bounding
clamps to the interval of C41 exactly when the option is set, and normalisation, exactly when
its option is set, works on the bounded values. -/
theorem C41_stage (o : Opts) (junk : Num × Num) (tr : List Num → List Num) (htr : Sensible tr)
    (cols : List (List ℚ)) (hne : ∀ c ∈ cols, c ≠ []) :
    ∃ treated : List ℚ → List ℚ,
      (∀ c ∈ cols, (o.bound = false → treated c = c) ∧
        (o.bound = true → ∃ lo hi, bounds c = (lo, hi) ∧
          treated c = c.map fun v => max lo (min hi v))) ∧
      (o.norm = false → outX o junk tr (cols.map fun c => c.map Num.fin) =
        cols.map fun c => (treated c).map Num.fin) ∧
      (o.norm = true → ∃ low : List ℚ → ℚ, (∀ c ∈ cols, IsMin (low c) (treated c)) ∧
        outX o junk tr (cols.map fun c => c.map Num.fin) =
          cols.map fun c => tr ((treated c).map fun v => .fin (v - low c + 1))) := by
  classical
  let treated : List ℚ → List ℚ := fun c =>
    if o.bound then c.map fun v => max (bounds c).1 (min (bounds c).2 v) else c
  have hb : ∀ c ∈ cols, (if o.bound then boundCol junk (c.map Num.fin) else c.map Num.fin) =
      (treated c).map Num.fin := by
    intro c hc
    simp only [treated]
    cases o.bound with
    | false => simp
    | true =>
      obtain ⟨lo, hi, h1, -, h2, -⟩ := C41_clamp junk c (hne c hc)
      simp only [if_true, h1, h2, List.map_map]
      rfl
  have hout : outX o junk tr (cols.map fun c => c.map Num.fin) =
      (cols.map fun c => (treated c).map Num.fin).map
        (fun c => if o.norm then normX tr c else c) := by
    have : (if o.bound then (cols.map fun c => c.map Num.fin).map (boundCol junk)
        else cols.map fun c => c.map Num.fin) = cols.map fun c => (treated c).map Num.fin := by
      rw [← List.map_congr_left hb]
      cases o.bound <;> simp
    unfold outX
    simp only
    rw [this]
    cases o.norm <;> simp
  have htn : ∀ c ∈ cols, treated c ≠ [] := by
    intro c hc
    simp only [treated]
    cases o.bound <;> simp [hne c hc]
  refine ⟨treated, ?_, ?_, ?_⟩
  · intro c hc
    refine ⟨fun h => by simp [treated, h], fun h =>
      ⟨(bounds c).1, (bounds c).2, rfl, by simp only [treated, h, if_true]⟩⟩
  · intro hn
    rw [hout]
    simp [hn]
  · intro hn
    have hx : ∀ c : List ℚ, ∃ m, c ∈ cols → IsMin m (treated c) ∧
        normX tr ((treated c).map Num.fin) = tr ((treated c).map fun v => .fin (v - m + 1)) := by
      intro c
      by_cases hc : c ∈ cols
      · obtain ⟨m, h1, -, h2⟩ := C89_x tr htr (treated c) (htn c hc)
        exact ⟨m, fun _ => ⟨h1, h2⟩⟩
      · exact ⟨0, fun h => absurd h hc⟩
    choose low hlow using hx
    refine ⟨low, fun c hc => (hlow c hc).1, ?_⟩
    rw [hout, List.map_map]
    apply List.map_congr_left
    intro c hc
    simp only [Function.comp, hn, if_true]
    exact (hlow c hc).2

/-- Non-vacuity: one outlier among nine values is clamped to the upper bound, then everything is
shifted so that the smallest value is 1 (with the identity in place of the transformation). -/
example : outX ⟨true, true, 1, 1, true, true⟩ (0, 0) id
    [[101, 2, 3, 4, 5, 6, 7, 8, 9].map Num.fin] = [[25, 1, 2, 3, 4, 5, 6, 7, 8]] := by
  have hs : ([101, 2, 3, 4, 5, 6, 7, 8, 9] : List ℚ).mergeSort (fun a b => decide (a ≤ b)) =
      [2, 3, 4, 5, 6, 7, 8, 9, 101] := by
    simp (decide := true) [List.mergeSort, List.MergeSort.Internal.splitInTwo, List.merge]
  have hb : bounds [101, 2, 3, 4, 5, 6, 7, 8, 9] = (-14, 26) := by
    unfold bounds
    rw [hs]
    decide +kernel
  obtain ⟨lo, hi, h1, -, h2, -⟩ := C41_clamp (0, 0) [101, 2, 3, 4, 5, 6, 7, 8, 9] (by simp)
  rw [hb] at h1
  cases h1
  unfold outX
  simp only [if_true, List.map_cons, List.map_nil] at h2 ⊢
  rw [h2]
  decide +kernel

end Verif.Prelim
