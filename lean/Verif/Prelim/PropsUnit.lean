import Verif.Prelim.UnitLemmas
/-!
# C197: the unit and the zero point of a feature
-/
set_option autoImplicit false
set_option linter.unusedSectionVars false

namespace Verif.Prelim

open Verif (Num)

/-- The full claim: measuring a feature in another unit (`k` of the new ones make an old one) and from
another zero point does not change its normalised values, whatever exponents the optimiser returns. -/
def MeasureFree : Prop :=
  ∀ (lam : List ℝ → ℝ) (col : List ℝ) (k q : ℝ), 0 < k →
    (fitX lam [col.map fun v => v * k + q]).map Fitted.values = (fitX lam [col]).map Fitted.values

/-- **C197** for the zero point: with normalisation on, adding a constant to a feature, another one for
each feature, changes none of the features returned, whether or not outliers are bounded.  (With bounding
the columns have a missing entry or only finite ones: a column with an infinity and no missing entry is
outside the model.) -/
theorem C197_zero_partial (o : Opts) (hn : o.norm = true) (junk : Num × Num)
    (tr : List Num → List Num) (cols : List (List Num)) (zero : Nat → ℚ)
    (hc : o.bound = true → ∀ c ∈ cols, .nan ∈ c ∨ ∀ v ∈ c, ∃ q, v = .fin q) :
    outX o junk tr (cols.mapIdx fun j c => c.map (· + .fin (zero j))) = outX o junk tr cols := by
  have key : ∀ c ∈ cols, ∀ q : ℚ,
      normX tr (if o.bound then boundCol junk (c.map (· + .fin q)) else c.map (· + .fin q)) =
        normX tr (if o.bound then boundCol junk c else c) := by
    intro c hm q
    cases hb : o.bound with
    | false => exact normX_move tr q c
    | true =>
      show normX tr (boundCol junk (c.map (· + .fin q))) = normX tr (boundCol junk c)
      rw [boundCol_move junk q c (hc hb c hm), normX_move]
  have e : ∀ l : List (List Num), outX o junk tr l =
      l.map fun c => normX tr (if o.bound then boundCol junk c else c) := by
    intro l
    unfold outX
    dsimp only
    rw [if_pos hn]
    cases o.bound with
    | false => rfl
    | true => simp
  rw [e, e]
  apply List.ext_getElem?
  intro j
  rw [List.getElem?_map, List.getElem?_mapIdx, List.getElem?_map]
  cases hj : cols[j]? with
  | none => rfl
  | some c =>
    simp only [Option.map_some, Option.some.injEq]
    exact key c (List.mem_of_getElem? hj) _

/-- **C197** for bounding alone: in another unit and from another zero point the bounded column is the
bounded column in that unit and from that zero point. -/
theorem C197_bound_partial (junk : Num × Num) (k q : ℚ) (hk : 0 < k) (col : List Num)
    (hc : .nan ∈ col ∨ ∀ v ∈ col, ∃ q, v = .fin q) :
    boundCol junk (col.map fun v => v * .fin k + .fin q) =
      (boundCol junk col).map fun v => v * .fin k + .fin q :=
  boundCol_affine junk k q hk col hc

-- Temperatures of nine instances in degrees Celsius and Fahrenheit, one of them an outlier.
example : boundCol (0, 0) ((([100, 1, 2, 3, 4, 5, 6, 7, 8] : List ℚ).map Num.fin).map
      fun v => v * .fin (9 / 5) + .fin 32) =
    (boundCol (0, 0) (([100, 1, 2, 3, 4, 5, 6, 7, 8] : List ℚ).map Num.fin)).map
      fun v => v * .fin (9 / 5) + .fin 32 :=
  C197_bound_partial _ _ _ (by norm_num) _
    (Or.inr (by intro v hv; obtain ⟨q, -, rfl⟩ := List.mem_map.1 hv; exact ⟨q, rfl⟩))

-- Celsius and Kelvin for the first feature, the second as it is.
example (tr : List Num → List Num) :
    outX ⟨true, false, 0, 0, true, true⟩ (0, 0) tr
      [[.fin (100 + 273), .fin (20 + 273), .fin (30 + 273)], [.fin 5, .nan, .fin 6]] =
    outX ⟨true, false, 0, 0, true, true⟩ (0, 0) tr
      [[.fin 100, .fin 20, .fin 30], [.fin 5, .nan, .fin 6]] := by
  have h := C197_zero_partial ⟨true, false, 0, 0, true, true⟩ rfl (0, 0) tr
    [[.fin 100, .fin 20, .fin 30], [.fin 5, .nan, .fin 6]] (fun j => if j = 0 then 273 else 0)
    (by
      intro _ c hc
      simp only [List.mem_cons, List.not_mem_nil, or_false] at hc
      rcases hc with rfl | rfl
      · right
        intro v hv
        simp only [List.mem_cons, List.not_mem_nil, or_false] at hv
        rcases hv with rfl | rfl | rfl <;> exact ⟨_, rfl⟩
      · left
        simp)
  have e : Num.nan + Num.fin 0 = .nan := rfl
  simpa [e] using h

private theorem minR_affine (k q : ℝ) (hk : 0 < k) (col : List ℝ) (h : col ≠ []) :
    minR (col.map fun v => v * k + q) = minR col * k + q := by
  obtain ⟨h1, h2⟩ := minR_mem (l := col.map fun v => v * k + q) (by simpa using h)
  obtain ⟨h3, h4⟩ := minR_mem h
  apply le_antisymm
  · exact h2 _ (List.mem_map.2 ⟨_, h3, rfl⟩)
  · obtain ⟨w, hw, e⟩ := List.mem_map.1 h1
    rw [← e]
    have := mul_le_mul_of_nonneg_right (h4 w hw) hk.le
    linarith

private theorem fit_of_linear (lam : List ℝ → ℝ) (col : List ℝ) (c : ℝ) (hc : 0 < c)
    (h : ∀ v ∈ col, boxcox (lam (col.map fun v => v - minR col + 1)) (v - minR col + 1) =
      c * (v - minR col)) :
    (fitCol lam (minR col) 1 col).values = zscore (col.map fun v => v - minR col) := by
  show zscore ((col.map fun v => v - minR col + 1).map _) = _
  rw [← zscore_mul hc (col.map fun v => v - minR col), List.map_map, List.map_map]
  congr 1
  exact List.map_congr_left h

private theorem linear_affine (lam : List ℝ → ℝ) (col : List ℝ) (k q : ℝ) (hk : 0 < k)
    (h : ∀ k q : ℝ, 0 < k → ∃ c : ℝ, 0 < c ∧ ∀ v ∈ (col.map fun v => v * k + q),
      boxcox (lam ((col.map fun v => v * k + q).map fun v => v - minR (col.map fun v => v * k + q) + 1))
        (v - minR (col.map fun v => v * k + q) + 1) =
      c * (v - minR (col.map fun v => v * k + q))) :
    (fitX lam [col.map fun v => v * k + q]).map Fitted.values =
      (fitX lam [col]).map Fitted.values := by
  simp only [fitX, List.map_cons, List.map_nil, List.cons.injEq, and_true]
  by_cases hne : col = []
  · subst hne
    simp [fitCol, zscore]
  obtain ⟨c1, h1, h2⟩ := h k q hk
  have h3 := h 1 0 one_pos
  have e : (col.map fun v => v * 1 + 0) = col := by simp
  rw [e] at h3
  obtain ⟨c3, h4, h5⟩ := h3
  rw [fit_of_linear lam _ c1 h1 h2, fit_of_linear lam col c3 h4 h5, minR_affine k q hk col hne,
    ← zscore_mul hk (col.map _), List.map_map, List.map_map]
  congr 1
  apply List.map_congr_left
  intro v _
  simp only [Function.comp]
  ring

/-- **C197** for the zero point over the reals: with the same exponent finder the whole fit is the same
except for the recorded minimum. -/
theorem C197_fit_partial (lam : List ℝ → ℝ) (cols : List (List ℝ)) (hne : ∀ c ∈ cols, c ≠ [])
    (zero : Nat → ℝ) (j : Nat) (f g : Fitted)
    (hf : (fitX lam cols)[j]? = some f)
    (hg : (fitX lam (cols.mapIdx fun j c => c.map (· + zero j)))[j]? = some g) :
    g = { f with min := f.min + zero j } := by
  rw [fitX, List.getElem?_map] at hf hg
  rw [List.getElem?_mapIdx] at hg
  cases hj : cols[j]? with
  | none => rw [hj] at hf; cases hf
  | some col =>
    rw [hj] at hf hg
    simp only [Option.map_some, Option.some.injEq] at hf hg
    have hm := minR_affine 1 (zero j) one_pos col (hne col (List.mem_of_getElem? hj))
    simp only [mul_one] at hm
    have e : ((col.map (· + zero j)).map fun v => v - minR (col.map (· + zero j)) + 1) =
        col.map fun v => v - minR col + 1 := by
      rw [List.map_map, hm]
      apply List.map_congr_left
      intro v _
      simp only [Function.comp]
      ring
    subst hf hg
    unfold fitCol
    dsimp only
    rw [e, hm]

/-- **C197** for the unit, when the exponents are all 1 (no power transformation is needed). -/
theorem C197_linear_partial (lam : List ℝ → ℝ) (hlam : ∀ l, lam l = 1) (col : List ℝ) (k q : ℝ)
    (hk : 0 < k) :
    (fitX lam [col.map fun v => v * k + q]).map Fitted.values =
      (fitX lam [col]).map Fitted.values := by
  apply linear_affine lam col k q hk
  intro k q _
  refine ⟨1, one_pos, fun v _ => ?_⟩
  rw [hlam, boxcox, if_neg one_ne_zero, Real.rpow_one]
  ring

/-- **C197** for the unit, for a feature with (at most) two values, whatever exponents the optimiser
returns. -/
theorem C197_two_partial (lam : List ℝ → ℝ) (a b : ℝ) (hab : a < b) (col : List ℝ)
    (hcol : ∀ v ∈ col, v = a ∨ v = b) (k q : ℝ) (hk : 0 < k) :
    (fitX lam [col.map fun v => v * k + q]).map Fitted.values =
      (fitX lam [col]).map Fitted.values := by
  apply linear_affine lam col k q hk
  clear hk k q
  intro k q hk
  by_cases hne : col = []
  · exact ⟨1, one_pos, by simp [hne]⟩
  set c' := col.map fun v => v * k + q with hc'
  set l := lam (c'.map fun v => v - minR c' + 1)
  obtain ⟨h1, h2⟩ := minR_mem (l := c') (by simpa [hc'] using hne)
  have hd : 0 < (b - a) * k := mul_pos (by linarith) hk
  have hp : 0 < boxcox l ((b - a) * k + 1) := by
    have h := boxcox_lt (lmbda := l) one_pos (show (1 : ℝ) < (b - a) * k + 1 by linarith)
    have h0 : boxcox l 1 = 0 := by
      unfold boxcox
      split <;> simp
    rwa [h0] at h
  refine ⟨boxcox l ((b - a) * k + 1) / ((b - a) * k), div_pos hp hd, fun v hv => ?_⟩
  have hv2 : ∀ w ∈ c', w = a * k + q ∨ w = b * k + q := by
    intro w hw
    obtain ⟨u, hu, rfl⟩ := List.mem_map.1 hw
    rcases hcol u hu with rfl | rfl
    · exact Or.inl rfl
    · exact Or.inr rfl
  have hle := h2 v hv
  have hdiff : v - minR c' = 0 ∨ v - minR c' = (b - a) * k := by
    rcases hv2 v hv with e1 | e1 <;> rcases hv2 _ h1 with e2 | e2
    · left; rw [e1, e2]; ring
    · exfalso; rw [e1, e2] at hle; linarith
    · right; rw [e1, e2]; ring
    · left; rw [e1, e2]; ring
  rcases hdiff with e | e
  · rw [e, mul_zero, zero_add]
    unfold boxcox
    split <;> simp
  · rw [e, div_mul_cancel₀ _ hd.ne']

-- A yes/no feature coded as 0 and 1, or as 2 and 4.
example (lam : List ℝ → ℝ) :
    (fitX lam [([0, 1, 1, 0] : List ℝ).map fun v => v * 2 + 2]).map Fitted.values =
      (fitX lam [[0, 1, 1, 0]]).map Fitted.values :=
  C197_two_partial lam 0 1 one_pos _ (by simp) 2 2 (by norm_num)

-- Kilometres and metres, with the exponent 1.
example : (fitX (fun _ => 1) [([3, 1, 2] : List ℝ).map fun v => v * 1000 + 0]).map Fitted.values =
      (fitX (fun _ => 1) [[3, 1, 2]]).map Fitted.values :=
  C197_linear_partial _ (fun _ => rfl) _ _ _ (by norm_num)

-- Celsius and Kelvin: only the recorded minimum differs.
example (lam : List ℝ → ℝ) (f g : Fitted) (hf : (fitX lam [[3, 1, 2]])[0]? = some f)
    (hg : (fitX lam [[3 + 273, 1 + 273, 2 + 273]])[0]? = some g) :
    g = { f with min := f.min + 273 } :=
  C197_fit_partial lam [[3, 1, 2]] (by simp) (fun _ => 273) 0 f g hf hg

/-- **C197** is false for the unit: with the exponent -1 the values 0, 1, 2 and the same ones in half the
unit, 0, 2, 4, do not get the same normalised values.  (1 is added to the shifted values before the power
is taken, so the unit of a feature matters.) -/
theorem C197_refuted : ¬ MeasureFree := by
  intro h
  have h1 := h (fun _ => -1) [0, 1, 2] 2 0 (by norm_num)
  have bc : ∀ w : ℝ, 0 < w → boxcox (-1) w = 1 - 1 / w := by
    intro w hw
    unfold boxcox
    rw [if_neg (by norm_num), Real.rpow_neg_one]
    field_simp
    ring
  have m1 : minR ([0, 1, 2] : List ℝ) = 0 := by
    obtain ⟨h3, h4⟩ := minR_mem (l := ([0, 1, 2] : List ℝ)) (by simp)
    apply le_antisymm (h4 0 (by simp))
    simp only [List.mem_cons, List.not_mem_nil, or_false] at h3
    rcases h3 with e | e | e <;> rw [e] <;> norm_num
  have m2 : minR ([0, 2, 4] : List ℝ) = 0 := by
    obtain ⟨h3, h4⟩ := minR_mem (l := ([0, 2, 4] : List ℝ)) (by simp)
    apply le_antisymm (h4 0 (by simp))
    simp only [List.mem_cons, List.not_mem_nil, or_false] at h3
    rcases h3 with e | e | e <;> rw [e] <;> norm_num
  have e0 : (([0, 1, 2] : List ℝ).map fun v => v * 2 + 0) = [0, 2, 4] := by norm_num
  rw [e0] at h1
  simp only [fitX, List.map_cons, List.map_nil, List.cons.injEq, and_true, m1, m2] at h1
  have t1 : (fitCol (fun _ => -1) 0 1 [0, 1, 2]).values = zscore [0, 1 / 2, 2 / 3] := by
    show zscore _ = _
    simp only [List.map_cons, List.map_nil]
    rw [bc _ (by norm_num), bc _ (by norm_num), bc _ (by norm_num)]
    norm_num
  have t2 : (fitCol (fun _ => -1) 0 1 [0, 2, 4]).values = zscore [0, 2 / 3, 4 / 5] := by
    show zscore _ = _
    simp only [List.map_cons, List.map_nil]
    rw [bc _ (by norm_num), bc _ (by norm_num), bc _ (by norm_num)]
    norm_num
  rw [t1, t2] at h1
  have n1 : ¬ ∃ a, ∀ v ∈ ([0, 1 / 2, 2 / 3] : List ℝ), v = a := by
    rintro ⟨a, ha⟩
    have u1 := ha 0 (by simp)
    have u2 := ha (1 / 2) (by simp)
    linarith
  have n2 : ¬ ∃ a, ∀ v ∈ ([0, 2 / 3, 4 / 5] : List ℝ), v = a := by
    rintro ⟨a, ha⟩
    have u1 := ha 0 (by simp)
    have u2 := ha (2 / 3) (by simp)
    linarith
  have p1 := stdR_pos n1
  have p2 := stdR_pos n2
  unfold zscore at h1
  rw [if_neg n1, if_neg n2] at h1
  simp only [List.map_cons, List.map_nil, List.cons.injEq, Option.some.injEq, and_true] at h1
  obtain ⟨q0, q1, q2⟩ := h1
  generalize stdR [0, 2 / 3, 4 / 5] = s2 at *
  generalize stdR [0, 1 / 2, 2 / 3] = s1 at *
  generalize meanR _ = a2 at *
  generalize meanR _ = a1 at *
  have r1 : (2 / 3) / s2 = (1 / 2) / s1 := by
    have : (2 / 3 - a2) / s2 - (0 - a2) / s2 = (1 / 2 - a1) / s1 - (0 - a1) / s1 := by rw [q0, q1]
    rw [← sub_div, ← sub_div] at this
    convert this using 2 <;> ring
  have r2 : (4 / 5) / s2 = (2 / 3) / s1 := by
    have : (4 / 5 - a2) / s2 - (0 - a2) / s2 = (2 / 3 - a1) / s1 - (0 - a1) / s1 := by rw [q0, q2]
    rw [← sub_div, ← sub_div] at this
    convert this using 2 <;> ring
  rw [div_eq_div_iff p2.ne' p1.ne'] at r1 r2
  linarith

end Verif.Prelim
