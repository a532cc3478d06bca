import Verif.Prelim.SpecInfinite
/-!
# C231: normalising tables with infinite values
-/
set_option autoImplicit false
set_option linter.unusedSectionVars false

namespace Verif.Prelim

open Verif (Num)

private theorem npMin_ninf : ∀ (l : List Num) (a : Num), Present (a :: l) → .ninf ∈ a :: l → npMin a l = .ninf := by
  intro l
  induction l with
  | nil =>
    intro a _ h
    exact (List.mem_singleton.1 h).symm
  | cons b l ih =>
    intro a hp h
    have ha := hp a (by simp)
    have hb := hp b (by simp)
    have ha' : a.isNan = false := by cases a <;> simp_all [Num.isNan]
    have hb' : b.isNan = false := by cases b <;> simp_all [Num.isNan]
    rw [npMin, ha', hb']
    simp only [Bool.false_eq_true, if_false]
    apply ih
    · intro v hv
      rcases List.mem_cons.1 hv with rfl | hv
      · split <;> assumption
      · exact hp v (by simp [hv])
    · simp only [List.mem_cons] at h
      rcases h with rfl | rfl | h
      · rw [if_neg (by cases b <;> simp [Num.lt])]
        exact List.mem_cons_self
      · cases a <;> simp_all [Num.lt]
      · exact List.mem_cons_of_mem _ h

private theorem npMin_pinf : ∀ (l : List Num), (∀ v ∈ l, v = .pinf) → npMin .pinf l = .pinf := by
  intro l
  induction l with
  | nil => intro _; rfl
  | cons b l ih =>
    intro h
    obtain rfl := h b (by simp)
    exact ih fun v hv => h v (by simp [hv])

private theorem refill_nan : ∀ (l ts : List Num) (i : Nat), l[i]? = some .nan → (refill l ts)[i]? = some .nan := by
  intro l
  induction l with
  | nil => intro ts i h; cases h
  | cons v l ih =>
    intro ts i h
    unfold refill
    cases i with
    | zero =>
      simp only [List.getElem?_cons_zero, Option.some.injEq] at h
      subst h
      rfl
    | succ i =>
      rw [List.getElem?_cons_succ] at h
      split
      · exact ih _ _ h
      · split <;> exact ih _ _ h

/-- What becomes of a value when the smallest is −∞. -/
private theorem shift_ninf (v q : Num) (hq : ∃ r, q = .fin r) (hv : v ≠ .nan) :
    v - .ninf + q = if v = .ninf then .nan else .pinf := by
  obtain ⟨r, rfl⟩ := hq
  cases v <;> first | exact absurd rfl hv | rfl

private theorem shifted_same {q : Num} (hq : ∃ r, q = .fin r) {c c' : List Num} (h : SameLowest c c') (hp : Present c)
    (hp' : Present c') : (c.map fun v => v - .ninf + q) = c'.map fun v => v - .ninf + q := by
  induction h with
  | nil => rfl
  | @cons v v' c c' hv _ ih =>
    rw [List.map_cons, List.map_cons, ih (fun v h => hp v (by simp [h])) (fun v h => hp' v (by simp [h])),
      shift_ninf v q hq (hp v (by simp)), shift_ninf v' q hq (hp' v' (by simp))]
    simp only [hv]

private theorem one_fin : ∃ r, (1 : Num) = .fin r := ⟨_, rfl⟩

private theorem mem_same {c c' : List Num} (h : SameLowest c c') (hm : .ninf ∈ c) : .ninf ∈ c' := by
  induction h with
  | nil => cases hm
  | cons hv _ ih =>
    rcases List.mem_cons.1 hm with rfl | hm
    · rw [hv.1 rfl]; exact List.mem_cons_self
    · exact List.mem_cons_of_mem _ (ih hm)

/-- **C231 (part), finite features.** If all values of a feature are finite, and the transformation returns a number
for each of the finite numbers it is given, no value is missing after normalising. Missing: infinite values
(`C231_refuted`). -/
theorem C231_finite_partial (tr : List Num → List Num)
    (htr : ∀ l : List ℚ, (tr (l.map Num.fin)).length = l.length ∧ Present (tr (l.map Num.fin))) (col : List ℚ) :
    (normX tr (col.map Num.fin)).length = col.length ∧ Present (normX tr (col.map Num.fin)) := by
  have key : ∀ (l : List ℚ) (ts : List Num), ts.length = l.length → refill (l.map Num.fin) ts = ts := by
    intro l
    induction l with
    | nil => intro ts h; rw [List.length_eq_zero_iff.1 h]; rfl
    | cons a l ih =>
      intro ts h
      cases ts with
      | nil => cases h
      | cons t ts =>
        rw [List.map_cons, refill, if_neg (by simp [Num.isNan])]
        rw [ih ts (by simpa using h)]
  cases col with
  | nil => exact ⟨rfl, fun v h => by cases h⟩
  | cons a l =>
    obtain ⟨m, h1, -⟩ := npMin_fin a l
    have e : ((Num.fin a :: l.map Num.fin).map fun v => v - Num.fin m + 1) =
        ((a :: l).map fun v => v - m + 1).map Num.fin := by
      rw [← List.map_cons, List.map_map, List.map_map]
      apply List.map_congr_left
      intro v _
      change Num.fin (v + -m + ((1 : ℕ) : ℚ)) = Num.fin (v - m + 1)
      rw [sub_eq_add_neg, Nat.cast_one]
    rw [List.map_cons, normX, h1, e, transform]
    rw [show ((((a :: l).map fun v => v - m + 1).map Num.fin).filter fun v => !v.isNan) =
      ((a :: l).map fun v => v - m + 1).map Num.fin from List.filter_eq_self.2 fun v hv => by
        obtain ⟨q, -, rfl⟩ := List.mem_map.1 hv
        rfl]
    obtain ⟨g1, g2⟩ := htr ((a :: l).map fun v => v - m + 1)
    rw [key _ _ g1]
    exact ⟨by rw [g1]; simp, g2⟩

/-- **C231 (part), finite performances.** The same for the performances of all algorithms. Missing: infinite values
(`C231_performances_partial`). -/
theorem C231_finite_performances_partial (tr : List Num → List Num) (htr : Sensible tr) (cols : List (List ℚ)) :
    ∀ c ∈ normY tr (cols.map fun c => c.map Num.fin), Present c := by
  intro c hc
  by_cases h : cols.flatten = []
  · have hf : (cols.map fun c => c.map Num.fin).flatten = [] := by
      rw [← List.map_flatten, h]
      rfl
    unfold normY at hc
    rw [hf] at hc
    dsimp only at hc
    intro v hv
    have : v ∈ (cols.map fun c => c.map Num.fin).flatten := List.mem_flatten.2 ⟨c, hc, hv⟩
    rw [hf] at this
    cases this
  · obtain ⟨m, -, -, -, e⟩ := C89_y tr htr cols h
    rw [e] at hc
    obtain ⟨l, -, rfl⟩ := List.mem_map.1 hc
    intro v hv
    obtain ⟨q, rfl⟩ := (htr _).2 (fun w hw => by
      obtain ⟨u, -, rfl⟩ := List.mem_map.1 hw
      exact ⟨_, rfl⟩) v hv
    simp

/-- **C231, lost.** Whatever the transformation: a feature value of −∞ is missing after normalising, and if all values
are +∞, all are. -/
theorem C231_lost_partial (tr : List Num → List Num) (col : List Num) (hp : Present col) (i : Nat) :
    (col[i]? = some .ninf → (normX tr col)[i]? = some .nan) ∧
    ((∀ v ∈ col, v = .pinf) → i < col.length → (normX tr col)[i]? = some .nan) := by
  cases col with
  | nil => exact ⟨(fun h => by cases h), fun _ h => by cases h⟩
  | cons a l =>
    constructor
    · intro h
      rw [normX, npMin_ninf l a hp (List.mem_of_getElem? h), transform]
      apply refill_nan
      rw [List.getElem?_map, h]
      rfl
    · intro h hi
      have ha : a = .pinf := h a (by simp)
      subst ha
      rw [normX, npMin_pinf l fun v hv => h v (by simp [hv]), transform]
      apply refill_nan
      rw [List.getElem?_map, List.getElem?_eq_getElem hi, h _ (List.getElem_mem hi)]
      rfl

/-- **C231, erased.** One −∞ among the values of a feature erases all others: any two columns with −∞ in the same rows
are the same after normalising. -/
theorem C231_erased_partial (tr : List Num → List Num) (col col' : List Num) (hp : Present col) (hp' : Present col')
    (low : .ninf ∈ col) (same : SameLowest col col') : normX tr col = normX tr col' := by
  have low' := mem_same same low
  cases col with
  | nil => cases low
  | cons a l =>
    cases col' with
    | nil => cases low'
    | cons a' l' =>
      rw [normX, normX, npMin_ninf l a hp low, npMin_ninf l' a' hp' low', shifted_same one_fin same hp hp']

/-- **C231, performances.** One −∞ among the performances, of whichever algorithm, erases the performances of all
algorithms: any two tables with −∞ in the same places are the same after normalising. -/
theorem C231_performances_partial (tr : List Num → List Num) (cols cols' : List (List Num))
    (hp : ∀ c ∈ cols, Present c) (hp' : ∀ c ∈ cols', Present c) (low : ∃ c ∈ cols, .ninf ∈ c)
    (same : List.Forall₂ SameLowest cols cols') : normY tr cols = normY tr cols' := by
  have flat : ∀ {cols : List (List Num)}, (∀ c ∈ cols, Present c) → (∃ c ∈ cols, .ninf ∈ c) →
      ∃ a l, cols.flatten = a :: l ∧ npMin a l = .ninf := by
    intro cols hp ⟨c, hc, hl⟩
    have hm : Num.ninf ∈ cols.flatten := List.mem_flatten.2 ⟨c, hc, hl⟩
    cases e : cols.flatten with
    | nil => rw [e] at hm; cases hm
    | cons a l =>
      refine ⟨a, l, rfl, npMin_ninf l a ?_ (e ▸ hm)⟩
      rw [← e]
      intro v hv
      obtain ⟨c, hc, hv⟩ := List.mem_flatten.1 hv
      exact hp c hc v hv
  have low' : ∃ c ∈ cols', .ninf ∈ c := by
    obtain ⟨c, hc, hl⟩ := low
    clear flat hp hp'
    induction same with
    | nil => cases hc
    | @cons u u' us us' h _ ih =>
      rcases List.mem_cons.1 hc with rfl | hc
      · exact ⟨u', by simp, mem_same h hl⟩
      · obtain ⟨c', h1, h2⟩ := ih hc
        exact ⟨c', by simp [h1], h2⟩
  obtain ⟨a, l, e1, e2⟩ := flat hp low
  obtain ⟨a', l', e1', e2'⟩ := flat hp' low'
  unfold normY
  rw [e1, e1']
  dsimp only
  rw [e2, e2']
  clear flat low low' e1 e2 e1' e2'
  induction same with
  | nil => rfl
  | cons h _ ih =>
    rw [List.map_cons, List.map_cons, ih (fun c h => hp c (by simp [h])) (fun c h => hp' c (by simp [h])),
      shifted_same ⟨_, rfl⟩ h (hp _ (by simp)) (hp' _ (by simp))]

/-- **C231** is false, whatever the transformation: of the values −∞, 3 and 5 of a feature the first is missing
after normalising. -/
theorem C231_refuted (tr : List Num → List Num) : ¬ KeepsPresent tr := by
  intro h
  have := h ⟨true, true, 0, 0, false, true⟩ (0, 0) [[.ninf, 3, 5]] rfl rfl (by unfold Present; decide)
    (normX tr [.ninf, 3, 5]) (by simp [outX])
  exact this .nan (List.mem_of_getElem? ((C231_lost_partial tr [.ninf, 3, 5] (by unfold Present; decide) 0).1 rfl)) rfl

/-! ### Cases -/

-- `C231_finite_partial`: the transformation that halves.
example : (∀ l : List ℚ, ((l.map Num.fin).map fun v => v * .fin (1 / 2)).length = l.length ∧
    Present ((l.map Num.fin).map fun v => v * .fin (1 / 2))) ∧
    normX (fun l => l.map fun v => v * .fin (1 / 2)) [.fin 4, .fin 2, .fin 8] = [.fin (3 / 2), .fin (1 / 2), .fin (7 / 2)] :=
  ⟨fun l => ⟨by simp, fun v hv => by
    obtain ⟨w, hw, rfl⟩ := List.mem_map.1 hv
    obtain ⟨q, -, rfl⟩ := List.mem_map.1 hw
    intro h
    cases h⟩, by decide +kernel⟩

-- `C231_finite_performances_partial`: two algorithms.
example : Sensible id ∧ normY id [[.fin 4, .fin 2], [.fin 1, .fin 8]] =
    [[.fin (3 + Num.eps), .fin (1 + Num.eps)], [.fin Num.eps, .fin (7 + Num.eps)]] :=
  ⟨fun _ => ⟨rfl, fun h => h⟩, by decide +kernel⟩

-- `C231_lost_partial` and `C231_erased_partial`: a column with −∞, and another one.
example : Present [.ninf, .fin 3, .pinf] ∧ Present [.ninf, .fin 70, .fin 2] ∧ .ninf ∈ [Num.ninf, .fin 3, .pinf] ∧
    SameLowest [.ninf, .fin 3, .pinf] [.ninf, .fin 70, .fin 2] ∧ normX id [.ninf, .fin 3, .pinf] = [.nan, .pinf, .pinf] :=
  ⟨by unfold Present; decide, by unfold Present; decide, by decide,
    .cons (by decide) (.cons (by decide) (.cons (by decide) .nil)), by decide +kernel⟩

-- `C231_performances_partial`: the second algorithm has −∞ on one instance, the first on none.
example : (∀ c ∈ [[Num.fin 3, .fin 4], [.ninf, .fin 1]], Present c) ∧
    (∀ c ∈ [[Num.fin 8, .fin 2], [.ninf, .fin 9]], Present c) ∧ (∃ c ∈ [[Num.fin 3, .fin 4], [.ninf, .fin 1]], .ninf ∈ c) ∧
    List.Forall₂ SameLowest [[.fin 3, .fin 4], [.ninf, .fin 1]] [[.fin 8, .fin 2], [.ninf, .fin 9]] ∧
    normY id [[.fin 3, .fin 4], [.ninf, .fin 1]] = [[.pinf, .pinf], [.nan, .pinf]] :=
  ⟨by unfold Present; decide, by unfold Present; decide, ⟨[.ninf, .fin 1], by simp, by decide⟩,
    .cons (.cons (by decide) (.cons (by decide) .nil)) (.cons (.cons (by decide) (.cons (by decide) .nil)) .nil),
    by decide +kernel⟩

end Verif.Prelim
