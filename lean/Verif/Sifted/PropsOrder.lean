import Verif.Sifted.PropsCorrelation
/-!
# Orders and thresholds in the selection by correlation (C158, C159)
-/
set_option autoImplicit false
set_option linter.unusedSectionVars false

namespace Verif.Sifted

open Verif (Num)

/-- The list in another order: entry `t` of the result is entry `order[t]` of the list. -/
def inOrder {α : Type} (order : List Nat) (l : List α) : List α := order.filterMap fun i => l[i]?

theorem range_filterMap {α : Type} (l : List α) :
    (List.range l.length).filterMap (fun i => l[i]?) = l := by
  induction l with
  | nil => rfl
  | cons a l ih =>
    rw [List.length_cons, List.range_succ_eq_map, List.filterMap_cons, List.filterMap_map]
    simp only [List.getElem?_cons_zero]
    exact congrArg _ ih

theorem inOrder_perm {α : Type} {order : List Nat} {l : List α}
    (ho : order.Perm (List.range l.length)) : (inOrder order l).Perm l := by
  have := ho.filterMap fun i => l[i]?
  rw [range_filterMap] at this
  exact this

theorem inOrder_get {α : Type} {l : List α} : ∀ {order : List Nat}, (∀ i ∈ order, i < l.length) →
    ∀ {t i : Nat}, order[t]? = some i → (inOrder order l)[t]? = l[i]?
  | [], _, t, i, h => by simp at h
  | a :: order, hm, t, i, h => by
    unfold inOrder
    rw [List.filterMap_cons, List.getElem?_eq_getElem (hm a (by simp))]
    cases t with
    | zero =>
      simp only [List.getElem?_cons_zero, Option.some.injEq] at h
      subst h
      simp [List.getElem?_eq_getElem (hm a (by simp))]
    | succ t =>
      exact inOrder_get (fun i hi => hm i (by simp [hi])) (by simpa using h)

theorem inOrder_zip {α β : Type} {x : List α} {y : List β} : ∀ {order : List Nat},
    (∀ i ∈ order, i < x.length) → (∀ i ∈ order, i < y.length) →
    (inOrder order x).zip (inOrder order y) = inOrder order (x.zip y)
  | [], _, _ => rfl
  | a :: order, hx, hy => by
    have ih := inOrder_zip (x := x) (y := y) (order := order) (fun i hi => hx i (by simp [hi]))
      (fun i hi => hy i (by simp [hi]))
    have ha := hx a (by simp)
    have hb := hy a (by simp)
    unfold inOrder at ih ⊢
    simp only [List.filterMap_cons, List.getElem?_eq_getElem ha, List.getElem?_eq_getElem hb,
      List.getElem?_eq_getElem (show a < (x.zip y).length by simp; omega), List.zip_cons_cons,
      List.getElem_zip]
    rw [ih]

theorem validPairs_order {x y : List Num} {order : List Nat} (hl : x.length = y.length)
    (ho : order.Perm (List.range x.length)) :
    (validPairs (inOrder order x) (inOrder order y)).Perm (validPairs x y) := by
  have hm : ∀ i ∈ order, i < x.length := fun i hi => List.mem_range.1 (ho.mem_iff.1 hi)
  unfold validPairs
  rw [inOrder_zip hm (fun i hi => hl ▸ hm i hi)]
  apply List.Perm.filter
  apply inOrder_perm
  rw [List.length_zip, ← hl, Nat.min_self]
  exact ho

/-- Pearson's correlation does not see the order of the pairs. -/
def Blind (pearson : List (Num × Num) → Num × Num) : Prop :=
  ∀ P Q : List (Num × Num), P.Perm Q → pearson P = pearson Q

/-- **C158, instances.**  Listing the instances in another order gives the same correlations and the same
features, or the same exception. -/
theorem C158_instances_partial (argsort : List Num → List Nat)
    (pearson : List (Num × Num) → Num × Num) (hb : Blind pearson) (xs ys : List (List Num)) (thr : Num)
    (N : Nat) (hx : ∀ x ∈ xs, x.length = N) (hy : ∀ y ∈ ys, y.length = N) (order : List Nat)
    (ho : order.Perm (List.range N)) :
    selectFeatures argsort pearson (xs.map (inOrder order)) (ys.map (inOrder order)) thr =
      selectFeatures argsort pearson xs ys thr := by
  have key : ∀ x ∈ xs, ∀ y ∈ ys,
      (validPairs (inOrder order x) (inOrder order y)).Perm (validPairs x y) :=
    fun x hx' y hy' => validPairs_order (by rw [hx x hx', hy y hy']) (by rw [hx x hx']; exact ho)
  have hc : correlation pearson (xs.map (inOrder order)) (ys.map (inOrder order)) =
      correlation pearson xs ys := by
    unfold correlation
    have h1 : ((xs.map (inOrder order)).any fun x => (ys.map (inOrder order)).any fun y =>
        (validPairs x y).length == 1) = (xs.any fun x => ys.any fun y => (validPairs x y).length == 1) := by
      rw [List.any_map, Bool.eq_iff_iff, List.any_eq_true, List.any_eq_true]
      constructor
      · rintro ⟨x, hx', h⟩
        refine ⟨x, hx', ?_⟩
        simp only [Function.comp_apply, List.any_map, List.any_eq_true] at h ⊢
        obtain ⟨y, hy', h⟩ := h
        refine ⟨y, hy', ?_⟩
        rw [← (key x hx' y hy').length_eq]
        exact h
      · rintro ⟨x, hx', h⟩
        refine ⟨x, hx', ?_⟩
        simp only [Function.comp_apply, List.any_map, List.any_eq_true] at h ⊢
        obtain ⟨y, hy', h⟩ := h
        refine ⟨y, hy', ?_⟩
        rw [(key x hx' y hy').length_eq]
        exact h
    rw [h1]
    congr 2
    rw [List.map_map]
    apply List.map_congr_left
    intro x hx'
    simp only [Function.comp_apply]
    rw [List.map_map]
    apply List.map_congr_left
    intro y hy'
    simp only [Function.comp_apply]
    have hp := key x hx' y hy'
    rw [hb _ _ hp]
    have he : (validPairs (inOrder order x) (inOrder order y)).isEmpty = (validPairs x y).isEmpty := by
      rw [Bool.eq_iff_iff, List.isEmpty_iff_length_eq_zero, List.isEmpty_iff_length_eq_zero,
        hp.length_eq]
    rw [he]
  unfold selectFeatures
  rw [hc, List.length_map, List.length_map]

/-- The number of present pairs does not see their order. -/
example : Blind (fun P => (.fin P.length, .fin (1 / 100))) ∧ [2, 0, 1].Perm (List.range 3) ∧
    (selectFeatures argsortRef (fun P => (.fin P.length, .fin (1 / 100)))
      [[.fin 5, .fin 1, .fin 4], [.fin 1, .nan, .fin 4]] [[.fin 1, .fin 2, .fin 4]]
      (.fin (1 / 2))).toOption.isSome = true :=
  ⟨fun P Q h => by simp only [h.length_eq], by decide, by decide +kernel⟩

theorem significant_get (corr : List (List (Num × Num))) (order : List Nat) :
    significant (corr.map (inOrder order)) = (significant corr).map (inOrder order) := by
  unfold significant
  rw [List.map_map, List.map_map]
  apply List.map_congr_left
  intro r _
  simp only [Function.comp_apply, inOrder, List.map_filterMap, List.getElem?_map]

theorem selected_columns {argsort : List Num → List Nat} {rho : List (List Num)} {thr : Num} {n m : Nat}
    (hr : ∀ r ∈ rho, r.length = m) {order : List Nat} (ho : order.Perm (List.range m)) :
    selectByPerformance argsort (rho.map (inOrder order)) thr n m =
      selectByPerformance argsort rho thr n m := by
  have hm : ∀ i ∈ order, i < m := fun i hi => List.mem_range.1 (ho.mem_iff.1 hi)
  have hlen : order.length = m := by rw [ho.length_eq, List.length_range]
  have hget : ∀ t j, order[t]? = some j → ∀ r ∈ rho,
      (inOrder order r).getD t .nan = r.getD j .nan := by
    intro t j h r hr'
    rw [List.getD_eq_getElem?_getD, List.getD_eq_getElem?_getD,
      inOrder_get (fun i hi => by rw [hr r hr']; exact hm i hi) h]
  have hcol : ∀ t j, order[t]? = some j →
      negAbsColumn (rho.map (inOrder order)) t = negAbsColumn rho j := by
    intro t j h
    unfold negAbsColumn
    rw [List.map_map]
    apply List.map_congr_left
    intro r hr'
    simp only [Function.comp_apply]
    rw [hget t j h r hr']
  have hent : ∀ i t j, order[t]? = some j →
      entry (rho.map (inOrder order)) i t = entry rho i j := by
    intro i t j h
    unfold entry
    rw [List.getD_eq_getElem?_getD (l := rho), List.getD_eq_getElem?_getD (l := rho.map _),
      List.getElem?_map]
    cases hi : rho[i]? with
    | none => simp
    | some r => exact hget t j h r (List.mem_of_getElem? hi)
  have hrank : ∀ i t j, order[t]? = some j →
      ranked argsort (rho.map (inOrder order)) i t = ranked argsort rho i j := by
    intro i t j h
    unfold ranked
    rw [hcol t j h]
  have hto : ∀ t, t < m → ∃ j, j < m ∧ order[t]? = some j := by
    intro t ht
    exact ⟨order[t], hm _ (List.getElem_mem _), List.getElem?_eq_getElem (by omega)⟩
  have hfrom : ∀ j, j < m → ∃ t, t < m ∧ order[t]? = some j := by
    intro j hj
    obtain ⟨t, ht⟩ := List.mem_iff_getElem?.1 (ho.mem_iff.2 (List.mem_range.2 hj))
    exact ⟨t, by rw [← hlen]; exact (List.getElem?_eq_some_iff.1 ht).1, ht⟩
  apply List.Perm.eq_of_pairwise (le := (· < ·))
  · intro a b _ _ h1 h2
    omega
  · exact selectByPerformance_sorted ..
  · exact selectByPerformance_sorted ..
  · apply (List.perm_ext_iff_of_nodup _ _).2
    · intro f
      rw [mem_selectByPerformance, mem_selectByPerformance]
      apply and_congr_right
      intro _
      apply or_congr
      · constructor
        · rintro ⟨t, ht, h⟩
          obtain ⟨j, hj, e⟩ := hto t ht
          exact ⟨j, hj, by rw [← hrank 0 t j e]; exact h⟩
        · rintro ⟨j, hj, h⟩
          obtain ⟨t, ht, e⟩ := hfrom j hj
          exact ⟨t, ht, by rw [hrank 0 t j e]; exact h⟩
      · constructor
        · rintro ⟨i, hi, t, ht, h1, h2⟩
          obtain ⟨j, hj, e⟩ := hto t ht
          exact ⟨i, hi, j, hj, by rw [← hent i t j e]; exact h1, by rw [← hrank i t j e]; exact h2⟩
        · rintro ⟨i, hi, j, hj, h1, h2⟩
          obtain ⟨t, ht, e⟩ := hfrom j hj
          exact ⟨i, hi, t, ht, by rw [hent i t j e]; exact h1, by rw [hrank i t j e]; exact h2⟩
    · exact (selectByPerformance_sorted ..).imp fun h => Nat.ne_of_lt h
    · exact (selectByPerformance_sorted ..).imp fun h => Nat.ne_of_lt h

theorem inOrder_map {α β : Type} (f : α → β) (order : List Nat) (l : List α) :
    (inOrder order l).map f = inOrder order (l.map f) := by
  unfold inOrder
  rw [List.map_filterMap]
  apply List.filterMap_congr
  intro i _
  rw [List.getElem?_map]

/-- **C158, algorithms.**  Listing the algorithms in another order rearranges the columns of the
correlations and of the p-values alike and selects the same features; an exception stays an exception. -/
theorem C158_algorithms_partial (argsort : List Num → List Nat)
    (pearson : List (Num × Num) → Num × Num) (xs ys : List (List Num)) (thr : Num)
    (order : List Nat) (ho : order.Perm (List.range ys.length)) :
    (∀ e, selectFeatures argsort pearson xs ys thr = .error e →
      selectFeatures argsort pearson xs (inOrder order ys) thr = .error e) ∧
    ∀ out, selectFeatures argsort pearson xs ys thr = .ok out →
      selectFeatures argsort pearson xs (inOrder order ys) thr = .ok {
        rho := out.rho.map (inOrder order)
        pval := out.pval.map (inOrder order)
        selvars := out.selvars } := by
  have hp := inOrder_perm ho
  have hany : (xs.any fun x => (inOrder order ys).any fun y => (validPairs x y).length == 1) =
      xs.any fun x => ys.any fun y => (validPairs x y).length == 1 := by
    congr 1
    funext x
    exact hp.any_eq
  constructor
  · intro e h
    unfold selectFeatures at h ⊢
    cases hc : correlation pearson xs ys with
    | ok corr => rw [hc] at h; cases h
    | error e' =>
      rw [hc] at h
      have : correlation pearson xs (inOrder order ys) = .error e' := by
        unfold correlation at hc ⊢
        rw [hany]
        split at hc
        · next h => rw [if_pos h]; exact hc
        · cases hc
      rw [this]
      exact h
  · intro out h
    obtain ⟨corr, hc, rfl⟩ := selectFeatures_ok h
    obtain ⟨he, hne⟩ := correlation_ok hc
    have hc' : correlation pearson xs (inOrder order ys) = .ok (corr.map (inOrder order)) := by
      unfold correlation
      rw [hany, if_neg]
      · rw [he, List.map_map]
        congr 1
        apply List.map_congr_left
        intro x _
        exact inOrder_map _ _ _
      · rw [List.any_eq_true]
        rintro ⟨x, hx, h⟩
        obtain ⟨y, hy, h⟩ := List.any_eq_true.1 h
        exact hne x hx y hy (by simpa using h)
    unfold selectFeatures
    rw [hc']
    simp only
    rw [significant_get, hp.length_eq, selected_columns _ ho]
    · congr 2
      rw [List.map_map, List.map_map]
      apply List.map_congr_left
      intro r _
      exact inOrder_map _ _ _
    · intro r hr
      unfold significant at hr
      rw [he, List.map_map] at hr
      obtain ⟨x, _, rfl⟩ := List.mem_map.1 hr
      simp

example : [1, 0].Perm (List.range 2) ∧
    (selectFeatures argsortRef (fun P => (.fin P.length, .fin (1 / 100)))
      [[.fin 5, .fin 1, .fin 4], [.fin 1, .nan, .fin 4]]
      [[.fin 1, .fin 2, .fin 4], [.fin 1, .nan, .fin 4]] (.fin (1 / 2))).toOption.isSome = true :=
  ⟨by decide, by decide +kernel⟩

/-- The property for the features: for correlations `rho` of `n` features (rows), no two of which have the
same absolute value for an algorithm, the features in another order are selected all the same. -/
def FeatureOrderIrrelevant (argsort : List Num → List Nat) : Prop :=
  ∀ (rho : List (List Num)) (thr : ℚ) (n m : Nat) (f : Nat → Nat → ℚ) (order : List Nat),
    Matrix rho n m f → (∀ j g h, |f g j| = |f h j| → g < n → h < n → g = h) →
    order.Perm (List.range n) → ∀ t g : Nat, order[t]? = some g →
    (t ∈ selectByPerformance argsort (inOrder order rho) (.fin thr) n m ↔
      g ∈ selectByPerformance argsort rho (.fin thr) n m)

/-- **C158** is false for the features: with the correlations 9/10, 0, 8/10, 7/10 and threshold 1/2 the third
feature is not selected, but it is when the second one is listed last. -/
theorem C158_refuted : ∃ argsort, Sorts argsort ∧ ¬ FeatureOrderIrrelevant argsort := by
  refine ⟨argsortRef, argsortRef_sorts, ?_⟩
  intro h
  have := (h [[.fin (9 / 10)], [.fin 0], [.fin (8 / 10)], [.fin (7 / 10)]] (1 / 2) 4 1
    (fun i _ => [9 / 10, 0, 8 / 10, 7 / 10].getD i 0) [0, 2, 3, 1] ⟨rfl, ?_⟩ ?_ (by decide) 1 2 rfl).1
    (by decide +kernel)
  · exact absurd this (by decide +kernel)
  · intro i hi
    have : i = 0 ∨ i = 1 ∨ i = 2 ∨ i = 3 := by omega
    rcases this with rfl | rfl | rfl | rfl
    all_goals
      refine ⟨_, rfl, rfl, ?_⟩
      intro j hj
      obtain rfl : j = 0 := by omega
      rfl
  · intro j g k e hg hk
    have h1 : g = 0 ∨ g = 1 ∨ g = 2 ∨ g = 3 := by omega
    have h2 : k = 0 ∨ k = 1 ∨ k = 2 ∨ k = 3 := by omega
    rcases h1 with rfl | rfl | rfl | rfl <;> rcases h2 with rfl | rfl | rfl | rfl <;>
      first | rfl | (exfalso; revert e; norm_num [abs_of_nonneg])

/-- **C159** Raising the threshold never selects a feature that was not selected before; the correlations
are the same. -/
theorem C159_threshold (argsort : List Num → List Nat) (pearson : List (Num × Num) → Num × Num)
    (xs ys : List (List Num)) (thr thr' : ℚ) (hthr : thr ≤ thr') (out : Performance)
    (h : selectFeatures argsort pearson xs ys (.fin thr) = .ok out) :
    ∃ out', selectFeatures argsort pearson xs ys (.fin thr') = .ok out' ∧ out'.rho = out.rho ∧
      out'.pval = out.pval ∧ ∀ g ∈ out'.selvars, g ∈ out.selvars := by
  obtain ⟨corr, hc, rfl⟩ := selectFeatures_ok h
  refine ⟨⟨significant corr, corr.map fun r => r.map (·.2),
    selectByPerformance argsort (significant corr) (.fin thr') xs.length ys.length⟩,
    by unfold selectFeatures; rw [hc], rfl, rfl, ?_⟩
  intro g hg
  simp only [mem_selectByPerformance] at hg ⊢
  refine ⟨hg.1, ?_⟩
  rcases hg.2 with h | ⟨i, hi, j, hj, h1, h2⟩
  · exact .inl h
  · refine .inr ⟨i, hi, j, hj, ?_, h2⟩
    revert h1
    cases entry (significant corr) i j with
    | fin q =>
      intro h1
      have h1 : decide (thr' ≤ q) = true := h1
      show decide (thr ≤ q) = true
      simp only [decide_eq_true_eq] at h1 ⊢
      linarith
    | nan => intro h1; exact absurd h1 (by simp [Num.le])
    | ninf => intro h1; exact absurd h1 (by simp [Num.le])
    | pinf => intro _; rfl

/-- Three features with correlations 9/10, 8/10 and 1/5 (the first value stands for the correlation). -/
example : [1 / 10, 17 / 20].map (fun thr => (selectFeatures argsortRef
      (fun P => ((P.head?.map Prod.fst).getD .nan, .fin 0))
      [[.fin (9 / 10), 1], [.fin (8 / 10), 1], [.fin (1 / 5), 1]] [[1, 2]] (.fin thr)).toOption.map
      (·.selvars)) = [some [0, 1, 2], some [0]] := by decide +kernel

end Verif.Sifted
