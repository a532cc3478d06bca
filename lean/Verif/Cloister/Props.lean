import Verif.Cloister.LemmasSpec
/-!
# CLOISTER: C54-C57, C92, C93
-/
set_option autoImplicit false
set_option linter.unusedSectionVars false

namespace Verif.Cloister

variable {K : Type} {m : Nat} [Field K] [LinearOrder K]

/-- Row `i` of the candidate boundary is the corner that takes the maximum of feature `j` exactly
when bit `j` of `i` is set; there are `2 ^ m` rows. -/
theorem C54_rows (a : Fin m → K) (l : List (Fin m → K)) :
    (xEdge a l).length = 2 ^ m ∧
    ∀ i, i < 2 ^ m → ∃ e, (xEdge a l)[i]? = some e ∧
      IsCorner (a :: l) (fun j => i.testBit j) e := by
  refine ⟨by simp [xEdge], fun i hi => ⟨edge a l i, ?_, isCorner_edge a l i⟩⟩
  simp [xEdge, hi]

/-- Every choice of sides is made by exactly one row, and that row is the corner on those sides. -/
theorem C54_every_corner (a : Fin m → K) (l : List (Fin m → K)) (c : Fin m → Bool) :
    ∃! i, i < 2 ^ m ∧ (∀ j : Fin m, i.testBit j = c j) ∧
      ∀ e, IsCorner (a :: l) c e → (xEdge a l)[i]? = some e := by
  obtain ⟨i, hi, hb⟩ := exists_bits c
  refine ⟨i, ⟨hi, hb, ?_⟩, ?_⟩
  · intro e he
    have h1 := isCorner_edge a l i
    have h2 : (fun j : Fin m => i.testBit j) = c := funext hb
    rw [h2] at h1
    rw [isCorner_unique he h1]
    simp [xEdge, hi]
  · rintro k ⟨hk, hkb, -⟩
    exact bits_unique hk hi fun j => (hkb j).trans (hb j).symm

/-- When no feature is constant, the corners are pairwise different points. -/
theorem C54_distinct (a : Fin m → K) (l : List (Fin m → K))
    (h : ∀ j, ∃ r ∈ a :: l, ∃ r' ∈ a :: l, r j ≠ r' j) : (xEdge a l).Nodup := by
  unfold xEdge
  refine List.Nodup.map_on ?_ List.nodup_range
  intro i hi k hk hik
  rw [List.mem_range] at hi hk
  apply bits_unique hi hk
  intro j
  have h1 := isCorner_edge a l i j
  have h2 := isCorner_edge a l k j
  rw [← hik] at h2
  obtain ⟨r, hr, r', hr', hne⟩ := h j
  by_contra hcon
  have key : ∀ x : K, IsGreatest (column (a :: l) j) x → IsLeast (column (a :: l) j) x → False := by
    intro x hg hl
    apply hne
    have e1 : r j = x := le_antisymm (hg.2 ⟨r, hr, rfl⟩) (hl.2 ⟨r, hr, rfl⟩)
    have e2 : r' j = x := le_antisymm (hg.2 ⟨r', hr', rfl⟩) (hl.2 ⟨r', hr', rfl⟩)
    rw [e1, e2]
  cases hb : i.testBit j with
  | true =>
    have hb' : k.testBit j = false := by
      cases hq : k.testBit j with
      | true => exact absurd (hb.trans hq.symm) hcon
      | false => rfl
    exact key _ (h1.1 hb) (h2.2 hb')
  | false =>
    have hb' : k.testBit j = true := by
      cases hq : k.testBit j with
      | false => exact absurd (hb.trans hq.symm) hcon
      | true => rfl
    exact key _ (h2.1 hb') (h1.2 hb)

/-- Three instances with two features, used by the examples. -/
def exRow (a b : ℚ) : Fin 2 → ℚ := ![a, b]

/-- Non-vacuity for C54: no feature of these instances is constant. -/
example : ∀ j, ∃ r ∈ exRow 1 2 :: [exRow 3 0, exRow 2 5], ∃ r' ∈ exRow 1 2 :: [exRow 3 0, exRow 2 5],
    r j ≠ r' j := by
  intro j
  refine ⟨exRow 1 2, by simp, exRow 3 0, by simp, ?_⟩
  fin_cases j <;> simp [exRow]

example : (xEdge (exRow 1 2) [exRow 3 0, exRow 2 5]).map (fun e => (e 0, e 1)) =
    [(1, 0), (3, 0), (1, 5), (3, 5)] := by
  have h0 : ∀ i, edge (exRow 1 2) [exRow 3 0, exRow 2 5] i =
      fun j : Fin _ => if i.testBit j then colMax (exRow 1 2) [exRow 3 0, exRow 2 5] j
        else colMin (exRow 1 2) [exRow 3 0, exRow 2 5] j := fun i => funext (edge_eq _ _ i)
  have h1 : xEdge (exRow 1 2) [exRow 3 0, exRow 2 5] = (List.range (2 ^ 2)).map
      (fun i (j : Fin 2) => if i.testBit j then colMax (exRow 1 2) [exRow 3 0, exRow 2 5] j
        else colMin (exRow 1 2) [exRow 3 0, exRow 2 5] j) := by
    unfold xEdge
    exact List.map_congr_left fun i _ => h0 i
  rw [h1]
  decide +kernel

/-- A corner is discarded exactly when it contradicts a strong correlation. -/
theorem C55_discarded (rho : Fin m → Fin m → Num) (thr : Num) (a : Fin m → K)
    (l : List (Fin m → K)) (i : Nat) (e : Fin m → K) (h : (xEdge a l)[i]? = some e) :
    remove rho thr a l i = true ↔ ∃ j k, j < k ∧ Contradicts rho thr e j k := by
  have he : e = edge a l i := by
    unfold xEdge at h
    rw [List.getElem?_map] at h
    obtain ⟨q, hq, rfl⟩ := Option.map_eq_some_iff.1 h
    obtain ⟨hlt, hq⟩ := List.getElem?_eq_some_iff.1 hq
    rw [List.getElem_range] at hq
    rw [hq]
  subst he
  unfold remove
  rw [outer_iff]
  simp only [List.mem_finRange, true_and, bad_iff]

/-- The corners that remain are those that contradict no correlation between two of their
coordinates (in either order, as Pearson's coefficient is symmetric). -/
theorem C55_kept (pearson : Fin m → Fin m → Num × Num) (hs : ∀ i j, pearson i j = pearson j i)
    (pThr cThr : Num) (a : Fin m → K) (l : List (Fin m → K)) (e : Fin m → K) :
    e ∈ xKept (correlation pearson pThr) cThr a l ↔
      (∃ c, IsCorner (a :: l) c e) ∧
        ∀ j k, j ≠ k → ¬ Contradicts (correlation pearson pThr) cThr e j k := by
  have hc : ∀ i j, correlation pearson pThr i j = correlation pearson pThr j i := by
    intro i j
    unfold correlation
    rw [hs i j]
    simp only [ne_eq, eq_comm]
  have hcon : ∀ e : Fin m → K, ∀ j k, Contradicts (correlation pearson pThr) cThr e j k →
      Contradicts (correlation pearson pThr) cThr e k j := by
    intro e j k h
    unfold Contradicts at *
    rw [hc k j]
    rcases h with ⟨h1, h2⟩ | ⟨h1, h2⟩
    · exact .inl ⟨h1, fun h => h2 h.symm'⟩
    · exact .inr ⟨h1, h2.symm'⟩
  have hrow : ∀ i, i < 2 ^ m → (xEdge a l)[i]? = some (edge a l i) := by
    intro i hi; simp [xEdge, hi]
  unfold xKept
  simp only [List.mem_map, List.mem_filter, List.mem_range, Bool.not_eq_true']
  constructor
  · rintro ⟨i, ⟨hi, hr⟩, rfl⟩
    refine ⟨⟨_, isCorner_edge a l i⟩, ?_⟩
    intro j k hjk h
    have : remove (correlation pearson pThr) cThr a l i = true := by
      rw [C55_discarded _ _ _ _ _ _ (hrow i hi)]
      rcases lt_or_gt_of_ne hjk with hlt | hlt
      · exact ⟨j, k, hlt, h⟩
      · exact ⟨k, j, hlt, hcon _ _ _ h⟩
    rw [hr] at this; cases this
  · rintro ⟨⟨c, hce⟩, hno⟩
    obtain ⟨i, ⟨hi, hb, hx⟩, -⟩ := C54_every_corner a l c
    have hx := hx e hce
    refine ⟨i, ⟨hi, ?_⟩, ?_⟩
    · cases hr : remove (correlation pearson pThr) cThr a l i with
      | false => rfl
      | true =>
        obtain ⟨j, k, hjk, h⟩ := (C55_discarded _ _ _ _ _ _ hx).1 hr
        exact absurd h (hno j k (ne_of_lt hjk))
    · rw [hrow i hi] at hx
      exact Option.some.inj hx

/-- Non-vacuity for C55: with correlation 0.9 and threshold 0.7 the corners with different signs
are discarded. -/
example : (List.range 4).map (remove (fun _ _ => .fin (9/10)) (.fin (7/10)) (exRow (-1) (-2))
    [exRow 3 4]) = [false, true, true, false] := by
  have h0 : ∀ i, edge (exRow (-1) (-2)) [exRow 3 4] i =
      fun j : Fin _ => if i.testBit j then colMax (exRow (-1) (-2)) [exRow 3 4] j
        else colMin (exRow (-1) (-2)) [exRow 3 4] j := fun i => funext (edge_eq _ _ i)
  unfold remove
  simp only [h0]
  decide +kernel

/-- A correlation is zero on the diagonal. -/
theorem C57_diagonal (pearson : Fin m → Fin m → Num × Num) (pThr : Num) (i : Fin m) :
    correlation pearson pThr i i = 0 := by
  unfold correlation
  simp

/-- A correlation is zero when its p-value exceeds the option and otherwise Pearson's. -/
theorem C57_significant (pearson : Fin m → Fin m → Num × Num) (pThr : Num) (i j : Fin m)
    (h : i ≠ j) :
    (Num.lt pThr (pearson i j).2 = true → correlation pearson pThr i j = 0) ∧
    (Num.lt pThr (pearson i j).2 = false → correlation pearson pThr i j = (pearson i j).1) := by
  unfold correlation
  simp only [ne_eq, h, not_false_eq_true, if_true]
  constructor <;> intro h <;> simp [h]

/-- `z_ecorr` is the hull of the kept corners if there is one, and `z_edge` otherwise. -/
theorem C57_fallback (qhull : List (Fin 2 → K) → Option (List Nat))
    (pearson : Fin m → Fin m → Num × Num) (pThr cThr : Num) (A : Fin 2 → Fin m → K)
    (a : Fin m → K) (l : List (Fin m → K)) :
    let kept := (xKept (correlation pearson pThr) cThr a l).map (project A)
    let out := cloister qhull pearson pThr cThr A a l
    (qhull kept = none → out.2 = out.1) ∧
    (∀ vs, qhull kept = some vs → (∃ i ∈ vs, i < kept.length) →
      out.2 ≠ [] ∧ ∀ p, p ∈ out.2 ↔ ∃ i ∈ vs, kept[i]? = some p) := by
  intro kept out
  constructor
  · intro h
    show (if (hullPoints qhull kept).isEmpty then out.1 else hullPoints qhull kept) = out.1
    have : hullPoints qhull kept = [] := by unfold hullPoints; rw [h]
    rw [this]; rfl
  · rintro vs h ⟨i, hi, hlt⟩
    have h1 : ∀ p, p ∈ hullPoints qhull kept ↔ ∃ i ∈ vs, kept[i]? = some p := by
      intro p; unfold hullPoints; rw [h]; simp only [List.mem_filterMap]
    have h2 : hullPoints qhull kept ≠ [] := by
      intro hn
      have := (h1 kept[i]).2 ⟨i, hi, by simp [hlt]⟩
      rw [hn] at this; cases this
    have h3 : out.2 = hullPoints qhull kept := by
      show (if (hullPoints qhull kept).isEmpty then out.1 else hullPoints qhull kept) = _
      rw [if_neg (by simpa using h2)]
    rw [h3]
    exact ⟨h2, h1⟩

variable [IsStrictOrderedRing K]

/-- Every instance projected to the plane lies in the convex hull of `z_edge` whenever the hull
computation succeeds. -/
theorem C56_encloses (qhull : List (Fin 2 → K) → Option (List Nat)) (hq : HullCorrect qhull)
    (pearson : Fin m → Fin m → Num × Num) (pThr cThr : Num) (A : Fin 2 → Fin m → K)
    (a : Fin m → K) (l : List (Fin m → K))
    (hs : qhull ((xEdge a l).map (project A)) ≠ none) (r : Fin m → K) (hr : r ∈ a :: l) :
    place A r ∈ convexHull K (pointSet (cloister qhull pearson pThr cThr A a l).1) := by
  rw [← project_place]
  obtain ⟨vs, hvs⟩ := Option.ne_none_iff_exists'.1 hs
  show project A r ∈ convexHull K (pointSet (hullPoints qhull ((xEdge a l).map (project A))))
  rw [hullPoints_convexHull hq _ vs hvs]
  have h1 : pointSet ((xEdge a l).map (project A)) = project A '' {e | e ∈ xEdge a l} := by
    ext p; simp [pointSet]
  rw [h1, ← (project_isLinear A).image_convexHull]
  exact ⟨r, box_mem_hull a l r hr, rfl⟩

/-- The correlated boundary lies inside the boundary without correlations whenever the hull
computation of the latter succeeds. -/
theorem C92_inside (qhull : List (Fin 2 → K) → Option (List Nat)) (hq : HullCorrect qhull)
    (pearson : Fin m → Fin m → Num × Num) (pThr cThr : Num) (A : Fin 2 → Fin m → K)
    (a : Fin m → K) (l : List (Fin m → K))
    (hs : qhull ((xEdge a l).map (project A)) ≠ none) :
    convexHull K (pointSet (cloister qhull pearson pThr cThr A a l).2) ⊆
      convexHull K (pointSet (cloister qhull pearson pThr cThr A a l).1) := by
  obtain ⟨vs, hvs⟩ := Option.ne_none_iff_exists'.1 hs
  show convexHull K (pointSet (if (hullPoints qhull
      ((xKept (correlation pearson pThr) cThr a l).map (project A))).isEmpty then
      hullPoints qhull ((xEdge a l).map (project A)) else _)) ⊆
    convexHull K (pointSet (hullPoints qhull ((xEdge a l).map (project A))))
  split
  · exact subset_rfl
  · rw [hullPoints_convexHull hq _ vs hvs]
    apply convexHull_mono
    intro p hp
    have hp' : p ∈ (xKept (correlation pearson pThr) cThr a l).map (project A) := by
      have hp : p ∈ hullPoints qhull _ := hp
      unfold hullPoints at hp
      split at hp
      · cases hp
      · obtain ⟨i, _, hi⟩ := List.mem_filterMap.1 hp
        exact List.mem_of_getElem? hi
    obtain ⟨e, he, rfl⟩ := List.mem_map.1 hp'
    refine List.mem_map.2 ⟨e, ?_, rfl⟩
    unfold xKept at he
    obtain ⟨i, hi, rfl⟩ := List.mem_map.1 he
    exact List.mem_map.2 ⟨i, (List.mem_filter.1 hi).1, rfl⟩

/-- A hull computation used by the examples: fails on fewer than three points and otherwise keeps
every point. -/
def exHull (pts : List (Fin 2 → K)) : Option (List Nat) :=
  if pts.length < 3 then none else some (List.range pts.length)

omit [IsStrictOrderedRing K] in
theorem exHull_correct : HullCorrect (exHull (K := K)) := by
  intro pts vs h
  unfold exHull at h
  split at h
  · cases h
  · cases h
    congr 1
    ext p
    simp only [List.mem_range, Set.mem_ofPred_eq, pointSet]
    rw [List.mem_iff_getElem?]
    constructor
    · rintro ⟨i, _, hi⟩; exact ⟨i, hi⟩
    · rintro ⟨i, hi⟩
      exact ⟨i, (List.getElem?_eq_some_iff.1 hi).1, hi⟩

/-- Non-vacuity for C56 and C92. -/
example : HullCorrect (exHull (K := ℚ)) ∧
    exHull ((xEdge (exRow 1 2) [exRow 3 0]).map (project ![![1, 0], ![2, 1]])) ≠ none :=
  ⟨exHull_correct, by simp [exHull, xEdge]⟩

/-- Features of twenty instances: the first two agree except on two instances (Pearson 0.8), the
third is uncorrelated with the first and hardly correlated with the second (0.2). -/
def refRows : List (Fin 3 → ℚ) :=
  List.replicate 4 ![-1, -1, 1] ++ List.replicate 5 ![-1, -1, -1] ++
  List.replicate 5 ![1, 1, 1] ++ List.replicate 4 ![1, 1, -1] ++ [![1, -1, -1]]

/-- Pearson's coefficients and (approximate) p-values of `![-1, 1, 1] :: refRows`. -/
def refPearson (i j : Fin 3) : Num × Num :=
  if i = j then (1, 0) else if i ≠ 2 ∧ j ≠ 2 then (.fin (4/5), .fin (1/50000))
  else if i = 0 ∨ j = 0 then (0, 1) else (.fin (1/5), .fin (2/5))

/-- The coefficients of `refPearson` are the right ones: every feature has sum 0 and sum of squares
20, so Pearson's coefficient is the sum of products divided by 20. -/
example : let rows := (![-1, 1, 1] : Fin 3 → ℚ) :: refRows
    (∀ i, (rows.map (· i)).sum = 0) ∧
    ∀ i j, (refPearson i j).1 = .fin ((rows.map fun r => r i * r j).sum / 20) := by
  decide +kernel

/-- The projection used by the counterexample. -/
def refA : Fin 2 → Fin 3 → ℚ := ![![1, 0, 0], ![0, 1, 1]]

/-- The full claim that the correlated boundary also encloses every instance is false: the
instance with features (-1, 1, 1) projects to (-1, 2), outside the hull of the corners that are
kept, whatever correct hull computation is used. -/
theorem C93_refuted : ∃ (a : Fin 3 → ℚ) (l : List (Fin 3 → ℚ)) (pearson : Fin 3 → Fin 3 → Num × Num)
    (A : Fin 2 → Fin 3 → ℚ),
    ∀ qhull : List (Fin 2 → ℚ) → Option (List Nat), HullCorrect qhull →
      (∀ pts : List (Fin 2 → ℚ), 3 ≤ pts.length → qhull pts ≠ none) →
      place A a ∉ convexHull ℚ
        (pointSet (cloister qhull pearson (.fin (1/20)) (.fin (7/10)) A a l).2) := by
  refine ⟨![-1, 1, 1], refRows, refPearson, refA, ?_⟩
  intro qhull hq hs
  rw [← project_place]
  have h0 : ∀ i, edge ![-1, 1, 1] refRows i = fun j : Fin _ => if i.testBit j then 1 else -1 := by
    intro i
    funext j
    rw [edge_eq]
    have h1 : ∀ j, colMax (K := ℚ) ![-1, 1, 1] refRows j = 1 := by decide +kernel
    have h2 : ∀ j, colMin (K := ℚ) ![-1, 1, 1] refRows j = -1 := by decide +kernel
    rw [h1, h2]
  have hk : (xKept (correlation refPearson (.fin (1/20))) (.fin (7/10)) ![-1, 1, 1] refRows).map
      (project refA) = [![-1, -2], ![1, 0], ![-1, 0], ![1, 2]] := by
    unfold xKept remove
    simp only [h0]
    decide +kernel
  have hp : project refA ![-1, 1, 1] = ![-1, 2] := by decide +kernel
  generalize hkept : (xKept (correlation refPearson (.fin (1/20))) (.fin (7/10)) ![-1, 1, 1]
    refRows).map (project refA) = kept at hk
  obtain ⟨vs, hvs⟩ := Option.ne_none_iff_exists'.1 (hs kept (by rw [hk]; simp))
  have hh := hullPoints_convexHull hq _ vs hvs
  have hne : (hullPoints qhull kept).isEmpty = false := by
    cases hn : hullPoints qhull kept with
    | cons => rfl
    | nil =>
      rw [hn] at hh
      have h1 : pointSet ([] : List (Fin 2 → ℚ)) = ∅ := by ext; simp [pointSet]
      rw [h1, convexHull_empty] at hh
      have : (![1, 2] : Fin 2 → ℚ) ∈ convexHull ℚ (pointSet kept) :=
        subset_convexHull ℚ _ (by rw [hk]; simp [pointSet])
      rw [← hh] at this
      cases this
  show project refA ![-1, 1, 1] ∉ convexHull ℚ (pointSet (if (hullPoints qhull ((xKept (correlation
    refPearson (.fin (1/20))) (.fin (7/10)) ![-1, 1, 1] refRows).map (project refA))).isEmpty then _
    else hullPoints qhull ((xKept (correlation
    refPearson (.fin (1/20))) (.fin (7/10)) ![-1, 1, 1] refRows).map (project refA))))
  rw [hkept, hne, if_neg (by simp), hh, hp]
  intro hmem
  have hconv : Convex ℚ {p : Fin 2 → ℚ | p 1 - p 0 ≤ 1} := by
    apply convex_halfSpace_le
    constructor
    · intro x y; simp; ring
    · intro c x; simp; ring
  have hsub : pointSet kept ⊆ {p : Fin 2 → ℚ | p 1 - p 0 ≤ 1} := by
    intro p hp
    have hp : p ∈ kept := hp
    rw [hk] at hp
    simp only [List.mem_cons, List.not_mem_nil, or_false] at hp
    rcases hp with rfl | rfl | rfl | rfl <;> simp only [Set.mem_ofPred_eq] <;> norm_num
  have : (![-1, 2] : Fin 2 → ℚ) 1 - (![-1, 2] : Fin 2 → ℚ) 0 ≤ 1 := convexHull_min hsub hconv hmem
  norm_num at this

/-- The correlated boundary encloses every instance when no two features correlate more strongly
than the threshold. -/
theorem C93_partial (qhull : List (Fin 2 → K) → Option (List Nat)) (hq : HullCorrect qhull)
    (pearson : Fin m → Fin m → Num × Num) (pThr cThr : Num) (A : Fin 2 → Fin m → K)
    (a : Fin m → K) (l : List (Fin m → K))
    (hs : qhull ((xEdge a l).map (project A)) ≠ none)
    (hw : ∀ j k, j < k → Num.lt cThr (correlation pearson pThr j k) = false ∧
      Num.lt (correlation pearson pThr j k) (-cThr) = false)
    (r : Fin m → K) (hr : r ∈ a :: l) :
    place A r ∈ convexHull K (pointSet (cloister qhull pearson pThr cThr A a l).2) := by
  have h1 := C56_encloses qhull hq pearson pThr cThr A a l hs r hr
  have hk : xKept (correlation pearson pThr) cThr a l = xEdge a l := by
    unfold xKept xEdge
    rw [List.filter_eq_self.2]
    intro i hi
    rw [Bool.not_eq_true']
    cases hr : remove (correlation pearson pThr) cThr a l i with
    | false => rfl
    | true =>
      have hx : (xEdge a l)[i]? = some (edge a l i) := by
        have := List.mem_range.1 hi
        simp [xEdge, this]
      obtain ⟨j, k, hjk, h⟩ := (C55_discarded _ _ _ _ _ _ hx).1 hr
      rcases h with ⟨h, -⟩ | ⟨h, -⟩
      · rw [(hw j k hjk).1] at h; cases h
      · rw [(hw j k hjk).2] at h; cases h
  have h2 : (cloister qhull pearson pThr cThr A a l).2 = (cloister qhull pearson pThr cThr A a l).1 := by
    simp only [cloister, hk]
    split <;> rfl
  rwa [h2]

/-- Non-vacuity for C93: the weak correlation 0.5 against the threshold 0.7. -/
example : ∀ j k : Fin 2, j < k →
    Num.lt (.fin (7/10)) (correlation (fun _ _ => (.fin (1/2), .fin (1/100))) (.fin (1/20)) j k) = false ∧
    Num.lt (correlation (fun _ _ => (.fin (1/2), .fin (1/100))) (.fin (1/20)) j k) (-.fin (7/10)) =
      false := by decide +kernel

end Verif.Cloister
