import Verif.Cloister.Props
import Mathlib.LinearAlgebra.AffineSpace.FiniteDimensional
/-!
# CLOISTER: C148 (the plain boundary is the shadow of the box), C149 (the thresholds)
-/
set_option autoImplicit false
set_option linter.unusedSectionVars false

namespace Verif.Cloister

variable {K : Type} {m : Nat} [Field K] [LinearOrder K]

/-- The box of the instances: every feature lies between values taken by instances. -/
def Box (rows : List (Fin m → K)) : Set (Fin m → K) :=
  {v | ∀ j, (∃ r ∈ rows, r j ≤ v j) ∧ ∃ r ∈ rows, v j ≤ r j}

/-- What `qhull` does: it finds the hull of the points unless they lie on one line, or there is none. -/
structure Qhull (qhull : List (Fin 2 → K) → Option (List Nat)) : Prop where
  correct : HullCorrect qhull
  fails : ∀ pts, qhull pts = none ↔ Collinear K (pointSet pts)

variable [IsStrictOrderedRing K]

omit [IsStrictOrderedRing K] in
private theorem corners_pi (a : Fin m → K) (l : List (Fin m → K)) :
    {e | e ∈ xEdge a l} = Set.univ.pi fun j => ({colMin a l j, colMax a l j} : Set K) := by
  ext e
  simp only [Set.mem_ofPred_eq, Set.mem_pi, Set.mem_univ, forall_true_left, Set.mem_insert_iff,
    Set.mem_singleton_iff]
  unfold xEdge
  simp only [List.mem_map, List.mem_range]
  constructor
  · rintro ⟨i, hi, rfl⟩ j
    rw [edge_eq]
    split
    · exact .inr rfl
    · exact .inl rfl
  · intro h
    obtain ⟨i, hi, hb⟩ := exists_bits fun j => decide (e j = colMax a l j)
    refine ⟨i, hi, ?_⟩
    funext j
    rw [edge_eq, hb]
    by_cases hj : e j = colMax a l j
    · simp [hj]
    · rcases h j with h | h
      · simp only [hj, decide_false, Bool.false_eq_true, if_false]; exact h.symm
      · exact absurd h hj

private theorem corners_hull (a : Fin m → K) (l : List (Fin m → K)) :
    convexHull K {e | e ∈ xEdge a l} = Box (a :: l) := by
  rw [corners_pi, convexHull_pi]
  ext v
  simp only [Set.mem_pi, Set.mem_univ, forall_true_left, Box, Set.mem_ofPred_eq]
  refine forall_congr' fun j => ?_
  have h1 := (isCorner_edge a l 0 j).2 (by simp)
  have h2 : IsGreatest (column (a :: l) j) (colMax a l j) := by
    obtain ⟨i, hi, hb⟩ := exists_bits (m := m) fun _ => true
    have := (isCorner_edge a l i j).1 (hb j)
    rwa [edge_eq, hb j, if_pos rfl] at this
  rw [edge_eq, if_neg (by simp)] at h1
  rw [convexHull_pair, segment_eq_Icc (h1.2 h2.1)]
  constructor
  · rintro ⟨h3, h4⟩
    obtain ⟨r, hr, e⟩ := h1.1
    obtain ⟨r', hr', e'⟩ := h2.1
    exact ⟨⟨r, hr, e ▸ h3⟩, r', hr', e' ▸ h4⟩
  · rintro ⟨⟨r, hr, h3⟩, r', hr', h4⟩
    exact ⟨le_trans (h1.2 ⟨r, hr, rfl⟩) h3, le_trans h4 (h2.2 ⟨r', hr', rfl⟩)⟩

omit [IsStrictOrderedRing K] in
private theorem kept_sub (rho : Fin m → Fin m → Num) (thr : Num) (a : Fin m → K)
    (l : List (Fin m → K)) : ∀ e ∈ xKept rho thr a l, e ∈ xEdge a l := by
  intro e he
  unfold xKept at he
  obtain ⟨i, hi, rfl⟩ := List.mem_map.1 he
  exact List.mem_map.2 ⟨i, (List.mem_filter.1 hi).1, rfl⟩

/-- **C148** The area inside `z_edge` is the shadow of the box: exactly the projections of the feature
vectors whose every entry lies between the smallest and the largest value of the feature. -/
theorem C148_shadow (qhull : List (Fin 2 → K) → Option (List Nat)) (hq : HullCorrect qhull)
    (pearson : Fin m → Fin m → Num × Num) (pThr cThr : Num) (A : Fin 2 → Fin m → K)
    (a : Fin m → K) (l : List (Fin m → K))
    (hs : qhull ((xEdge a l).map (project A)) ≠ none) :
    convexHull K (pointSet (cloister qhull pearson pThr cThr A a l).1) = place A '' Box (a :: l) := by
  rw [← project_place]
  obtain ⟨vs, hvs⟩ := Option.ne_none_iff_exists'.1 hs
  show convexHull K (pointSet (hullPoints qhull ((xEdge a l).map (project A)))) = _
  rw [hullPoints_convexHull hq _ vs hvs]
  have h1 : pointSet ((xEdge a l).map (project A)) = project A '' {e | e ∈ xEdge a l} := by
    ext p; simp [pointSet]
  rw [h1, ← (project_isLinear A).image_convexHull, corners_hull]

/-- **C148** More instances never shrink the plain boundary, and their order and repetitions do not
matter. -/
theorem C148_monotone (qhull : List (Fin 2 → K) → Option (List Nat)) (hq : HullCorrect qhull)
    (pearson pearson' : Fin m → Fin m → Num × Num) (pThr cThr pThr' cThr' : Num)
    (A : Fin 2 → Fin m → K) (a a' : Fin m → K) (l l' : List (Fin m → K))
    (hs : qhull ((xEdge a l).map (project A)) ≠ none)
    (hs' : qhull ((xEdge a' l').map (project A)) ≠ none)
    (hsub : ∀ r ∈ a :: l, r ∈ a' :: l') :
    convexHull K (pointSet (cloister qhull pearson pThr cThr A a l).1) ⊆
      convexHull K (pointSet (cloister qhull pearson' pThr' cThr' A a' l').1) ∧
    ((∀ r ∈ a' :: l', r ∈ a :: l) →
      convexHull K (pointSet (cloister qhull pearson pThr cThr A a l).1) =
        convexHull K (pointSet (cloister qhull pearson' pThr' cThr' A a' l').1)) := by
  rw [C148_shadow qhull hq _ _ _ _ _ _ hs, C148_shadow qhull hq _ _ _ _ _ _ hs']
  have mono : ∀ u u' : List (Fin m → K), (∀ r ∈ u, r ∈ u') → Box u ⊆ Box u' := by
    intro u u' h v hv j
    obtain ⟨⟨r, hr, h1⟩, r', hr', h2⟩ := hv j
    exact ⟨⟨r, h r hr, h1⟩, r', h r' hr', h2⟩
  exact ⟨Set.image_mono (mono _ _ hsub),
    fun h => congrArg _ (Set.Subset.antisymm (mono _ _ hsub) (mono _ _ h))⟩

/-! ### C149 -/

/-- The full claim for the correlation threshold: raising it (so that fewer correlations constrain the
boundary) never shrinks the boundary with correlations. -/
def ThresholdGrows : Prop :=
  ∀ (m : Nat) (qhull : List (Fin 2 → ℚ) → Option (List Nat)) (pearson : Fin m → Fin m → Num × Num)
    (pThr : Num) (cThr cThr' : ℚ) (A : Fin 2 → Fin m → ℚ) (a : Fin m → ℚ) (l : List (Fin m → ℚ)),
    Qhull qhull → 0 ≤ cThr → cThr ≤ cThr' →
    convexHull ℚ (pointSet (cloister qhull pearson pThr (.fin cThr) A a l).2) ⊆
      convexHull ℚ (pointSet (cloister qhull pearson pThr (.fin cThr') A a l).2)

private theorem ecorr_hull {qhull : List (Fin 2 → K) → Option (List Nat)} (hq : Qhull qhull)
    (pearson : Fin m → Fin m → Num × Num) (pThr cThr : Num) (A : Fin 2 → Fin m → K)
    (a : Fin m → K) (l : List (Fin m → K))
    (hk : ¬ Collinear K (pointSet ((xKept (correlation pearson pThr) cThr a l).map (project A)))) :
    convexHull K (pointSet (cloister qhull pearson pThr cThr A a l).2) =
      convexHull K (pointSet ((xKept (correlation pearson pThr) cThr a l).map (project A))) := by
  set C := (xKept (correlation pearson pThr) cThr a l).map (project A) with hC
  obtain ⟨ws, hws⟩ := Option.ne_none_iff_exists'.1 fun h => hk ((hq.fails C).1 h)
  have e2 := hullPoints_convexHull hq.correct _ ws hws
  show convexHull K (pointSet (if (hullPoints qhull C).isEmpty then
    hullPoints qhull ((xEdge a l).map (project A)) else hullPoints qhull C)) = _
  rw [if_neg, e2]
  intro he
  rw [List.isEmpty_iff] at he
  rw [he] at e2
  have h1 : pointSet ([] : List (Fin 2 → K)) = ∅ := by ext; simp [pointSet]
  rw [h1, convexHull_empty] at e2
  have h2 : pointSet C = ∅ := Set.subset_empty_iff.1 (e2 ▸ subset_convexHull K (pointSet C))
  rw [h2] at hk
  exact hk (collinear_empty K (Fin 2 → K))

private theorem ecorr_sub {qhull : List (Fin 2 → K) → Option (List Nat)} (hq : Qhull qhull)
    (pearson : Fin m → Fin m → Num × Num) (pThr cThr pThr' cThr' : Num) (A : Fin 2 → Fin m → K)
    (a : Fin m → K) (l : List (Fin m → K))
    (hk : ¬ Collinear K (pointSet ((xKept (correlation pearson pThr) cThr a l).map (project A))))
    (hsub : ∀ e ∈ xKept (correlation pearson pThr) cThr a l,
      e ∈ xKept (correlation pearson pThr') cThr' a l) :
    convexHull K (pointSet (cloister qhull pearson pThr cThr A a l).2) ⊆
      convexHull K (pointSet (cloister qhull pearson pThr' cThr' A a l).2) := by
  have subC : pointSet ((xKept (correlation pearson pThr) cThr a l).map (project A)) ⊆
      pointSet ((xKept (correlation pearson pThr') cThr' a l).map (project A)) := by
    intro p hp
    obtain ⟨e, he, rfl⟩ := List.mem_map.1 (show p ∈ List.map _ _ from hp)
    exact List.mem_map.2 ⟨e, hsub e he, rfl⟩
  rw [ecorr_hull hq _ _ _ _ _ _ hk, ecorr_hull hq _ _ _ _ _ _ fun h => hk (h.subset subC)]
  exact convexHull_mono subC

omit [IsStrictOrderedRing K] in
private theorem kept_mono (rho rho' : Fin m → Fin m → Num) (thr thr' : Num) (a : Fin m → K)
    (l : List (Fin m → K))
    (h1 : ∀ j k, Num.lt thr' (rho' j k) = true → Num.lt thr (rho j k) = true)
    (h2 : ∀ j k, Num.lt (rho' j k) (-thr') = true → Num.lt (rho j k) (-thr) = true) :
    ∀ e ∈ xKept rho thr a l, e ∈ xKept rho' thr' a l := by
  intro e he
  unfold xKept at he ⊢
  obtain ⟨i, hi, rfl⟩ := List.mem_map.1 he
  refine List.mem_map.2 ⟨i, ?_, rfl⟩
  rw [List.mem_filter] at hi ⊢
  refine ⟨hi.1, ?_⟩
  have hn := hi.2
  rw [Bool.not_eq_true'] at hn ⊢
  cases hr : remove rho' thr' a l i with
  | false => rfl
  | true =>
    have hx : (xEdge a l)[i]? = some (edge a l i) := by
      have := List.mem_range.1 hi.1
      simp [xEdge, this]
    obtain ⟨j, k, hjk, h⟩ := (C55_discarded _ _ _ _ _ _ hx).1 hr
    have : remove rho thr a l i = true := by
      refine (C55_discarded _ _ _ _ _ _ hx).2 ⟨j, k, hjk, ?_⟩
      rcases h with ⟨h, h'⟩ | ⟨h, h'⟩
      · exact .inl ⟨h1 j k h, h'⟩
      · exact .inr ⟨h2 j k h, h'⟩
    rw [this] at hn
    cases hn

/-- **C149** (what holds) As long as the corners that agree with the strong correlations do not all project
to one line, raising the correlation threshold does not shrink the boundary with correlations. -/
theorem C149_partial (qhull : List (Fin 2 → K) → Option (List Nat)) (hq : Qhull qhull)
    (pearson : Fin m → Fin m → Num × Num) (pThr : Num) (cThr cThr' : ℚ) (A : Fin 2 → Fin m → K)
    (a : Fin m → K) (l : List (Fin m → K)) (h : cThr ≤ cThr')
    (hk : ¬ Collinear K (pointSet ((xKept (correlation pearson pThr) (.fin cThr) a l).map (project A)))) :
    convexHull K (pointSet (cloister qhull pearson pThr (.fin cThr) A a l).2) ⊆
      convexHull K (pointSet (cloister qhull pearson pThr (.fin cThr') A a l).2) := by
  refine ecorr_sub hq _ _ _ _ _ _ _ _ hk (kept_mono _ _ _ _ _ _ ?_ ?_)
  · intro j k
    generalize correlation pearson pThr j k = v
    cases v with
    | fin q =>
      simp only [Num.lt, decide_eq_true_eq]
      exact fun h' => lt_of_le_of_lt h h'
    | _ => intro h'; exact h'
  · intro j k
    generalize correlation pearson pThr j k = v
    have e : ∀ q : ℚ, -(Num.fin q) = .fin (-q) := fun _ => rfl
    rw [e, e]
    cases v with
    | fin q =>
      simp only [Num.lt, decide_eq_true_eq]
      exact fun h' => lt_of_lt_of_le h' (neg_le_neg h)
    | _ => intro h'; exact h'

/-- **C149** (what holds) Likewise lowering the significance level does not shrink it. -/
theorem C149_pvalue_partial (qhull : List (Fin 2 → K) → Option (List Nat)) (hq : Qhull qhull)
    (pearson : Fin m → Fin m → Num × Num) (pThr pThr' cThr : ℚ) (A : Fin 2 → Fin m → K)
    (a : Fin m → K) (l : List (Fin m → K)) (h : pThr' ≤ pThr) (hc : 0 ≤ cThr)
    (hk : ¬ Collinear K
      (pointSet ((xKept (correlation pearson (.fin pThr)) (.fin cThr) a l).map (project A)))) :
    convexHull K (pointSet (cloister qhull pearson (.fin pThr) (.fin cThr) A a l).2) ⊆
      convexHull K (pointSet (cloister qhull pearson (.fin pThr') (.fin cThr) A a l).2) := by
  have h0 : Num.lt (.fin cThr) 0 = false := by
    change decide (cThr < ((0 : ℕ) : ℚ)) = false
    simpa using hc
  have h0' : Num.lt 0 (-.fin cThr) = false := by
    change decide (((0 : ℕ) : ℚ) < -cThr) = false
    simpa using hc
  have key : ∀ j k, correlation pearson (.fin pThr') j k = 0 ∨
      correlation pearson (.fin pThr') j k = correlation pearson (.fin pThr) j k := by
    intro j k
    unfold correlation
    simp only
    generalize (if j ≠ k then (pearson j k).2 else 1) = p
    by_cases hp : Num.lt (.fin pThr') p = true
    · exact .inl (by rw [if_pos hp])
    · right
      have hn : ¬ Num.lt (.fin pThr) p = true := by
        intro hp'
        apply hp
        cases p with
        | fin q =>
          simp only [Num.lt, decide_eq_true_eq] at hp' ⊢
          exact lt_of_le_of_lt h hp'
        | _ => exact hp'
      rw [if_neg hp, if_neg hn]
  refine ecorr_sub hq _ _ _ _ _ _ _ _ hk (kept_mono _ _ _ _ _ _ ?_ ?_)
  · intro j k h'
    rcases key j k with e | e
    · rw [e, h0] at h'; cases h'
    · rwa [e] at h'
  · intro j k h'
    rcases key j k with e | e
    · rw [e, h0'] at h'; cases h'
    · rwa [e] at h'

/-- There is such a hull computation. -/
private theorem exists_qhull : ∃ qhull : List (Fin 2 → K) → Option (List Nat), Qhull qhull := by
  classical
  refine ⟨fun pts => if Collinear K (pointSet pts) then none else some (List.range pts.length), ?_, ?_⟩
  · intro pts vs h
    dsimp only at h
    split at h
    · cases h
    · cases h
      congr 1
      ext p
      simp only [List.mem_range, Set.mem_ofPred_eq, pointSet]
      rw [List.mem_iff_getElem?]
      constructor
      · rintro ⟨i, _, hi⟩; exact ⟨i, hi⟩
      · rintro ⟨i, hi⟩
        exact ⟨i, (List.getElem?_eq_some_iff.1 hi).1, hi⟩
  · intro pts
    split <;> simp_all

private theorem not_collinear {s : Set (Fin 2 → ℚ)} (h1 : ![-1, -2] ∈ s) (h2 : ![1, 0] ∈ s)
    (h3 : ![-1, 0] ∈ s) : ¬ Collinear ℚ s := by
  intro h
  obtain ⟨v, hv⟩ := (collinear_iff_of_mem h3).1 h
  obtain ⟨r, hr⟩ := hv _ h1
  obtain ⟨t, ht⟩ := hv _ h2
  have r0 := congrFun hr 0
  have r1 := congrFun hr 1
  have t0 := congrFun ht 0
  have t1 := congrFun ht 1
  simp at r0 r1 t0 t1
  rcases t1 with t1 | t1
  · rw [t1] at t0; norm_num at t0
  · rw [t1] at r1; norm_num at r1

/-- **C149** is false: with the threshold 0.1 so few corners agree with the correlations 0.8 and 0.2 that
CLOISTER falls back on the plain boundary, while with 0.7 the boundary is smaller. -/
theorem C149_refuted : ¬ ThresholdGrows := by
  intro hall
  obtain ⟨qhull, hq⟩ := exists_qhull (K := ℚ)
  have hsub := hall 3 qhull refPearson (.fin (1/2)) (1/10) (7/10) refA ![-1, 1, 1] refRows hq
    (by norm_num) (by norm_num)
  have h0 : ∀ i, edge ![-1, 1, 1] refRows i = fun j : Fin _ => if i.testBit j then 1 else -1 := by
    intro i
    funext j
    rw [edge_eq]
    have h1 : ∀ j, colMax (K := ℚ) ![-1, 1, 1] refRows j = 1 := by decide +kernel
    have h2 : ∀ j, colMin (K := ℚ) ![-1, 1, 1] refRows j = -1 := by decide +kernel
    rw [h1, h2]
  have hk : (xKept (correlation refPearson (.fin (1/2))) (.fin (7/10)) ![-1, 1, 1] refRows).map
      (project refA) = [![-1, -2], ![1, 0], ![-1, 0], ![1, 2]] := by
    unfold xKept remove
    simp only [h0]
    decide +kernel
  have hk' : (xKept (correlation refPearson (.fin (1/2))) (.fin (1/10)) ![-1, 1, 1] refRows).map
      (project refA) = [![-1, -2], ![1, 2]] := by
    unfold xKept remove
    simp only [h0]
    decide +kernel
  have he : (xEdge ![-1, 1, 1] refRows).map (project refA) =
      [![-1, -2], ![1, -2], ![-1, 0], ![1, 0], ![-1, 0], ![1, 0], ![-1, 2], ![1, 2]] := by
    unfold xEdge
    rw [List.map_congr_left (g := fun i (j : Fin 3) => if i.testBit j then (1 : ℚ) else -1) fun i _ => h0 i]
    decide +kernel
  -- the higher threshold
  rw [ecorr_hull hq refPearson _ (.fin (7/10)) _ _ _ (by
    rw [hk]
    exact not_collinear (by simp [pointSet]) (by simp [pointSet]) (by simp [pointSet])), hk] at hsub
  -- the lower threshold
  have hnone : qhull ((xKept (correlation refPearson (.fin (1/2))) (.fin (1/10)) ![-1, 1, 1]
      refRows).map (project refA)) = none := by
    rw [hq.fails, hk']
    have : pointSet [![-1, -2], ![1, 2]] = ({![-1, -2], ![1, 2]} : Set (Fin 2 → ℚ)) := by
      ext p; simp [pointSet]
    rw [this]
    exact collinear_pair ℚ _ _
  have hfall := (C57_fallback qhull refPearson (.fin (1/2)) (.fin (1/10)) refA ![-1, 1, 1] refRows).1 hnone
  rw [hfall, C148_shadow qhull hq.correct] at hsub
  swap
  · intro h
    rw [hq.fails, he] at h
    exact not_collinear (by simp [pointSet]) (by simp [pointSet]) (by simp [pointSet]) h
  have hmem := hsub ⟨![-1, 1, 1], fun j => ⟨⟨_, List.mem_cons_self, le_rfl⟩, _, List.mem_cons_self, le_rfl⟩, rfl⟩
  have hp : project refA ![-1, 1, 1] = ![-1, 2] := by decide +kernel
  rw [← project_place, hp] at hmem
  have hconv : Convex ℚ {p : Fin 2 → ℚ | p 1 - p 0 ≤ 1} := by
    apply convex_halfSpace_le
    constructor
    · intro x y; simp; ring
    · intro c x; simp; ring
  have hin : pointSet [![-1, -2], ![1, 0], ![-1, 0], ![1, 2]] ⊆ {p : Fin 2 → ℚ | p 1 - p 0 ≤ 1} := by
    intro p hp
    have hp : p ∈ [![-1, -2], ![1, 0], ![-1, 0], ![1, 2]] := hp
    simp only [List.mem_cons, List.not_mem_nil, or_false] at hp
    rcases hp with rfl | rfl | rfl | rfl <;> simp only [Set.mem_ofPred_eq] <;> norm_num
  have : (![-1, 2] : Fin 2 → ℚ) 1 - (![-1, 2] : Fin 2 → ℚ) 0 ≤ 1 := convexHull_min hin hconv hmem
  norm_num at this

/-- Non-vacuity for C149: at the threshold 0.7 the kept corners of the same instances span an area. -/
example : ¬ Collinear ℚ (pointSet ((xKept (correlation refPearson (.fin (1/2))) (.fin (7/10)) ![-1, 1, 1]
    refRows).map (project refA))) := by
  have h0 : ∀ i, edge ![-1, 1, 1] refRows i = fun j : Fin _ => if i.testBit j then 1 else -1 := by
    intro i
    funext j
    rw [edge_eq]
    have h1 : ∀ j, colMax (K := ℚ) ![-1, 1, 1] refRows j = 1 := by decide +kernel
    have h2 : ∀ j, colMin (K := ℚ) ![-1, 1, 1] refRows j = -1 := by decide +kernel
    rw [h1, h2]
  have hk : (xKept (correlation refPearson (.fin (1/2))) (.fin (7/10)) ![-1, 1, 1] refRows).map
      (project refA) = [![-1, -2], ![1, 0], ![-1, 0], ![1, 2]] := by
    unfold xKept remove
    simp only [h0]
    decide +kernel
  rw [hk]
  exact not_collinear (by simp [pointSet]) (by simp [pointSet]) (by simp [pointSet])

/-- Non-vacuity for C148: the box of three instances in the plane, seen through the identity. -/
example : ∃ qhull : List (Fin 2 → ℚ) → Option (List Nat), HullCorrect qhull ∧
    qhull ((xEdge (exRow 1 2) [exRow 3 0]).map (project ![![1, 0], ![2, 1]])) ≠ none ∧
    (∀ r ∈ [exRow 1 2, exRow 3 0], r ∈ [exRow 3 0, exRow 1 2, exRow 1 2]) :=
  ⟨exHull, exHull_correct, by simp [exHull, xEdge], by simp⟩

end Verif.Cloister
