import Verif.Cloister.PropsBox
/-!
# CLOISTER: C160 (the order of instances and features)
-/
set_option autoImplicit false
set_option linter.unusedSectionVars false

namespace Verif.Cloister

variable {K : Type} {m : Nat} [Field K] [LinearOrder K]

/-- The columns of one row in another order: entry `j` is the entry `σ j` of the row. -/
def columnsBy (σ : Equiv.Perm (Fin m)) (r : Fin m → K) : Fin m → K := fun j => r (σ j)

variable [IsStrictOrderedRing K]

private theorem colMin_least (a : Fin m → K) (l : List (Fin m → K)) (j : Fin m) :
    IsLeast (column (a :: l) j) (colMin a l j) := by
  have h := (isCorner_edge a l 0 j).2 (by simp)
  rwa [edge_eq, if_neg (by simp)] at h

private theorem colMax_greatest (a : Fin m → K) (l : List (Fin m → K)) (j : Fin m) :
    IsGreatest (column (a :: l) j) (colMax a l j) := by
  obtain ⟨i, _, hb⟩ := exists_bits (m := m) fun _ => true
  have := (isCorner_edge a l i j).1 (hb j)
  rwa [edge_eq, hb j, if_pos rfl] at this

private theorem edge_congr (a a' : Fin m → K) (l l' : List (Fin m → K))
    (h : ∀ r, r ∈ a :: l ↔ r ∈ a' :: l') : edge a l = edge a' l' := by
  have hc : ∀ j, column (a :: l) j = column (a' :: l') j := by
    intro j
    ext v
    unfold column
    simp only [Set.mem_ofPred_eq, h]
  funext i j
  rw [edge_eq, edge_eq, (colMax_greatest a l j).unique (hc j ▸ colMax_greatest a' l' j),
    (colMin_least a l j).unique (hc j ▸ colMin_least a' l' j)]

/-- **C160** Instances in another order, or given more than once, have exactly the same boundaries, as
long as the coefficients of correlation are the same. -/
theorem C160_instances (qhull : List (Fin 2 → K) → Option (List Nat))
    (pearson : List (Fin m → K) → Fin m → Fin m → Num × Num) (pThr cThr : Num) (A : Fin 2 → Fin m → K)
    (a a' : Fin m → K) (l l' : List (Fin m → K)) (h : ∀ r, r ∈ a :: l ↔ r ∈ a' :: l')
    (hp : pearson (a :: l) = pearson (a' :: l')) :
    cloister qhull (pearson (a :: l)) pThr cThr A a l =
      cloister qhull (pearson (a' :: l')) pThr cThr A a' l' := by
  unfold cloister xEdge xKept remove
  rw [edge_congr a a' l l' h, hp]

private theorem column_by (σ : Equiv.Perm (Fin m)) (rows : List (Fin m → K)) (j : Fin m) :
    column (rows.map (columnsBy σ)) j = column rows (σ j) := by
  ext v
  unfold column
  simp [columnsBy]

private theorem isCorner_by (σ : Equiv.Perm (Fin m)) (rows : List (Fin m → K)) (c : Fin m → Bool)
    (e : Fin m → K) :
    IsCorner (rows.map (columnsBy σ)) (fun j => c (σ j)) (columnsBy σ e) ↔ IsCorner rows c e := by
  unfold IsCorner
  simp only [column_by]
  constructor
  · intro h j
    have := h (σ.symm j)
    simpa [columnsBy] using this
  · intro h j
    exact h (σ j)

private theorem exists_corner_by (σ : Equiv.Perm (Fin m)) (rows : List (Fin m → K)) (e : Fin m → K) :
    (∃ c, IsCorner (rows.map (columnsBy σ)) c (columnsBy σ e)) ↔ ∃ c, IsCorner rows c e := by
  constructor
  · rintro ⟨c, hc⟩
    refine ⟨fun j => c (σ.symm j), (isCorner_by σ rows _ e).1 ?_⟩
    simpa using hc
  · rintro ⟨c, hc⟩
    exact ⟨_, (isCorner_by σ rows c e).2 hc⟩

private theorem mem_xEdge (a : Fin m → K) (l : List (Fin m → K)) (e : Fin m → K) :
    e ∈ xEdge a l ↔ ∃ c, IsCorner (a :: l) c e := by
  constructor
  · intro h
    obtain ⟨i, _, rfl⟩ := List.mem_map.1 h
    exact ⟨_, isCorner_edge a l i⟩
  · rintro ⟨c, hc⟩
    obtain ⟨i, ⟨_, _, hx⟩, -⟩ := C54_every_corner a l c
    exact List.mem_of_getElem? (hx e hc)

private theorem project_by (σ : Equiv.Perm (Fin m)) (A : Fin 2 → Fin m → K) (e : Fin m → K) :
    project (fun r => columnsBy σ (A r)) (columnsBy σ e) = project A e := by
  funext r
  exact Equiv.sum_comp σ fun j => e j * A r j

private theorem points_by (σ : Equiv.Perm (Fin m)) (A : Fin 2 → Fin m → K) (es es' : List (Fin m → K))
    (h : ∀ e, columnsBy σ e ∈ es' ↔ e ∈ es) :
    pointSet (es'.map (project fun r => columnsBy σ (A r))) = pointSet (es.map (project A)) := by
  ext p
  unfold pointSet
  simp only [Set.mem_ofPred_eq, List.mem_map]
  constructor
  · rintro ⟨e, he, rfl⟩
    have hb : e = columnsBy σ (columnsBy σ.symm e) := by
      funext j; simp [columnsBy]
    rw [hb] at he
    refine ⟨_, (h _).1 he, ?_⟩
    rw [← project_by σ, ← hb]
  · rintro ⟨e, he, rfl⟩
    exact ⟨_, (h e).2 he, project_by σ A e⟩

private theorem correlation_by (σ : Equiv.Perm (Fin m)) (pearson : Fin m → Fin m → Num × Num)
    (pThr : Num) (j k : Fin m) :
    correlation (fun j k => pearson (σ j) (σ k)) pThr j k = correlation pearson pThr (σ j) (σ k) := by
  unfold correlation
  simp only [ne_eq, σ.injective.eq_iff]

private theorem kept_by (σ : Equiv.Perm (Fin m)) (pearson : Fin m → Fin m → Num × Num)
    (hs : ∀ i j, pearson i j = pearson j i) (pThr cThr : Num) (a : Fin m → K) (l : List (Fin m → K))
    (e : Fin m → K) :
    columnsBy σ e ∈ xKept (correlation (fun j k => pearson (σ j) (σ k)) pThr) cThr (columnsBy σ a)
        (l.map (columnsBy σ)) ↔
      e ∈ xKept (correlation pearson pThr) cThr a l := by
  rw [C55_kept _ (fun i j => hs _ _), C55_kept _ hs, ← List.map_cons, exists_corner_by]
  refine and_congr_right fun _ => ?_
  unfold Contradicts
  simp only [correlation_by, columnsBy]
  constructor
  · intro h j k hjk
    have := h (σ.symm j) (σ.symm k) (fun he => hjk (σ.symm.injective he))
    simpa using this
  · intro h j k hjk
    exact h (σ j) (σ k) fun he => hjk (σ.injective he)

private theorem hull_congr {qhull : List (Fin 2 → K) → Option (List Nat)} (hq : Qhull qhull)
    (pts pts' : List (Fin 2 → K)) (h : pointSet pts' = pointSet pts) :
    convexHull K (pointSet (hullPoints qhull pts')) = convexHull K (pointSet (hullPoints qhull pts)) ∧
      (hullPoints qhull pts').isEmpty = (hullPoints qhull pts).isEmpty := by
  have hh : convexHull K (pointSet (hullPoints qhull pts')) =
      convexHull K (pointSet (hullPoints qhull pts)) := by
    cases hr : qhull pts with
    | none =>
      have : qhull pts' = none := by rw [hq.fails, h, ← hq.fails]; exact hr
      unfold hullPoints
      rw [hr, this]
    | some vs =>
      have : qhull pts' ≠ none := by rw [ne_eq, hq.fails, h, ← hq.fails, hr]; simp
      obtain ⟨ws, hws⟩ := Option.ne_none_iff_exists'.1 this
      rw [hullPoints_convexHull hq.correct _ _ hr, hullPoints_convexHull hq.correct _ _ hws, h]
  refine ⟨hh, ?_⟩
  have key : ∀ l : List (Fin 2 → K), l.isEmpty = true ↔ convexHull K (pointSet l) = ∅ := by
    intro l
    rw [convexHull_eq_empty]
    cases l with
    | nil => simp [pointSet]
    | cons p l =>
      simp only [List.isEmpty_cons, Bool.false_eq_true, false_iff]
      exact Set.Nonempty.ne_empty ⟨p, List.mem_cons_self⟩
  rw [Bool.eq_iff_iff, key, key, hh]

/-- **C160** With the features in another order (in the instances, in the projection and in the
coefficients of correlation), both boundaries enclose the same area. -/
theorem C160_features (qhull : List (Fin 2 → K) → Option (List Nat)) (hq : Qhull qhull)
    (σ : Equiv.Perm (Fin m)) (pearson : Fin m → Fin m → Num × Num)
    (hs : ∀ i j, pearson i j = pearson j i) (pThr cThr : Num) (A : Fin 2 → Fin m → K)
    (a : Fin m → K) (l : List (Fin m → K)) :
    let old := cloister qhull pearson pThr cThr A a l
    let new := cloister qhull (fun j k => pearson (σ j) (σ k)) pThr cThr (fun r => columnsBy σ (A r))
      (columnsBy σ a) (l.map (columnsBy σ))
    convexHull K (pointSet new.1) = convexHull K (pointSet old.1) ∧
      convexHull K (pointSet new.2) = convexHull K (pointSet old.2) := by
  have h1 := points_by σ A (xEdge a l) (xEdge (columnsBy σ a) (l.map (columnsBy σ))) fun e => by
    rw [mem_xEdge, mem_xEdge, ← List.map_cons, exists_corner_by]
  have h2 := points_by σ A _ _ (kept_by σ pearson hs pThr cThr a l)
  obtain ⟨e1, -⟩ := hull_congr hq _ _ h1
  obtain ⟨e2, b2⟩ := hull_congr hq _ _ h2
  refine ⟨e1, ?_⟩
  dsimp only [cloister]
  rw [b2]
  split
  · exact e1
  · exact e2

/-- Non-vacuity for C160: the three features of the twenty instances above in another order, and the
instances in another order; the corners come in another order too. -/
example : (∀ i j, refPearson i j = refPearson j i) ∧
    (∀ r, r ∈ (exRow 1 2 : Fin 2 → ℚ) :: [exRow 3 0, exRow 2 5] ↔ r ∈ exRow 2 5 :: [exRow 1 2, exRow 3 0]) ∧
    columnsBy (Equiv.swap 0 1) (exRow 1 2 : Fin 2 → ℚ) = exRow 2 1 := by
  refine ⟨by decide +kernel, ?_, by decide +kernel⟩
  intro r
  simp only [List.mem_cons, List.not_mem_nil, or_false]
  tauto

end Verif.Cloister
