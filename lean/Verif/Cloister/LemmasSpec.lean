import Verif.Cloister.Spec
import Verif.Cloister.Lemmas
/-!
# Lemmas that relate the model of CLOISTER to its specification
-/
set_option autoImplicit false
set_option linter.unusedSectionVars false

namespace Verif.Cloister

variable {K : Type} {m : Nat} [Field K] [LinearOrder K]

theorem isCorner_edge (a : Fin m → K) (l : List (Fin m → K)) (i : Nat) :
    IsCorner (a :: l) (fun j => i.testBit j) (edge a l i) := by
  intro j
  refine ⟨fun h => ?_, fun h => ?_⟩
  · have h : i.testBit j = true := h
    rw [edge_eq, if_pos h]
    obtain ⟨⟨h1, h2⟩, h3⟩ := foldl_max_spec (fun r => r j) l (a j)
    constructor
    · rcases h3 with h3 | ⟨r, hr, h3⟩
      · exact ⟨a, List.mem_cons_self, h3.symm⟩
      · exact ⟨r, List.mem_cons_of_mem _ hr, h3.symm⟩
    · rintro v ⟨r, hr, rfl⟩
      rcases List.mem_cons.1 hr with rfl | hr
      · exact h1
      · exact h2 r hr
  · have h : i.testBit j = false := h
    rw [edge_eq, if_neg (by simp [h])]
    obtain ⟨⟨h1, h2⟩, h3⟩ := foldl_min_spec (fun r => r j) l (a j)
    constructor
    · rcases h3 with h3 | ⟨r, hr, h3⟩
      · exact ⟨a, List.mem_cons_self, h3.symm⟩
      · exact ⟨r, List.mem_cons_of_mem _ hr, h3.symm⟩
    · rintro v ⟨r, hr, rfl⟩
      rcases List.mem_cons.1 hr with rfl | hr
      · exact h1
      · exact h2 r hr

theorem isCorner_unique {rows : List (Fin m → K)} {c : Fin m → Bool} {e e' : Fin m → K}
    (h : IsCorner rows c e) (h' : IsCorner rows c e') : e = e' := by
  funext j
  cases hc : c j with
  | true => exact ((h j).1 hc).unique ((h' j).1 hc)
  | false => exact ((h j).2 hc).unique ((h' j).2 hc)

theorem sgn_eq_iff (a b : K) : sgn a = sgn b ↔ SameSign a b := by
  unfold sgn SameSign
  rcases lt_trichotomy 0 a with ha | ha | ha <;> rcases lt_trichotomy 0 b with hb | hb | hb
  all_goals first | subst ha | skip
  all_goals first | subst hb | skip
  all_goals simp [*, le_of_lt, not_lt_of_gt]

theorem bad_iff (rho : Fin m → Fin m → Num) (thr : Num) (e : Fin m → K) (j k : Fin m) :
    bad rho thr e j k = true ↔ Contradicts rho thr e j k := by
  unfold bad Contradicts
  rw [← sgn_eq_iff]
  simp

theorem SameSign.symm' {a b : K} (h : SameSign a b) : SameSign b a := ⟨h.1.symm, h.2.symm⟩

variable [IsStrictOrderedRing K]

omit [IsStrictOrderedRing K] in
theorem hullPoints_convexHull {qhull : List (Fin 2 → K) → Option (List Nat)}
    (hq : HullCorrect qhull) (pts : List (Fin 2 → K)) (vs : List Nat) (h : qhull pts = some vs) :
    convexHull K (pointSet (hullPoints qhull pts)) = convexHull K (pointSet pts) := by
  rw [← hq pts vs h]
  congr 1
  ext p
  unfold hullPoints pointSet
  rw [h]
  simp only [List.mem_filterMap, Set.mem_ofPred_eq]

omit [LinearOrder K] [IsStrictOrderedRing K] in
theorem project_place (A : Fin 2 → Fin m → K) : project A = place A := by
  funext v k
  unfold project place
  fin_cases k <;> exact Finset.sum_congr rfl fun j _ => mul_comm _ _

theorem project_isLinear (A : Fin 2 → Fin m → K) : IsLinearMap K (project A) := by
  constructor
  · intro v w
    funext r
    simp [project, add_mul, Finset.sum_add_distrib]
  · intro c v
    funext r
    simp [project, mul_assoc, Finset.mul_sum]

theorem box_mem_hull (a : Fin m → K) (l : List (Fin m → K)) (r : Fin m → K) (hr : r ∈ a :: l) :
    r ∈ convexHull K {e | e ∈ xEdge a l} := by
  have hset : {e | e ∈ xEdge a l} = Set.univ.pi fun j => ({colMin a l j, colMax a l j} : Set K) := by
    ext e
    simp only [Set.mem_ofPred_eq, Set.mem_pi, Set.mem_univ, forall_true_left, Set.mem_insert_iff,
      Set.mem_singleton_iff]
    unfold xEdge
    simp only [List.mem_map, List.mem_range]
    constructor
    · rintro ⟨i, hi, rfl⟩ j
      rw [edge_eq]
      split
      · exact .inr rfl
      · exact .inl rfl
    · intro h
      obtain ⟨i, hi, hb⟩ := exists_bits fun j => decide (e j = colMax a l j)
      refine ⟨i, hi, ?_⟩
      funext j
      rw [edge_eq, hb]
      by_cases hj : e j = colMax a l j
      · simp [hj]
      · rcases h j with h | h
        · simp only [hj, decide_false, Bool.false_eq_true, if_false]; exact h.symm
        · exact absurd h hj
  rw [hset, convexHull_pi]
  intro j _
  have h1 := (isCorner_edge a l 0 j).2 (by simp)
  have h2 : IsGreatest (column (a :: l) j) (colMax a l j) := by
    obtain ⟨i, hi, hb⟩ := exists_bits (m := m) fun _ => true
    have := (isCorner_edge a l i j).1 (hb j)
    rwa [edge_eq, hb j, if_pos rfl] at this
  rw [edge_eq, if_neg (by simp)] at h1
  show r j ∈ convexHull K {colMin a l j, colMax a l j}
  rw [convexHull_pair, segment_eq_Icc (h1.2 h2.1)]
  exact ⟨h1.2 ⟨r, hr, rfl⟩, h2.2 ⟨r, hr, rfl⟩⟩

end Verif.Cloister
