import Verif.Filter.OrderLemmas
import Mathlib.Tactic.NormNum
/-!
# C144, C145: how many instances the filter keeps
-/
set_option autoImplicit false
set_option linter.unusedSectionVars false

namespace Verif.Filter

private theorem keeps_eq (na nf : Nat) (ty : FilterType) (d : ℝ) (rows : List Inst) :
    keeps na nf ty d rows = (keptRows rows (filterInstance (euclidTests na nf d) ty rows)).length := by
  have h : ∀ (l : List Inst) (fs : List Flags), fs.length = l.length →
      (fs.filter fun f => f.excluded = false).length = (keptRows l fs).length := by
    intro l
    induction l with
    | nil => intro fs h; simp at h; subst h; rfl
    | cons a l ih =>
      intro fs h
      cases fs with
      | nil => simp at h
      | cons f fs =>
        have := ih fs (by simpa using h)
        unfold keptRows at this ⊢
        rw [List.zip_cons_cons, List.filter_cons, List.filter_cons]
        cases hf : f.excluded <;> simp [hf, this] at this ⊢ <;> simpa using this
  exact h _ _ (filterInstance_length ..)

/-- **C144** (what holds) With at least twice the threshold the filter keeps no more instances — and it
would keep no more of them in any other order. -/
theorem C144_partial (na nf : Nat) (ty : FilterType) (d d' : ℝ) (rows rows' : List Inst)
    (hrows : ∀ r ∈ rows, Shaped na nf r) (hp : rows'.Perm rows) (hd : 2 * d ≤ d') :
    keeps na nf ty d' rows' ≤ keeps na nf ty d rows := by
  rw [keeps_eq, keeps_eq]
  refine kept_length_le _ _ ty ty rows rows' hp ?_ ?_
  · intro a ha b hb h
    have h0 := euclid_covers_nonneg h
    have := euclid_covers_mono (d' := d') (by linarith) h
    exact ⟨this, euclid_covers_symm (hrows a ha) (hrows b hb) this⟩
  · intro a ha b hb c hc h h'
    exact euclid_covers_trans (hrows a ha) (hrows b hb) (hrows c hc) hd h h'

/-- **C145** (what holds) If among the instances to be filtered "superfluous beside" is transitive, then
every order of them leaves the same number of instances. -/
theorem C145_classes_partial (na nf : Nat) (ty : FilterType) (d : ℝ) (rows rows' : List Inst)
    (hrows : ∀ r ∈ rows, Shaped na nf r) (hp : rows'.Perm rows)
    (htrans : ∀ a ∈ rows, ∀ b ∈ rows, ∀ c ∈ rows, Covers (euclidTests na nf d) ty a b →
      Covers (euclidTests na nf d) ty b c → Covers (euclidTests na nf d) ty a c) :
    keeps na nf ty d rows' = keeps na nf ty d rows := by
  have key : ∀ l l' : List Inst, l'.Perm l → (∀ r ∈ l, r ∈ rows) →
      keeps na nf ty d l' ≤ keeps na nf ty d l := by
    intro l l' hl hm
    rw [keeps_eq, keeps_eq]
    refine kept_length_le _ _ ty ty l l' hl ?_ ?_
    · intro a ha b hb h
      exact ⟨h, euclid_covers_symm (hrows a (hm a ha)) (hrows b (hm b hb)) h⟩
    · intro a ha b hb c hc h h'
      exact htrans b (hm b hb) a (hm a ha) c (hm c hc)
        (euclid_covers_symm (hrows a (hm a ha)) (hrows b (hm b hb)) h) h'
  exact le_antisymm (key rows rows' hp (fun _ h => h))
    (key rows' rows hp.symm (fun _ h => hp.mem_iff.1 h))

/-- **C145** (what holds) With the threshold 0 (duplicates only) the number of instances left does not
depend on their order. -/
theorem C145_duplicates_partial (na nf : Nat) (ty : FilterType) (rows rows' : List Inst)
    (hrows : ∀ r ∈ rows, Shaped na nf r) (hp : rows'.Perm rows) :
    keeps na nf ty 0 rows' = keeps na nf ty 0 rows := by
  refine C145_classes_partial na nf ty 0 rows rows' hrows hp ?_
  intro a ha b hb c hc h h'
  exact euclid_covers_trans (hrows b hb) (hrows a ha) (hrows c hc) (by norm_num)
    (euclid_covers_symm (hrows a ha) (hrows b hb) h) h'

/-- **C145** (what holds) Whatever the orders, twice the threshold in one of them leaves no more instances
than the threshold in the other. -/
theorem C145_partial (na nf : Nat) (ty : FilterType) (d : ℝ) (rows rows' : List Inst)
    (hrows : ∀ r ∈ rows, Shaped na nf r) (hp : rows'.Perm rows) :
    keeps na nf ty (2 * d) rows' ≤ keeps na nf ty d rows ∧
    keeps na nf ty (2 * d) rows ≤ keeps na nf ty d rows' :=
  ⟨C144_partial na nf ty d (2 * d) rows rows' hrows hp le_rfl,
    C144_partial na nf ty d (2 * d) rows' rows (fun r hr => hrows r (hp.mem_iff.1 hr)) hp.symm le_rfl⟩

/-! ### The witnesses -/

/-- Points of the plane on which one algorithm performs alike and well. -/
private def pt (p : ℤ × ℤ) : Inst := ⟨[(p.1 : ℝ), (p.2 : ℝ)], [0], [true]⟩

/-- The same tests with integers. -/
private def intTests (d : ℕ) : Tests (ℤ × ℤ) where
  near a b := decide ((a.1 - b.1) ^ 2 + (a.2 - b.2) ^ 2 ≤ (d : ℤ) ^ 2)
  close _ _ := true
  bothGood _ _ := true

private theorem comap_pt (d : ℕ) : (euclidTests 1 2 d).comap pt = intTests d := by
  unfold Tests.comap euclidTests intTests pt
  congr 1
  · funext a b
    rw [decide_eq_decide]
    unfold euclid
    rw [Real.sqrt_le_iff]
    simp only [List.zipWith_cons_cons, List.zipWith_nil_left, List.sum_cons, List.sum_nil, add_zero,
      Nat.cast_nonneg, true_and]
    exact_mod_cast Iff.rfl
  · funext a b
    rw [decide_eq_true_eq]
    unfold euclid
    simp only [List.zipWith_cons_cons, List.zipWith_nil_left, List.sum_cons, List.sum_nil, add_zero,
      sub_self]
    norm_num

private theorem keeps_pt (ty : FilterType) (d : ℕ) (l : List (ℤ × ℤ)) :
    keeps 1 2 ty d (l.map pt) =
      ((filterInstance (intTests d) ty l).filter fun f => f.excluded = false).length := by
  unfold keeps
  rw [filterInstance_map, comap_pt]

private theorem shaped_pt (l : List (ℤ × ℤ)) : ∀ r ∈ l.map pt, Shaped 1 2 r := by
  intro r hr
  obtain ⟨p, -, rfl⟩ := List.mem_map.1 hr
  exact ⟨rfl, rfl, rfl⟩

/-- **C144** A larger threshold can leave more instances, whichever the type.  With 10 the second of
`(11, 0), (0, 0), (-6, 8), (-6, -8)` removes the third and the fourth; with 11 the first removes the
second, and the others stay. -/
theorem C144_refuted (ty : FilterType) :
    ¬ ∀ (na nf : Nat) (d d' : ℝ) (rows : List Inst), (∀ r ∈ rows, Shaped na nf r) → d ≤ d' →
      keeps na nf ty d' rows ≤ keeps na nf ty d rows := by
  intro h
  have := h 1 2 (10 : ℕ) (11 : ℕ) ([(11, 0), (0, 0), (-6, 8), (-6, -8)].map pt) (shaped_pt _) (by norm_num)
  rw [keeps_pt, keeps_pt] at this
  revert this
  cases ty <;> decide +kernel

/-- **C145** The order of the instances matters, whichever the type: of three points in a row each within
the threshold of the next, the first and the last stay — unless the middle one comes first. -/
theorem C145_refuted (ty : FilterType) :
    ¬ ∀ (na nf : Nat) (d : ℝ) (rows rows' : List Inst), (∀ r ∈ rows, Shaped na nf r) →
      rows'.Perm rows → keeps na nf ty d rows' = keeps na nf ty d rows := by
  intro h
  have := h 1 2 (1 : ℕ) ([(0, 0), (1, 0), (2, 0)].map pt) ([(1, 0), (0, 0), (2, 0)].map pt)
    (shaped_pt _) (List.Perm.map _ (List.Perm.swap _ _ _))
  rw [keeps_pt, keeps_pt] at this
  revert this
  cases ty <;> decide +kernel

/-! ### Examples -/

-- C144_partial is sharp enough to be of use: 3 of 4 instances with 1, 1 of them with 2.
example : keeps 1 2 .ftr (1 : ℕ) ([(0, 0), (1, 0), (2, 0), (0, 2)].map pt) = 3 ∧
    keeps 1 2 .ftr (2 : ℕ) ([(0, 0), (1, 0), (2, 0), (0, 2)].map pt) = 1 := by
  rw [keeps_pt, keeps_pt]
  decide +kernel

example : keeps 1 2 .ftr (2 : ℕ) ([(2, 0), (0, 2), (0, 0), (1, 0)].map pt) ≤
    keeps 1 2 .ftr (1 : ℕ) ([(0, 0), (1, 0), (2, 0), (0, 2)].map pt) :=
  C144_partial 1 2 .ftr _ _ _ _ (shaped_pt _) (List.Perm.map _ (by decide)) (by norm_num)

-- C145_duplicates: duplicates in two orders.
example : keeps 1 2 .ftrAPGood 0 ([(5, 5), (0, 0), (5, 5)].map pt) =
    keeps 1 2 .ftrAPGood 0 ([(0, 0), (5, 5), (5, 5)].map pt) :=
  C145_duplicates_partial 1 2 .ftrAPGood _ _ (shaped_pt _) (List.Perm.map _ (by decide))

example : keeps 1 2 .ftrAPGood (0 : ℕ) ([(5, 5), (0, 0), (5, 5)].map pt) = 2 := by
  rw [keeps_pt]
  decide +kernel

end Verif.Filter
