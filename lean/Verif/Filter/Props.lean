import Verif.Filter.Lemmas
import Verif.Filter.Uniformity
/-!
# C31–C34: the instance filter
-/
set_option autoImplicit false
set_option linter.unusedSectionVars false

namespace Verif.Filter

variable {R : Type}

/-- **C31** Every removed instance has an earlier kept instance that covers it.  The flags are
the result of `filter_instance`, one per instance, and the first one is never removed. -/
theorem C31_removed_covered (T : Tests R) (ty : FilterType) (rows : List R) :
    (filterInstance T ty rows).length = rows.length ∧
    (∀ (j : Nat) (b : R) (f : Flags), rows[j]? = some b →
      (filterInstance T ty rows)[j]? = some f → f.excluded = true →
      ∃ i a, i < j ∧ Kept rows (filterInstance T ty rows) i a ∧ Covers T ty a b) ∧
    (∀ f, (filterInstance T ty rows)[0]? = some f → f.excluded = false) := by
  refine ⟨filterInstance_length T ty rows, ?_, ?_⟩
  · intro j b f hb hf he
    exact (filter_flags T ty rows j b f hb hf).1.1 he
  · intro f hf
    have h0 : 0 < rows.length := by
      have := (List.getElem?_eq_some_iff.1 hf).1
      rwa [filterInstance_length] at this
    cases he : f.excluded with
    | false => rfl
    | true =>
      obtain ⟨i, a, hi, -⟩ :=
        (filter_flags T ty rows 0 _ f (List.getElem?_eq_getElem h0) hf).1.1 he
      omega

theorem keptRows_getElem (rows : List R) (flags : List Flags) :
    List.Pairwise (fun p q : Nat × R => p.1 < q.1)
      (((rows.zip flags).zipIdx.filter fun p => !p.1.2.excluded).map fun p => (p.2, p.1.1)) ∧
    keptRows rows flags =
      (((rows.zip flags).zipIdx.filter fun p => !p.1.2.excluded).map fun p => p.1.1) := by
  constructor
  · rw [List.pairwise_map]
    apply List.Pairwise.filter
    rw [List.pairwise_iff_getElem]
    intro i j hi hj hij
    simpa using hij
  · unfold keptRows
    have h : ∀ (l : List (R × Flags)) (k : Nat), (l.filter fun p => !p.2.excluded).map Prod.fst =
        ((l.zipIdx k).filter fun p => !p.1.2.excluded).map fun p => p.1.1 := by
      intro l
      induction l with
      | nil => intro k; rfl
      | cons a l ih =>
        intro k
        rw [List.zipIdx_cons]
        cases ha : a.2.excluded <;> simp [ha, ih (k + 1)]
    exact h _ 0

/-- **C32** Among the kept instances, in their order, no earlier one covers a later one. -/
theorem C32_kept_apart (T : Tests R) (ty : FilterType) (rows : List R) :
    (keptRows rows (filterInstance T ty rows)).Pairwise fun a b => ¬ Covers T ty a b := by
  obtain ⟨h1, h2⟩ := keptRows_getElem rows (filterInstance T ty rows)
  rw [h2]
  rw [List.pairwise_map] at h1 ⊢
  refine h1.imp_of_mem ?_
  intro p q hp hq hlt hcov
  have mem : ∀ {p : (R × Flags) × Nat},
      p ∈ ((rows.zip (filterInstance T ty rows)).zipIdx.filter fun p => !p.1.2.excluded) →
      rows[p.2]? = some p.1.1 ∧ (filterInstance T ty rows)[p.2]? = some p.1.2 ∧
        p.1.2.excluded = false := by
    intro p hp
    rw [List.mem_filter] at hp
    have h := List.mem_zipIdx' hp.1
    obtain ⟨hlt, he⟩ := h
    rw [List.length_zip] at hlt
    rw [List.getElem_zip] at he
    refine ⟨?_, ?_, by simpa using hp.2⟩
    · rw [List.getElem?_eq_getElem (by omega), he]
    · rw [List.getElem?_eq_getElem (by omega), he]
  obtain ⟨p1, p2, p3⟩ := mem hp
  obtain ⟨q1, q2, q3⟩ := mem hq
  have := (filter_flags T ty rows q.2 q.1.1 q.1.2 q1 q2).1.2
    ⟨p.2, p.1.1, hlt, ⟨p1, p.1.2, p2, p3⟩, hcov⟩
  rw [q3] at this
  cases this

/-- **C33** The meaning of the flags `is_dissimilar` and `is_visa`. -/
theorem C33_flags (T : Tests R) (ty : FilterType) (rows : List R) (j : Nat) (b : R) (f : Flags)
    (hb : rows[j]? = some b) (hf : (filterInstance T ty rows)[j]? = some f) :
    (f.dissimilar = true ↔
      ¬ ∃ i a, i < j ∧ Kept rows (filterInstance T ty rows) i a ∧ T.near a b = true) ∧
    (f.visa = true ↔ Kept rows (filterInstance T ty rows) j b ∧ f.dissimilar = false ∧
      ty ≠ .ftr) := by
  obtain ⟨-, h2, h3⟩ := filter_flags T ty rows j b f hb hf
  constructor
  · rw [← h2]
    cases f.dissimilar <;> simp
  · rw [h3]
    constructor
    · rintro ⟨h, h'⟩
      exact ⟨⟨hb, f, hf, h⟩, h'⟩
    · rintro ⟨⟨-, f', hf', h⟩, h'⟩
      rw [hf] at hf'
      cases hf'
      exact ⟨h, h'⟩

/-- **C34** Filtering the kept instances again removes nothing. -/
theorem C34_idempotent (T : Tests R) (ty : FilterType) (rows : List R) :
    let kept := keptRows rows (filterInstance T ty rows)
    (∀ f ∈ filterInstance T ty kept, f.excluded = false) ∧
      keptRows kept (filterInstance T ty kept) = kept := by
  intro kept
  have h1 : ∀ f ∈ filterInstance T ty kept, f.excluded = false := by
    intro f hf
    obtain ⟨j, hj, rfl⟩ := List.getElem_of_mem hf
    have hj' : j < kept.length := by rwa [filterInstance_length] at hj
    cases he : ((filterInstance T ty kept)[j]).excluded with
    | false => rfl
    | true =>
      obtain ⟨i, a, hij, ⟨ha, -⟩, hcov⟩ :=
        (filter_flags T ty kept j _ _ (List.getElem?_eq_getElem hj')
          (List.getElem?_eq_getElem hj)).1.1 he
      have hp := List.pairwise_iff_getElem.1 (C32_kept_apart T ty rows) i j
        (Nat.lt_trans hij hj') hj' hij
      rw [List.getElem?_eq_getElem (by omega)] at ha
      cases ha
      exact absurd hcov hp
  refine ⟨h1, ?_⟩
  unfold keptRows
  rw [List.filter_eq_self.2, List.map_fst_zip]
  · rw [filterInstance_length]
  · intro p hp
    simp [h1 p.2 (List.of_mem_zip hp).2]

/-- `filter_instance` succeeds exactly when there is a feature and the type is one of the four
documented names; the flags are then those of the theorems above for the type named. -/
theorem C31_call (T : Tests R) (nfeats : Nat) (ty : String) (rows : List R) :
    (∀ flags, filterCall T nfeats ty rows = .ok flags ↔
      0 < nfeats ∧ ∃ t, Names ty t ∧ flags = filterInstance T t rows) ∧
    ((∃ flags, filterCall T nfeats ty rows = .ok flags) ↔
      0 < nfeats ∧ ty ∈ ["Ftr", "Ftr&AP", "Ftr&Good", "Ftr&AP&Good"]) := by
  have hn : ∀ t, FilterType.ofString ty = some t ↔ Names ty t := by
    intro t
    constructor
    · intro h
      unfold FilterType.ofString at h
      split at h
      · next he => cases h; subst he; exact .ftr
      split at h
      · next he => cases h; subst he; exact .ftrAP
      split at h
      · next he => cases h; subst he; exact .ftrGood
      split at h
      · next he => cases h; subst he; exact .ftrAPGood
      · cases h
    · rintro (_ | _ | _ | _) <;> rfl
  have h : ∀ flags, filterCall T nfeats ty rows = .ok flags ↔
      0 < nfeats ∧ ∃ t, Names ty t ∧ flags = filterInstance T t rows := by
    intro flags
    simp only [← hn]
    unfold filterCall
    by_cases hn : nfeats = 0
    · simp [hn]
    · rw [if_neg hn]
      have : 0 < nfeats := by omega
      cases ht : FilterType.ofString ty with
      | none => simp
      | some t => simp [this, eq_comm]
  refine ⟨h, ?_⟩
  have ht : (∃ t, Names ty t) ↔ ty ∈ ["Ftr", "Ftr&AP", "Ftr&Good", "Ftr&AP&Good"] := by
    constructor
    · rintro ⟨t, _ | _ | _ | _⟩ <;> simp
    · intro h
      simp only [List.mem_cons, List.not_mem_nil, or_false] at h
      rcases h with rfl | rfl | rfl | rfl
      · exact ⟨_, .ftr⟩
      · exact ⟨_, .ftrAP⟩
      · exact ⟨_, .ftrGood⟩
      · exact ⟨_, .ftrAPGood⟩
  rw [← ht]
  simp only [h]
  constructor
  · rintro ⟨_, h1, t, h2, -⟩
    exact ⟨h1, t, h2⟩
  · rintro ⟨h1, t, h2⟩
    exact ⟨_, h1, t, h2, rfl⟩

/-! ### Euclidean distances -/

theorem euclid_comm (a b : List ℝ) : euclid a b = euclid b a := by
  unfold euclid
  rw [List.zipWith_comm]
  congr 3
  funext u v
  ring

/-- An instance: its features, performances and goodness. -/
structure Inst where
  x : List ℝ
  y : List ℝ
  good : List Bool

open Classical in
/-- The tests of filter.py:61, 72-76, 82 over the reals; rounding is not modelled. -/
noncomputable def euclidTests (nalgos nfeats : Nat) (d : ℝ) : Tests Inst where
  near a b := decide (euclid a.x b.x ≤ d)
  close a b := decide (euclid a.y b.y ≤ Real.sqrt (nalgos / nfeats) * d)
  bothGood a b := (List.zipWith (fun u v => u && v) a.good b.good).all id

/-- **C32** for type `Ftr`: any two kept instances are further apart than the threshold. -/
theorem C32_ftr_apart (nalgos nfeats : Nat) (d : ℝ) (rows : List Inst) :
    (keptRows rows (filterInstance (euclidTests nalgos nfeats d) .ftr rows)).Pairwise
      fun a b => d < euclid a.x b.x ∧ d < euclid b.x a.x := by
  refine (C32_kept_apart (euclidTests nalgos nfeats d) .ftr rows).imp ?_
  intro a b h
  have h' : d < euclid a.x b.x := by
    simpa [Covers, euclidTests] using h
  exact ⟨h', by rw [euclid_comm]; exact h'⟩

/-- **C31** for type `Ftr&AP&Good`: a removed instance has an earlier kept instance within the
threshold, all algorithms are good on both, and their performances are within the scaled
threshold. -/
theorem C31_apGood (nalgos nfeats : Nat) (d : ℝ) (rows : List Inst) (j : Nat) (b : Inst)
    (f : Flags) (hb : rows[j]? = some b)
    (hf : (filterInstance (euclidTests nalgos nfeats d) .ftrAPGood rows)[j]? = some f)
    (he : f.excluded = true) :
    ∃ i a, i < j ∧ Kept rows (filterInstance (euclidTests nalgos nfeats d) .ftrAPGood rows) i a ∧
      euclid a.x b.x ≤ d ∧ euclid a.y b.y ≤ Real.sqrt (nalgos / nfeats) * d ∧
      ∀ k, k < a.good.length → k < b.good.length →
        a.good[k]? = some true ∧ b.good[k]? = some true := by
  obtain ⟨i, a, h1, h2, h3, h4, h5⟩ :=
    (C31_removed_covered (euclidTests nalgos nfeats d) .ftrAPGood rows).2.1 j b f hb hf he
  refine ⟨i, a, h1, h2, by simpa [euclidTests] using h3, by simpa [euclidTests] using h5, ?_⟩
  intro k hka hkb
  have h4' := List.all_eq_true.1 (show (List.zipWith (fun u v => u && v) a.good b.good).all id = true from h4)
  have := h4' ((List.zipWith (fun u v => u && v) a.good b.good)[k]'(by simp; omega))
    (List.getElem_mem _)
  simp only [List.getElem_zipWith, id, Bool.and_eq_true] at this
  rw [List.getElem?_eq_getElem hka, List.getElem?_eq_getElem hkb, this.1, this.2]
  exact ⟨rfl, rfl⟩

/-! ### Examples: integers on a line, `near` within 2, `close` when the parity agrees -/

private def T : Tests Nat where
  near a b := a ≤ b + 2 && b ≤ a + 2
  close a b := a % 2 == b % 2
  bothGood a b := a < 10 && b < 10

-- 1 covers 2 and 3; 2 is gone, so 4 is compared with 1 only and kept; 4 covers 5.
example : keptRows [1, 2, 4, 3, 5, 11] (filterInstance T .ftr [1, 2, 4, 3, 5, 11]) = [1, 4, 11] := by
  decide +kernel

example : filterInstance T .ftrAP [1, 2, 4, 3] =
    [⟨false, true, false⟩, ⟨false, false, true⟩, ⟨true, false, false⟩, ⟨true, false, false⟩] := by
  decide +kernel

-- C33: 2 is near the kept 1, not covered by it (parity differs), hence visa.
example : (filterInstance T .ftrAPGood [1, 2, 12, 14])[1]? = some ⟨false, false, true⟩ ∧
    (filterInstance T .ftrAPGood [1, 2, 12, 14])[3]? = some ⟨false, false, true⟩ := by
  decide +kernel

-- C34
example : filterInstance T .ftr [1, 4, 11] = [.init, .init, .init] := by decide +kernel

end Verif.Filter
