import Verif.Filter.Spec
/-! The invariant of the double loop. -/
set_option autoImplicit false
set_option linter.unusedSectionVars false

namespace Verif.Filter

variable {R : Type}

theorem innerFold_spec (T : Tests R) (ty : FilterType) (rows : List R) (i : Nat) (a : R)
    (ha : rows[i]? = some a) (js : List Nat) (hnd : js.Nodup) :
    ∀ (s : Nat → Flags) (m : Nat),
      (js.foldl (innerStep T ty rows i) s) m =
        if m ∈ js ∧ (s m).excluded = false then
          match rows[m]? with
          | some b => touch T ty a b (s m)
          | none => s m
        else s m := by
  induction js with
  | nil => intro s m; simp
  | cons j js ih =>
    intro s m
    obtain ⟨hj, hnd'⟩ := List.nodup_cons.1 hnd
    rw [List.foldl_cons, ih hnd']
    have hstep : ∀ m, m ≠ j → innerStep T ty rows i s j m = s m := by
      intro m hm
      unfold innerStep
      split
      · rfl
      · rw [ha]
        cases rows[j]? with
        | none => rfl
        | some b => simp [hm]
    by_cases hm : m = j
    · subst hm
      rw [if_neg (by simp [hj])]
      unfold innerStep
      cases he : (s m).excluded with
      | true => simp
      | false =>
        simp only [Bool.false_eq_true, if_false, List.mem_cons, true_or, and_self, if_true]
        rw [ha]
        cases hb : rows[m]? with
        | none => rfl
        | some b => simp
    · rw [hstep m hm]
      simp [hm]

theorem outerStep_spec (T : Tests R) (ty : FilterType) (rows : List R) (s : Nat → Flags) (i : Nat)
    (a : R) (ha : rows[i]? = some a) (m : Nat) (b : R) (hb : rows[m]? = some b) :
    outerStep T ty rows s i m =
      if (s i).excluded = false ∧ i < m ∧ (s m).excluded = false then touch T ty a b (s m)
      else s m := by
  unfold outerStep
  cases hi : (s i).excluded with
  | true => simp
  | false =>
    simp only [Bool.false_eq_true, if_false, true_and]
    rw [innerFold_spec T ty rows i a ha _ (List.nodup_range' ..)]
    have hm : m < rows.length := by
      rw [List.getElem?_eq_some_iff] at hb
      exact hb.1
    have : (m ∈ List.range' (i + 1) (rows.length - (i + 1))) ↔ i < m := by
      rw [List.mem_range'_1]
      omega
    simp only [this, hb]

theorem touch_excluded (T : Tests R) (ty : FilterType) (a b : R) (f : Flags)
    (hf : f.excluded = false) : (touch T ty a b f).excluded = true ↔ Covers T ty a b := by
  unfold touch Covers
  cases hn : T.near a b <;> cases hc : T.close a b <;> cases hg : T.bothGood a b <;> cases ty <;>
    simp [hf, hn, hc, hg]

theorem touch_dissimilar (T : Tests R) (ty : FilterType) (a b : R) (f : Flags) :
    (touch T ty a b f).dissimilar = false ↔ f.dissimilar = false ∨ T.near a b = true := by
  unfold touch
  cases hn : T.near a b <;> cases ty <;> simp <;> (try split) <;> (try split) <;> simp

theorem touch_visa (T : Tests R) (ty : FilterType) (a b : R) (f : Flags)
    (hf : f.excluded = false)
    (h : f.visa = true ↔ f.excluded = false ∧ f.dissimilar = false ∧ ty ≠ .ftr) :
    (touch T ty a b f).visa = true ↔ (touch T ty a b f).excluded = false ∧
      (touch T ty a b f).dissimilar = false ∧ ty ≠ .ftr := by
  unfold touch
  cases hn : T.near a b with
  | false => simpa using h
  | true =>
    cases ty <;> simp [hf] at h ⊢ <;>
      (try (cases hc : T.close a b <;> simp [hf])) <;>
      (try (cases hg : T.bothGood a b <;> simp [hf]))
    exact h

/-- The invariant after the outer loop has processed the instances below `k`. -/
structure LoopInv (T : Tests R) (ty : FilterType) (rows : List R) (k : Nat) (s : Nat → Flags) :
    Prop where
  excl : ∀ j b, rows[j]? = some b → ((s j).excluded = true ↔
    ∃ i a, i < k ∧ i < j ∧ rows[i]? = some a ∧ (s i).excluded = false ∧ Covers T ty a b)
  diss : ∀ j b, rows[j]? = some b → ((s j).dissimilar = false ↔
    ∃ i a, i < k ∧ i < j ∧ rows[i]? = some a ∧ (s i).excluded = false ∧ T.near a b = true)
  visa : ∀ j b, rows[j]? = some b → ((s j).visa = true ↔
    (s j).excluded = false ∧ (s j).dissimilar = false ∧ ty ≠ .ftr)

theorem Covers.near {T : Tests R} {ty : FilterType} {a b : R} (h : Covers T ty a b) :
    T.near a b = true := by
  cases ty
  · exact h
  · exact h.1
  · exact h.1
  · exact h.1

theorem LoopInv.step {T : Tests R} {ty : FilterType} {rows : List R} {k : Nat} {s : Nat → Flags}
    (h : LoopInv T ty rows k s) {a : R} (ha : rows[k]? = some a) :
    LoopInv T ty rows (k + 1) (outerStep T ty rows s k) := by
  have hsp := fun m b hb => outerStep_spec T ty rows s k a ha m b hb
  have hold : ∀ i a', rows[i]? = some a' → i ≤ k → outerStep T ty rows s k i = s i := by
    intro i a' hi hle
    rw [hsp i a' hi, if_neg (by omega)]
  have hex : ∀ (Q : R → Prop) (j : Nat),
      (∃ i a', i < k + 1 ∧ i < j ∧ rows[i]? = some a' ∧
        (outerStep T ty rows s k i).excluded = false ∧ Q a') ↔
      (∃ i a', i < k ∧ i < j ∧ rows[i]? = some a' ∧ (s i).excluded = false ∧ Q a') ∨
        (k < j ∧ (s k).excluded = false ∧ Q a) := by
    intro Q j
    constructor
    · rintro ⟨i, a', h1, h2, h3, h4, h5⟩
      rw [hold i a' h3 (by omega)] at h4
      by_cases hik : i = k
      · subst hik
        rw [ha] at h3
        cases h3
        exact .inr ⟨h2, h4, h5⟩
      · exact .inl ⟨i, a', by omega, h2, h3, h4, h5⟩
    · rintro (⟨i, a', h1, h2, h3, h4, h5⟩ | ⟨h1, h2, h3⟩)
      · exact ⟨i, a', by omega, h2, h3, by rw [hold i a' h3 (by omega)]; exact h4, h5⟩
      · exact ⟨k, a, by omega, h1, ha, by rw [hold k a ha (Nat.le_refl _)]; exact h2, h3⟩
  constructor
  · intro j b hb
    rw [hex (fun a' => Covers T ty a' b) j, ← h.excl j b hb, hsp j b hb]
    split
    · rename_i hc
      rw [touch_excluded T ty a b _ hc.2.2, hc.2.2]
      simp [hc.1, hc.2.1]
    · rename_i hc
      constructor
      · exact .inl
      · rintro (h' | ⟨h1, h2, -⟩)
        · exact h'
        · cases he : (s j).excluded with
          | true => rfl
          | false => exact absurd ⟨h2, h1, he⟩ hc
  · intro j b hb
    rw [hex (fun a' => T.near a' b = true) j, ← h.diss j b hb, hsp j b hb]
    split
    · rename_i hc
      rw [touch_dissimilar]
      simp [hc.1, hc.2.1]
    · rename_i hc
      constructor
      · exact .inl
      · rintro (h' | ⟨h1, h2, -⟩)
        · exact h'
        · cases he : (s j).excluded with
          | false => exact absurd ⟨h2, h1, he⟩ hc
          | true =>
            rw [h.diss j b hb]
            obtain ⟨i, a', g1, g2, g3, g4, g5⟩ := (h.excl j b hb).1 he
            exact ⟨i, a', g1, g2, g3, g4, g5.near⟩
  · intro j b hb
    rw [hsp j b hb]
    split
    · rename_i hc
      exact touch_visa T ty a b _ hc.2.2 (h.visa j b hb)
    · exact h.visa j b hb

theorem loopInv (T : Tests R) (ty : FilterType) (rows : List R) :
    ∀ k ≤ rows.length, LoopInv T ty rows k
      ((List.range k).foldl (outerStep T ty rows) (fun _ => Flags.init)) := by
  intro k
  induction k with
  | zero =>
    intro _
    constructor <;> intro j b _ <;> simp [Flags.init]
  | succ k ih =>
    intro hk
    rw [List.range_succ, List.foldl_append]
    simp only [List.foldl_cons, List.foldl_nil]
    have hk' : k < rows.length := hk
    exact (ih (by omega)).step (List.getElem?_eq_getElem hk')

/-- The flags of the result satisfy the characteristic equations. -/
theorem filter_flags (T : Tests R) (ty : FilterType) (rows : List R) (j : Nat) (b : R) (f : Flags)
    (hb : rows[j]? = some b) (hf : (filterInstance T ty rows)[j]? = some f) :
    (f.excluded = true ↔ ∃ i a, i < j ∧ Kept rows (filterInstance T ty rows) i a ∧
      Covers T ty a b) ∧
    (f.dissimilar = false ↔ ∃ i a, i < j ∧ Kept rows (filterInstance T ty rows) i a ∧
      T.near a b = true) ∧
    (f.visa = true ↔ f.excluded = false ∧ f.dissimilar = false ∧ ty ≠ .ftr) := by
  have hinv := loopInv T ty rows rows.length (Nat.le_refl _)
  generalize hs : (List.range rows.length).foldl (outerStep T ty rows) (fun _ => Flags.init) = s at hinv
  have hres : filterInstance T ty rows = (List.range rows.length).map s := by
    unfold filterInstance
    rw [hs]
  have hlt : ∀ {i : Nat} {a : R}, rows[i]? = some a → i < rows.length := by
    intro i a h
    rw [List.getElem?_eq_some_iff] at h
    exact h.1
  have hget : ∀ (i : Nat) (a : R), rows[i]? = some a →
      (filterInstance T ty rows)[i]? = some (s i) := by
    intro i a h
    rw [hres, List.getElem?_map, List.getElem?_range (hlt h)]
    rfl
  have hkept : ∀ (i : Nat) (a : R), Kept rows (filterInstance T ty rows) i a ↔
      rows[i]? = some a ∧ (s i).excluded = false := by
    intro i a
    unfold Kept
    constructor
    · rintro ⟨h1, f, h2, h3⟩
      rw [hget i a h1] at h2
      cases h2
      exact ⟨h1, h3⟩
    · rintro ⟨h1, h2⟩
      exact ⟨h1, _, hget i a h1, h2⟩
  rw [hget j b hb] at hf
  cases hf
  refine ⟨?_, ?_, hinv.visa j b hb⟩
  · rw [hinv.excl j b hb]
    constructor
    · rintro ⟨i, a, h1, h2, h3, h4, h5⟩
      exact ⟨i, a, h2, (hkept i a).2 ⟨h3, h4⟩, h5⟩
    · rintro ⟨i, a, h2, h3, h5⟩
      obtain ⟨h3, h4⟩ := (hkept i a).1 h3
      exact ⟨i, a, hlt h3, h2, h3, h4, h5⟩
  · rw [hinv.diss j b hb]
    constructor
    · rintro ⟨i, a, h1, h2, h3, h4, h5⟩
      exact ⟨i, a, h2, (hkept i a).2 ⟨h3, h4⟩, h5⟩
    · rintro ⟨i, a, h2, h3, h5⟩
      obtain ⟨h3, h4⟩ := (hkept i a).1 h3
      exact ⟨i, a, hlt h3, h2, h3, h4, h5⟩

theorem filterInstance_length (T : Tests R) (ty : FilterType) (rows : List R) :
    (filterInstance T ty rows).length = rows.length := by
  simp [filterInstance]

end Verif.Filter
