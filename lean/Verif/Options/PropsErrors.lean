import Verif.Options.Props
/-!
# What a rejected options group is told: C125
-/
set_option autoImplicit false
set_option linter.unusedSectionVars false

namespace Verif.Options

variable {V : Type}

/-- Two keys clash: they are the same up to case or denote the same field. -/
def Clash (lower : String → String) (g : Group V) (k k' : String) : Prop :=
  lower k = lower k' ∨ ∃ t, Denotes lower g k t ∧ Denotes lower g k' t

/-- The key is no field, alias or placeholder. -/
def Unknown (lower : String → String) (g : Group V) (k : String) : Prop :=
  ∀ t, ¬ Denotes lower g k t

theorem mapField_clash {lower : String → String} {g : Group V} (hg : g.WF) (k k' : String) :
    mapField lower g.mapping k = mapField lower g.mapping k' ↔ Clash lower g k k' := by
  have hnone : ∀ k, Unknown lower g k → mapField lower g.mapping k = lower k := by
    intro k hk
    unfold mapField
    cases h : get g.mapping (lower k) with
    | none => rfl
    | some t => exact absurd (.inr (get_mem h)) (hk t)
  have hknown : ∀ k t, Denotes lower g k t → mapField lower g.mapping k = t := fun k t h =>
    ((mapField_denotes hg k t).2 h).1
  constructor
  · intro h
    by_cases h1 : Unknown lower g k
    · by_cases h2 : Unknown lower g k'
      · rw [hnone k h1, hnone k' h2] at h
        exact .inl h
      · unfold Unknown at h2
        push Not at h2
        obtain ⟨t, ht⟩ := h2
        have h3 := (mapField_denotes hg k' t).2 ht
        exact absurd ((mapField_denotes hg k t).1 ⟨h.trans h3.1, h3.2⟩) (h1 t)
    · unfold Unknown at h1
      push Not at h1
      obtain ⟨t, ht⟩ := h1
      have h3 := (mapField_denotes hg k t).2 ht
      exact .inr ⟨t, ht, (mapField_denotes hg k' t).1 ⟨h.symm.trans h3.1, h3.2⟩⟩
  · rintro (h | ⟨t, h1, h2⟩)
    · unfold mapField
      rw [h]
    · rw [hknown k t h1, hknown k' t h2]

open Classical in
theorem validateLoop_undefined {lower : String → String} {g : Group V} (hg : g.WF) :
    ∀ (data : Dict V) (seen errs ks : List String),
    validateLoop lower g data seen errs = .error (.undefined ks) ↔
      (data.Pairwise fun p q => ¬ Clash lower g p.1 q.1) ∧
      (∀ p ∈ data, mapField lower g.mapping p.1 ∉ seen) ∧ ks ≠ [] ∧
      ks = errs ++ (data.filter fun p => decide (Unknown lower g p.1)).map fun p => lower p.1 := by
  intro data
  induction data with
  | nil =>
    intro seen errs ks
    rw [validateLoop]
    split
    · next h => simp [h]
    · next h =>
      simp only [List.Pairwise.nil, List.not_mem_nil, false_imp_iff, implies_true, true_and,
        List.filter_nil, List.map_nil, List.append_nil, Except.error.injEq, OptError.undefined.injEq]
      constructor
      · rintro rfl; exact ⟨h, rfl⟩
      · rintro ⟨-, rfl⟩; rfl
  | cons p data ih =>
    obtain ⟨k, v⟩ := p
    intro seen errs ks
    rw [validateLoop]
    by_cases hs : mapField lower g.mapping k ∈ seen
    · simp [hs]
    · rw [if_neg hs, ih]
      have hunk : (mapField lower g.mapping k ∉ g.fields.map Prod.fst ∧
          mapField lower g.mapping k ≠ "_") ↔ Unknown lower g k := by
        constructor
        · rintro ⟨h1, h2⟩ t ht
          have h3 := (mapField_denotes hg k t).2 ht
          rcases h3.2 with h4 | h4
          · exact h1 (h3.1 ▸ h4)
          · exact h2 (h3.1.trans h4)
        · intro hu
          constructor
          · exact fun h => hu _ ((mapField_denotes hg k _).1 ⟨rfl, .inl h⟩)
          · exact fun h => hu _ ((mapField_denotes hg k _).1 ⟨rfl, .inr h⟩)
      have hm : ∀ q : String × V, (mapField lower g.mapping q.1 ∈ mapField lower g.mapping k :: seen) ↔
          Clash lower g k q.1 ∨ mapField lower g.mapping q.1 ∈ seen := by
        intro q
        rw [List.mem_cons, ← mapField_clash hg, eq_comm]
      simp only [hm, not_or, List.pairwise_cons, List.forall_mem_cons, List.filter_cons]
      by_cases hu : Unknown lower g k
      · have hl : mapField lower g.mapping k = lower k := by
          unfold mapField
          cases h : get g.mapping (lower k) with
          | none => rfl
          | some t => exact absurd (.inr (get_mem h)) (hu t)
        rw [if_pos (hunk.2 hu), hl]
        simp only [hu, decide_true, if_true, List.map_cons, List.append_assoc, List.singleton_append]
        rw [hl] at hs
        constructor
        · rintro ⟨h1, h2, h3, h4⟩
          exact ⟨⟨fun q hq => (h2 q hq).1, h1⟩, ⟨hs, fun q hq => (h2 q hq).2⟩, h3, h4⟩
        · rintro ⟨⟨h1, h1'⟩, ⟨-, h2⟩, h3, h4⟩
          exact ⟨h1', fun q hq => ⟨h1 q hq, h2 q hq⟩, h3, h4⟩
      · rw [if_neg (fun h => hu (hunk.1 h))]
        simp only [hu, decide_false, Bool.false_eq_true, if_false]
        constructor
        · rintro ⟨h1, h2, h3, h4⟩
          exact ⟨⟨fun q hq => (h2 q hq).1, h1⟩, ⟨hs, fun q hq => (h2 q hq).2⟩, h3, h4⟩
        · rintro ⟨⟨h1, h1'⟩, ⟨-, h2⟩, h3, h4⟩
          exact ⟨h1', fun q hq => ⟨h1 q hq, h2 q hq⟩, h3, h4⟩

theorem validateLoop_conflict {lower : String → String} {g : Group V} (hg : g.WF) (key : String) :
    ∀ (data : Dict V) (seen errs : List String),
    validateLoop lower g data seen errs = .error (.conflict key) ↔
      ∃ pre v post, data = pre ++ (key, v) :: post ∧
        (pre.Pairwise fun p q => ¬ Clash lower g p.1 q.1) ∧
        (∀ p ∈ pre, mapField lower g.mapping p.1 ∉ seen) ∧
        (mapField lower g.mapping key ∈ seen ∨ ∃ p ∈ pre, Clash lower g p.1 key) := by
  intro data
  induction data with
  | nil =>
    intro seen errs
    rw [validateLoop]
    split <;> simp
  | cons p data ih =>
    obtain ⟨k, v⟩ := p
    intro seen errs
    rw [validateLoop]
    by_cases hs : mapField lower g.mapping k ∈ seen
    · rw [if_pos hs]
      simp only [Except.error.injEq, OptError.conflict.injEq]
      constructor
      · rintro rfl
        exact ⟨[], v, data, rfl, List.Pairwise.nil, by simp, .inl hs⟩
      · rintro ⟨pre, w, post, h1, -, h2, -⟩
        cases pre with
        | nil => simp only [List.nil_append, List.cons.injEq, Prod.mk.injEq] at h1; exact h1.1.1
        | cons q pre =>
          simp only [List.cons_append, List.cons.injEq] at h1
          have := h2 q List.mem_cons_self
          rw [← h1.1] at this
          exact absurd hs this
    · rw [if_neg hs, ih]
      have hm : ∀ q : String, (mapField lower g.mapping q ∈ mapField lower g.mapping k :: seen) ↔
          Clash lower g k q ∨ mapField lower g.mapping q ∈ seen := by
        intro q
        rw [List.mem_cons, ← mapField_clash hg, eq_comm]
      simp only [hm, not_or]
      constructor
      · rintro ⟨pre, w, post, rfl, h1, h2, h3⟩
        refine ⟨(k, v) :: pre, w, post, rfl, List.pairwise_cons.2 ⟨fun q hq => (h2 q hq).1, h1⟩,
          ?_, ?_⟩
        · intro q hq
          rcases List.mem_cons.1 hq with rfl | hq
          · exact hs
          · exact (h2 q hq).2
        · rcases h3 with (h3 | h3) | ⟨q, hq, h3⟩
          · exact .inr ⟨_, List.mem_cons_self, h3⟩
          · exact .inl h3
          · exact .inr ⟨q, List.mem_cons_of_mem _ hq, h3⟩
      · rintro ⟨pre, w, post, h0, h1, h2, h3⟩
        cases pre with
        | nil =>
          simp only [List.nil_append, List.cons.injEq, Prod.mk.injEq] at h0
          rcases h3 with h3 | ⟨q, hq, -⟩
          · exact absurd (h0.1.1 ▸ h3) hs
          · cases hq
        | cons q pre =>
          simp only [List.cons_append, List.cons.injEq] at h0
          obtain ⟨rfl, rfl⟩ := h0
          rw [List.pairwise_cons] at h1
          refine ⟨pre, w, post, rfl, h1.2, fun q hq =>
            ⟨h1.1 q hq, h2 q (List.mem_cons_of_mem _ hq)⟩, ?_⟩
          rcases h3 with h3 | ⟨q, hq, h3⟩
          · exact .inl (.inr h3)
          · rcases List.mem_cons.1 hq with rfl | hq
            · exact .inl (.inl h3)
            · exact .inr ⟨q, hq, h3⟩

open Classical in
/-- **C125** A group is rejected for undefined fields exactly when some key is unknown and no two
keys clash, and the message lists exactly the unknown keys (in lower case), in the order of the
group. -/
theorem C125_undefined (lower : String → String) (lit : Lit → V) (name : String) (g : Group V)
    (hg : (name, g) ∈ groups lit) (data : Dict V) (ks : List String) :
    load lower g data = .error (.undefined ks) ↔
      (data.Pairwise fun p q => ¬ Clash lower g p.1 q.1) ∧ ks ≠ [] ∧
      ks = (data.filter fun p => decide (Unknown lower g p.1)).map fun p => lower p.1 := by
  have h := validateLoop_undefined (lower := lower) (groups_wf lit _ hg) data [] [] ks
  simp only [List.not_mem_nil, not_false_eq_true, implies_true, true_and, List.nil_append] at h
  rw [← h]
  unfold load validate
  simp only
  cases validateLoop lower g data [] [] <;> simp

/-- **C125** A group is rejected for a field defined twice exactly when some key clashes with an
earlier one, and the message names the first such key as it is written. -/
theorem C125_conflict (lower : String → String) (lit : Lit → V) (name : String) (g : Group V)
    (hg : (name, g) ∈ groups lit) (data : Dict V) (key : String) :
    load lower g data = .error (.conflict key) ↔
      ∃ pre v post, data = pre ++ (key, v) :: post ∧
        (pre.Pairwise fun p q => ¬ Clash lower g p.1 q.1) ∧ ∃ p ∈ pre, Clash lower g p.1 key := by
  have h := validateLoop_conflict (lower := lower) (groups_wf lit _ hg) key data [] []
  simp only [List.not_mem_nil, not_false_eq_true, implies_true, true_and, false_or] at h
  rw [← h]
  unfold load validate
  simp only
  cases validateLoop lower g data [] [] <;> simp

/-- **C125** Unknown group names are all listed, and nothing else is. -/
theorem C125_groups (lower : String → String) (lit : Lit → V) (asDict : V → Option (Dict V))
    (contents : Dict V) (ks : List String)
    (h : fromDict lower asDict (groups lit) contents = .error (.extra ks)) (k : String) :
    k ∈ ks ↔ (∃ v, (k, v) ∈ contents) ∧ k ∉ litGroups.map Prod.fst := by
  have hn : (groups lit).map Prod.fst = litGroups.map Prod.fst := by
    unfold groups
    rw [List.map_map]
    rfl
  have hload : ∀ (gs : List (String × Group V)) ks,
      loadAll lower asDict contents gs ≠ .error (.extra ks) := by
    intro gs
    induction gs with
    | nil => intro ks h; cases h
    | cons p gs ih =>
      obtain ⟨nm, g⟩ := p
      intro ks h
      rw [loadAll] at h
      split at h
      · cases h
      · split at h
        · next e he =>
          simp only [Except.error.injEq] at h
          subst h
          unfold load validate at he
          simp only at he
          have : ∀ (d : Dict V) seen errs,
              validateLoop lower g d seen errs ≠ .error (.extra ks) := by
            intro d
            induction d with
            | nil => intro seen errs h; rw [validateLoop] at h; split at h <;> cases h
            | cons p d ih =>
              intro seen errs h
              rw [validateLoop] at h
              split at h
              · cases h
              · exact ih _ _ h
          split at he
          · next e' he' => cases he; exact this _ _ _ he'
          · cases he
        · split at h
          · next e he =>
            simp only [Except.error.injEq] at h
            subst h
            exact ih _ he
          · cases h
  unfold fromDict at h
  simp only at h
  split at h
  · exact absurd h (hload _ _)
  · simp only [Except.error.injEq, OptError.extra.injEq] at h
    subst h
    rw [List.mem_filter, hn]
    simp

/-- Non-vacuity for C125. -/
example : ("trace", traceGroup) ∈ groups (fun l : Lit => l) ∧
    load lowerAscii traceGroup [("Foo", .int 1), ("PI", .int 2), ("bar", .int 3)] =
      .error (.undefined ["foo", "bar"]) ∧
    load lowerAscii traceGroup [("Foo", .int 1), ("PI", .int 2), ("Purity", .int 3)] =
      .error (.conflict "Purity") ∧
    load lowerAscii traceGroup [("Foo", .int 1), ("FOO", .int 2)] = .error (.conflict "FOO") :=
  ⟨by simp [groups, litGroups, Group.embed], rfl, rfl, rfl⟩

example : fromDict lowerAscii Py.asDict (groups Py.lit)
    [("trace", .dict []), ("tracer", .lit (.int 5)), ("x", .lit (.int 5))] =
      .error (.extra ["tracer", "x"]) := rfl

/-! ### Options put together from groups -/

/-- **C52, `InstanceSpaceOptions.default`.**  The groups are those of the options, in order; a group
that is given is used as it is, the others have their defaults. -/
theorem C52_given (groups : List (String × Group V)) (given : String → Option (Dict V)) (i : Nat) :
    (default groups given).length = groups.length ∧
    ∀ name g, groups[i]? = some (name, g) →
      (∀ d, given name = some d → (default groups given)[i]? = some (name, d)) ∧
      (given name = none → (default groups given)[i]? = some (name, g.fields)) := by
  refine ⟨by simp [default], ?_⟩
  intro name g h
  unfold default
  rw [List.getElem?_map, h]
  refine ⟨?_, ?_⟩
  · intro d hd
    simp [hd]
  · intro hd
    simp [hd]

example : (default (groups (id : Lit → Lit)) fun n =>
    if n = "trace" then some [("use_sim", .bool false)] else none).getLast? =
      (groups (id : Lit → Lit)).getLast?.map fun p => (p.1, p.2.fields) := rfl

end Verif.Options
