import Verif.Options.Spec
import Mathlib.Data.List.Basic
/-!
# Lemmas about option loading
-/
set_option autoImplicit false
set_option linter.unusedSectionVars false

namespace Verif.Options

variable {V : Type} {lower : String → String} {g : Group V}

theorem get_mem {d : Dict V} {k : String} {v : V} (h : get d k = some v) : (k, v) ∈ d := by
  unfold get at h
  rw [Option.map_eq_some_iff] at h
  obtain ⟨p, h1, rfl⟩ := h
  have h2 := List.find?_some h1
  have h3 := List.mem_of_find?_eq_some h1
  rw [List.mem_reverse] at h3
  simp only [beq_iff_eq] at h2
  rw [← h2]
  exact h3

theorem get_none {d : Dict V} {k : String} : get d k = none ↔ ∀ p ∈ d, p.1 ≠ k := by
  unfold get
  rw [Option.map_eq_none_iff, List.find?_eq_none]
  simp

theorem key_unique {d : Dict V} (hd : (d.map Prod.fst).Nodup) {k : String} {v w : V}
    (h1 : (k, v) ∈ d) (h2 : (k, w) ∈ d) : v = w := by
  induction d with
  | nil => simp at h1
  | cons p d ih =>
    rw [List.map_cons, List.nodup_cons] at hd
    have hne : ∀ u, p.1 = k → (k, u) ∉ d := by
      intro u hp hu
      exact hd.1 (hp ▸ List.mem_map.2 ⟨_, hu, rfl⟩)
    rcases List.mem_cons.1 h1 with rfl | h3
    · rcases List.mem_cons.1 h2 with h2 | h2
      · exact (congrArg Prod.snd h2).symm
      · exact absurd h2 (hne _ rfl)
    · rcases List.mem_cons.1 h2 with rfl | h4
      · exact absurd h3 (hne _ rfl)
      · exact ih hd.2 h3 h4

theorem get_eq_some {d : Dict V} (hd : (d.map Prod.fst).Nodup) {k : String} {v : V} :
    get d k = some v ↔ (k, v) ∈ d := by
  refine ⟨get_mem, fun h => ?_⟩
  cases hg : get d k with
  | none => exact absurd rfl (get_none.1 hg _ h)
  | some w => rw [key_unique hd (get_mem hg) h]

theorem dict_ext {l l' : Dict V} (h : l.map Prod.fst = l'.map Prod.fst)
    (hn : (l.map Prod.fst).Nodup) (hs : ∀ p ∈ l, p ∈ l') : l = l' := by
  induction l generalizing l' with
  | nil =>
    cases l' with
    | nil => rfl
    | cons p l' => simp at h
  | cons p l ih =>
    cases l' with
    | nil => simp at h
    | cons p' l' =>
      simp only [List.map_cons, List.cons.injEq] at h
      rw [List.map_cons, List.nodup_cons] at hn
      have hp : p = p' := by
        rcases List.mem_cons.1 (hs p List.mem_cons_self) with hp | hp
        · exact hp
        · exact absurd (h.2 ▸ List.mem_map.2 ⟨p, hp, rfl⟩) hn.1
      subst hp
      congr 1
      refine ih h.2 hn.2 ?_
      intro q hq
      rcases List.mem_cons.1 (hs q (List.mem_cons_of_mem _ hq)) with rfl | hq'
      · exact absurd (List.mem_map.2 ⟨_, hq, rfl⟩) hn.1
      · exact hq'

theorem mapField_denotes (hg : g.WF) (k t : String) :
    (mapField lower g.mapping k = t ∧ (t ∈ g.names ∨ t = "_")) ↔ Denotes lower g k t := by
  unfold mapField Denotes
  cases h : get g.mapping (lower k) with
  | none =>
    have h' := get_none.1 h
    simp only [Option.getD_none]
    constructor
    · exact .inl
    · rintro (h1 | h1)
      · exact h1
      · exact absurd rfl (h' _ h1)
  | some t0 =>
    have h' := get_mem h
    have hc := hg.clash _ h'
    simp only [Option.getD_some]
    constructor
    · rintro ⟨rfl, -⟩
      exact .inr h'
    · rintro (⟨rfl, h1 | h1⟩ | h1)
      · exact ⟨(hc.1 h1).symm, .inl h1⟩
      · exact absurd h1 hc.2
      · have := key_unique hg.aliases h' h1
        subst this
        exact ⟨rfl, .inl (hg.known _ h1)⟩

theorem validateLoop_ok (data : Dict V) (seen errs : List String) :
    validateLoop lower g data seen errs = .ok () ↔
      errs = [] ∧ (∀ p ∈ data, mapField lower g.mapping p.1 ∈ g.names ∨
        mapField lower g.mapping p.1 = "_") ∧
      (data.Pairwise fun p q => mapField lower g.mapping p.1 ≠ mapField lower g.mapping q.1) ∧
      ∀ p ∈ data, mapField lower g.mapping p.1 ∉ seen := by
  induction data generalizing seen errs with
  | nil => simp [validateLoop]
  | cons p data ih =>
    obtain ⟨k, v⟩ := p
    rw [validateLoop]
    by_cases hs : mapField lower g.mapping k ∈ seen
    · simp [hs]
    · rw [if_neg hs, ih]
      have hnames : g.fields.map Prod.fst = g.names := rfl
      rw [hnames]
      simp only [List.mem_cons, forall_eq_or_imp, List.pairwise_cons, not_or]
      constructor
      · rintro ⟨h1, h2, h3, h4⟩
        have h5 : errs = [] ∧ (mapField lower g.mapping k ∈ g.names ∨
            mapField lower g.mapping k = "_") := by
          split at h1
          · simp at h1
          · next hn =>
            refine ⟨h1, ?_⟩
            by_contra hc
            rw [not_or] at hc
            exact hn hc
        exact ⟨h5.1, ⟨h5.2, h2⟩, ⟨fun q hq => fun he => (h4 q hq).1 he.symm, h3⟩, hs,
          fun q hq => (h4 q hq).2⟩
      · rintro ⟨h1, ⟨h2, h3⟩, ⟨h4, h5⟩, h6, h7⟩
        refine ⟨?_, h3, h5, fun q hq => ⟨fun he => h4 q hq he.symm, h7 q hq⟩⟩
        rw [if_neg]
        · exact h1
        · rintro ⟨h8, h9⟩
          rcases h2 with h2 | h2
          · exact h8 h2
          · exact h9 h2

theorem validate_ok (hg : g.WF) (data : Dict V) :
    validate lower g data = .ok () ↔ Acceptable lower g data := by
  unfold validate
  rw [validateLoop_ok]
  constructor
  · rintro ⟨-, h1, h2, -⟩
    refine ⟨fun p hp => ⟨_, (mapField_denotes hg _ _).1 ⟨rfl, h1 p hp⟩⟩, ?_⟩
    refine h2.imp ?_
    rintro p q hne t ⟨h3, h4⟩
    rw [← mapField_denotes hg] at h3 h4
    exact hne (h3.1.trans h4.1.symm)
  · intro h
    refine ⟨rfl, ?_, ?_, by simp⟩
    · intro p hp
      obtain ⟨t, ht⟩ := h.known p hp
      rw [← mapField_denotes hg] at ht
      rw [ht.1]
      exact ht.2
    · have : data.Pairwise fun p q => p ∈ data ∧ q ∈ data ∧
          ∀ t, ¬ (Denotes lower g p.1 t ∧ Denotes lower g q.1 t) := by
        rw [List.pairwise_iff_forall_sublist]
        intro p q hsub
        have h1 := List.Sublist.subset hsub
        exact ⟨h1 (by simp), h1 (by simp), List.pairwise_iff_forall_sublist.1 h.once hsub⟩
      refine this.imp ?_
      rintro p q ⟨hp, hq, hno⟩ he
      obtain ⟨t, ht⟩ := h.known p hp
      refine hno t ⟨ht, ?_⟩
      rw [← mapField_denotes hg] at ht ⊢
      exact ⟨he ▸ ht.1, ht.2⟩

theorem load_ok (data out : Dict V) :
    load lower g data = .ok out ↔ validate lower g data = .ok () ∧
      out = g.fields.map fun p =>
        (p.1, fieldValue lower g (data.map fun p => (lower p.1, p.2)) p.1 p.2) := by
  unfold load
  simp only
  cases validate lower g data with
  | error e => simp
  | ok u => simp [eq_comm]

theorem aliasOf_cases (g : Group V) (f : String) :
    (aliasOf g.mapping f, f) ∈ g.mapping ∨
      (aliasOf g.mapping f = f ∧ ∀ p ∈ g.mapping, p.2 ≠ f) := by
  unfold aliasOf
  cases h : g.mapping.find? fun p => p.2 == f with
  | none =>
    rw [List.find?_eq_none] at h
    exact .inr ⟨rfl, by simpa using h⟩
  | some p =>
    have h1 := List.find?_some h
    have h2 := List.mem_of_find?_eq_some h
    simp only [beq_iff_eq] at h1
    left
    simp only [Option.map_some, Option.getD_some]
    rw [← h1]
    exact h2

theorem target_unique {m : List (String × String)} (h : (m.map Prod.snd).Nodup) {a b f : String}
    (h1 : (a, f) ∈ m) (h2 : (b, f) ∈ m) : a = b := by
  induction m with
  | nil => simp at h1
  | cons p m ih =>
    rw [List.map_cons, List.nodup_cons] at h
    rcases List.mem_cons.1 h1 with rfl | h3
    · rcases List.mem_cons.1 h2 with h2 | h2
      · exact (congrArg Prod.fst h2).symm
      · exact absurd (List.mem_map.2 ⟨_, h2, rfl⟩) h.1
    · rcases List.mem_cons.1 h2 with rfl | h4
      · exact absurd (List.mem_map.2 ⟨_, h3, rfl⟩) h.1
      · exact ih h.2 h3 h4

/-- The value computed for a field is a given one, or the default when no key denotes it. -/
theorem fieldValue_cases (hg : g.WF) (hlow : ∀ n ∈ g.names, lower n = n) (data : Dict V)
    (f : String) (hf : f ∈ g.names) (d : V) :
    (∃ k, (k, fieldValue lower g (data.map fun p => (lower p.1, p.2)) f d) ∈ data ∧
      Denotes lower g k f) ∨
    (fieldValue lower g (data.map fun p => (lower p.1, p.2)) f d = d ∧
      ∀ p ∈ data, ¬ Denotes lower g p.1 f) := by
  unfold fieldValue
  rw [hlow f hf]
  cases h1 : get (data.map fun p => (lower p.1, p.2)) f with
  | some v =>
    left
    have := get_mem h1
    rw [List.mem_map] at this
    obtain ⟨p, hp, he⟩ := this
    cases he
    exact ⟨p.1, hp, .inl ⟨rfl, .inl hf⟩⟩
  | none =>
    have h1' : ∀ p ∈ data, lower p.1 ≠ f := by
      intro p hp he
      exact get_none.1 h1 (lower p.1, p.2) (List.mem_map.2 ⟨p, hp, rfl⟩) he
    simp only
    rcases aliasOf_cases g f with ha | ⟨ha, hno⟩
    · cases h2 : get (data.map fun p => (lower p.1, p.2)) (aliasOf g.mapping f) with
      | some v =>
        left
        have := get_mem h2
        rw [List.mem_map] at this
        obtain ⟨p, hp, he⟩ := this
        simp only [Prod.mk.injEq] at he
        refine ⟨p.1, ?_, .inr (he.1 ▸ ha)⟩
        rw [Option.getD_some, ← he.2]
        exact hp
      | none =>
        right
        refine ⟨rfl, ?_⟩
        intro p hp hd
        rcases hd with ⟨hd, -⟩ | hd
        · exact h1' p hp hd
        · have := target_unique hg.targets ha hd
          exact get_none.1 h2 (lower p.1, p.2) (List.mem_map.2 ⟨p, hp, rfl⟩) this.symm
    · right
      rw [ha, h1]
      refine ⟨rfl, ?_⟩
      intro p hp hd
      rcases hd with ⟨hd, -⟩ | hd
      · exact h1' p hp hd
      · exact hno _ hd rfl

theorem once_eq {data : Dict V} (h : data.Pairwise fun p q => ∀ t, ¬ (Denotes lower g p.1 t ∧
    Denotes lower g q.1 t)) {p q : String × V} (hp : p ∈ data) (hq : q ∈ data) {t : String}
    (h1 : Denotes lower g p.1 t) (h2 : Denotes lower g q.1 t) : p = q := by
  induction data with
  | nil => simp at hp
  | cons a data ih =>
    rw [List.pairwise_cons] at h
    rcases List.mem_cons.1 hp with rfl | hp'
    · rcases List.mem_cons.1 hq with rfl | hq'
      · rfl
      · exact absurd ⟨h1, h2⟩ (h.1 q hq' t)
    · rcases List.mem_cons.1 hq with rfl | hq'
      · exact absurd ⟨h2, h1⟩ (h.1 p hp' t)
      · exact ih h.2 hp' hq'

theorem load_loaded (hg : g.WF) (hlow : ∀ n ∈ g.names, lower n = n) {data out : Dict V}
    (h : load lower g data = .ok out) : Loaded lower g data out := by
  rw [load_ok, validate_ok hg] at h
  obtain ⟨ha, rfl⟩ := h
  refine ⟨?_, ?_, ?_⟩
  · rw [List.map_map]
    rfl
  · intro k v f hk hd hf
    rw [List.mem_map]
    obtain ⟨p, hp, rfl⟩ := List.mem_map.1 hf
    refine ⟨p, hp, ?_⟩
    rcases fieldValue_cases hg hlow data p.1 hf p.2 with ⟨k', hk', hd'⟩ | ⟨-, hno⟩
    · have := once_eq ha.once hk hk' hd hd'
      have hv : v = _ := congrArg Prod.snd this
      rw [hv]
    · exact absurd hd (hno _ hk)
  · intro f d hf hno
    rw [List.mem_map]
    refine ⟨(f, d), hf, ?_⟩
    rcases fieldValue_cases hg hlow data f (List.mem_map.2 ⟨_, hf, rfl⟩) d with
      ⟨k', hk', hd'⟩ | ⟨he, -⟩
    · exact absurd hd' (hno _ hk')
    · rw [he]

/-- The loaded group is determined by the entries. -/
theorem Loaded.unique (hg : g.WF) {data data' out out' : Dict V} (h : Loaded lower g data out)
    (h' : Loaded lower g data' out')
    (hsame : ∀ f v, (∃ k, (k, v) ∈ data ∧ Denotes lower g k f) ↔
      ∃ k, (k, v) ∈ data' ∧ Denotes lower g k f) : out = out' := by
  apply dict_ext (by rw [h.fields, h'.fields]) (by rw [h.fields]; exact hg.names)
  rintro ⟨f, w⟩ hw
  have hf : f ∈ g.names := by
    rw [← h.fields]
    exact List.mem_map.2 ⟨_, hw, rfl⟩
  have hno : (out.map Prod.fst).Nodup := by rw [h.fields]; exact hg.names
  by_cases hex : ∃ k v, (k, v) ∈ data ∧ Denotes lower g k f
  · obtain ⟨k, v, hk, hd⟩ := hex
    have := key_unique hno hw (h.given k v f hk hd hf)
    subst this
    obtain ⟨k', hk', hd'⟩ := (hsame f w).1 ⟨k, hk, hd⟩
    exact h'.given k' w f hk' hd' hf
  · obtain ⟨p, hp, rfl⟩ := List.mem_map.1 hf
    have h1 := h.default p.1 p.2 hp (fun q hq hd => hex ⟨q.1, q.2, hq, hd⟩)
    have := key_unique hno hw h1
    subst this
    refine h'.default p.1 p.2 hp (fun q hq hd => ?_)
    obtain ⟨k, hk, hd⟩ := (hsame p.1 q.2).2 ⟨q.1, hq, hd⟩
    exact hex ⟨k, q.2, hk, hd⟩

theorem denotes_lower {k k' t : String} (h : lower k = lower k') :
    Denotes lower g k t ↔ Denotes lower g k' t := by
  unfold Denotes
  rw [h]

end Verif.Options
