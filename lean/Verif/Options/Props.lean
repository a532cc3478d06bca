import Verif.Options.Lemmas
import Mathlib.Data.List.Nodup
/-!
# Option loading: properties C49 - C53
-/
set_option autoImplicit false
set_option linter.unusedSectionVars false

namespace Verif.Options

variable {V : Type}

/-- What is needed of Python's `str.lower`: the field names, which are written in lower case, are
not changed. -/
def LowerOK (lower : String → String) : Prop :=
  ∀ p ∈ litGroups, ∀ n ∈ p.2.names, lower n = n

/-- Lower-casing the ASCII letters. -/
def lowerAscii (s : String) : String := String.ofList (s.toList.map Char.toLower)

example : LowerOK lowerAscii := by unfold LowerOK; decide +kernel

theorem litGroups_wf : ∀ p ∈ litGroups, p.2.WF := by
  have h : ∀ p ∈ litGroups, p.2.names.Nodup ∧ (p.2.mapping.map Prod.fst).Nodup ∧
      (p.2.mapping.map Prod.snd).Nodup ∧ (∀ q ∈ p.2.mapping, q.2 ∈ p.2.names) ∧
      (∀ q ∈ p.2.mapping, (q.1 ∈ p.2.names → q.1 = q.2) ∧ q.1 ≠ "_") ∧ "_" ∉ p.2.names := by
    decide +kernel
  intro p hp
  obtain ⟨h1, h2, h3, h4, h5, h6⟩ := h p hp
  exact ⟨h1, h2, h3, h4, h5, h6⟩

theorem embed_names (lit : Lit → V) (g : Group Lit) : (g.embed lit).names = g.names := by
  unfold Group.names Group.embed
  rw [List.map_map]
  rfl

theorem groups_wf (lit : Lit → V) : ∀ p ∈ groups lit, p.2.WF := by
  intro p hp
  obtain ⟨q, hq, rfl⟩ := List.mem_map.1 hp
  obtain ⟨h1, h2, h3, h4, h5, h6⟩ := litGroups_wf q hq
  have e := embed_names lit q.2
  exact ⟨by rw [e]; exact h1, h2, h3, by rw [e]; exact h4, by rw [e]; exact h5, by rw [e]; exact h6⟩

theorem groups_low {lower : String → String} (hlow : LowerOK lower) (lit : Lit → V) :
    ∀ p ∈ groups lit, ∀ n ∈ p.2.names, lower n = n := by
  intro p hp n hn
  obtain ⟨q, hq, rfl⟩ := List.mem_map.1 hp
  rw [embed_names] at hn
  exact hlow q hq n hn

theorem groups_names_nodup (lit : Lit → V) : ((groups lit).map Prod.fst).Nodup := by
  have : (groups lit).map Prod.fst = litGroups.map Prod.fst := by
    unfold groups
    rw [List.map_map]
    rfl
  rw [this]
  decide +kernel

/-! ### C49 -/

/-- **C49** Each of the twelve groups is accepted exactly when all keys are known and no two
denote the same field; otherwise a `ValueError` is raised. -/
theorem C49_group (lower : String → String) (lit : Lit → V) (name : String)
    (g : Group V) (hg : (name, g) ∈ groups lit) (data : Dict V) :
    ((∃ out, load lower g data = .ok out) ↔ Acceptable lower g data) ∧
    (¬ Acceptable lower g data → ∃ e, load lower g data = .error e ∧ e.isValueError = true) := by
  have hwf := groups_wf lit _ hg
  have h1 : (∃ out, load lower g data = .ok out) ↔ Acceptable lower g data := by
    rw [← validate_ok hwf]
    constructor
    · rintro ⟨out, h⟩
      exact ((load_ok data out).1 h).1
    · intro h
      exact ⟨_, (load_ok data _).2 ⟨h, rfl⟩⟩
  refine ⟨h1, ?_⟩
  intro h
  cases hl : load lower g data with
  | ok out => exact absurd (h1.1 ⟨out, hl⟩) h
  | error e =>
    refine ⟨e, rfl, ?_⟩
    unfold load at hl
    simp only at hl
    have hv : ∀ (d : Dict V) (seen errs : List String) (e : OptError),
        validateLoop lower g d seen errs = .error e → e.isValueError = true := by
      intro d
      induction d with
      | nil =>
        intro seen errs e he
        rw [validateLoop] at he
        split at he
        · cases he
        · cases he; rfl
      | cons p d ih =>
        intro seen errs e he
        obtain ⟨k, v⟩ := p
        rw [validateLoop] at he
        split at he
        · cases he; rfl
        · exact ih _ _ _ he
    cases hval : validate lower g data with
    | error e' =>
      rw [hval] at hl
      cases hl
      exact hv _ _ _ _ hval
    | ok u => rw [hval] at hl; cases hl

/-- Group `(name, g)` can be loaded from `contents`: it is absent or a dictionary that is
acceptable. -/
def GroupOK (lower : String → String) (asDict : V → Option (Dict V)) (contents : Dict V)
    (p : String × Group V) : Prop :=
  ∀ v, (p.1, v) ∈ contents → ∃ d, asDict v = some d ∧ Acceptable lower p.2 d

theorem nil_acceptable (lower : String → String) (g : Group V) : Acceptable lower g [] :=
  ⟨by simp, List.Pairwise.nil⟩

theorem loadAll_ok {lower : String → String} {asDict : V → Option (Dict V)} {contents : Dict V}
    (hc : (contents.map Prod.fst).Nodup) {gs : List (String × Group V)} (hwf : ∀ p ∈ gs, p.2.WF) :
    (∃ o, loadAll lower asDict contents gs = .ok o) ↔
      ∀ p ∈ gs, GroupOK lower asDict contents p := by
  induction gs with
  | nil => simp [loadAll]
  | cons p gs ih =>
    obtain ⟨name, g⟩ := p
    have ih := ih (fun p hp => hwf p (List.mem_cons_of_mem _ hp))
    have hg := hwf _ List.mem_cons_self
    have hload : ∀ d, (∃ out, load lower g d = .ok out) ↔ Acceptable lower g d := by
      intro d
      rw [← validate_ok hg]
      constructor
      · rintro ⟨out, h⟩
        exact ((load_ok d out).1 h).1
      · intro h
        exact ⟨_, (load_ok d _).2 ⟨h, rfl⟩⟩
    rw [List.forall_mem_cons, ← ih]
    have hOK : GroupOK lower asDict contents (name, g) ↔
        ∃ d, groupData asDict contents name = some d ∧ ∃ out, load lower g d = .ok out := by
      unfold GroupOK groupData
      cases hget : get contents name with
      | none =>
        constructor
        · intro _
          exact ⟨[], rfl, (hload []).2 (nil_acceptable _ _)⟩
        · intro _ v hv
          exact absurd rfl (get_none.1 hget _ hv)
      | some v =>
        constructor
        · intro h
          obtain ⟨d, h1, h2⟩ := h v (get_mem hget)
          exact ⟨d, h1, (hload d).2 h2⟩
        · rintro ⟨d, h1, h2⟩ v' hv'
          have := key_unique hc hv' (get_mem hget)
          subst this
          exact ⟨d, h1, (hload d).1 h2⟩
    rw [hOK]
    conv => lhs; unfold loadAll
    constructor
    · rintro ⟨o, h⟩
      split at h
      · cases h
      · next data hd =>
        split at h
        · cases h
        · next out hout =>
          split at h
          · cases h
          · next outs houts =>
            exact ⟨⟨data, hd, out, hout⟩, outs, houts⟩
    · rintro ⟨⟨d, hd, out, hout⟩, outs, houts⟩
      refine ⟨(name, out) :: outs, ?_⟩
      simp only [hd, hout, houts]

/-- **C49** `from_dict` accepts exactly the dictionaries whose keys are group names and whose
groups are acceptable dictionaries; an unknown group name gives a `ValueError`. -/
theorem C49_from_dict (lower : String → String) (lit : Lit → V) (asDict : V → Option (Dict V))
    (contents : Dict V) (hc : (contents.map Prod.fst).Nodup) :
    ((∃ o, fromDict lower asDict (groups lit) contents = .ok o) ↔
      (∀ p ∈ contents, p.1 ∈ litGroups.map Prod.fst) ∧
      ∀ p ∈ groups lit, GroupOK lower asDict contents p) ∧
    ((∃ p ∈ contents, p.1 ∉ litGroups.map Prod.fst) →
      ∃ e, fromDict lower asDict (groups lit) contents = .error e ∧ e.isValueError = true) := by
  have hn : (groups lit).map Prod.fst = litGroups.map Prod.fst := by
    unfold groups
    rw [List.map_map]
    rfl
  have he : ((contents.map Prod.fst).filter fun k => k ∉ (groups lit).map Prod.fst) = [] ↔
      ∀ p ∈ contents, p.1 ∈ litGroups.map Prod.fst := by
    rw [List.filter_eq_nil_iff, hn]
    simp
  unfold fromDict
  constructor
  · rw [← loadAll_ok hc (groups_wf lit), ← he]
    simp only
    split
    · next h => exact ⟨fun h1 => ⟨h, h1⟩, fun h1 => h1.2⟩
    · next h =>
      constructor
      · rintro ⟨_, h1⟩; cases h1
      · exact fun h1 => absurd h1.1 h
  · rintro ⟨p, hp, hpn⟩
    simp only
    rw [if_neg]
    · exact ⟨_, rfl, rfl⟩
    · rw [he]
      intro h
      exact hpn (h p hp)

-- Known keys in any case are accepted, an alias together with its field is not.
example : load lowerAscii traceGroup [("PI", .int 1)] =
      .ok [("use_sim", .bool true), ("purity", .int 1)] ∧
    load lowerAscii traceGroup [("Pi", .int 1), ("purity", .int 2)] = .error (.conflict "purity") ∧
    load lowerAscii traceGroup [("_", .int 1), ("sim", .int 2)] = .error (.undefined ["sim"]) := by
  refine ⟨?_, ?_, ?_⟩ <;> rfl

/-! ### C50 -/

/-- **C50** In an accepted group every field has the value given for it, under its name or alias
in any letter case, and its default when no key denotes it. -/
theorem C50_values (lower : String → String) (hlow : LowerOK lower) (lit : Lit → V) (name : String)
    (g : Group V) (hg : (name, g) ∈ groups lit) (data out : Dict V)
    (h : load lower g data = .ok out) : Loaded lower g data out :=
  load_loaded (groups_wf lit _ hg) (groups_low hlow lit _ hg) h

/-- **C50** The same for all groups of an accepted options dictionary. -/
theorem C50_from_dict (lower : String → String) (hlow : LowerOK lower) (lit : Lit → V)
    (asDict : V → Option (Dict V)) (contents : Dict V) (hc : (contents.map Prod.fst).Nodup)
    (o : List (String × Dict V))
    (h : fromDict lower asDict (groups lit) contents = .ok o) :
    List.Forall₂ (fun p q => p.1 = q.1 ∧ ∃ data,
      ((∃ v, (p.1, v) ∈ contents ∧ asDict v = some data) ∨
        ((∀ v, (p.1, v) ∉ contents) ∧ data = [])) ∧ Loaded lower p.2 data q.2) (groups lit) o := by
  have key : ∀ (gs : List (String × Group V)), (∀ p ∈ gs, p ∈ groups lit) →
      ∀ o, loadAll lower asDict contents gs = .ok o →
      List.Forall₂ (fun p q => p.1 = q.1 ∧ ∃ data,
        ((∃ v, (p.1, v) ∈ contents ∧ asDict v = some data) ∨
          ((∀ v, (p.1, v) ∉ contents) ∧ data = [])) ∧ Loaded lower p.2 data q.2) gs o := by
    intro gs
    induction gs with
    | nil =>
      intro _ o h
      cases h
      exact List.Forall₂.nil
    | cons p gs ih =>
      intro hsub o h
      obtain ⟨name, g⟩ := p
      unfold loadAll at h
      split at h
      · cases h
      · next data hd =>
        split at h
        · cases h
        · next out hout =>
          split at h
          · cases h
          · next outs houts =>
            cases h
            refine List.Forall₂.cons ⟨rfl, data, ?_, ?_⟩
              (ih (fun p hp => hsub p (List.mem_cons_of_mem _ hp)) _ houts)
            · unfold groupData at hd
              cases hget : get contents name with
              | none =>
                rw [hget] at hd
                cases hd
                exact .inr ⟨fun v hv => get_none.1 hget _ hv rfl, rfl⟩
              | some v =>
                rw [hget] at hd
                exact .inl ⟨v, get_mem hget, hd⟩
            · exact C50_values lower hlow lit name g (hsub _ List.mem_cons_self) data out hout
  unfold fromDict at h
  simp only at h
  split at h
  · exact key _ (fun p hp => hp) _ h
  · cases h

example : load lowerAscii cloisterGroup [("CThres", .dec 9 1)] =
    .ok [("p_val", .dec 5 2), ("c_thres", .dec 9 1)] := rfl

/-! ### C51 -/

/-- **C51** The order of the entries and the case of the keys matter neither for acceptance nor
for the result. -/
theorem C51_order_and_case (lower : String → String) (hlow : LowerOK lower) (lit : Lit → V)
    (name : String) (g : Group V) (hg : (name, g) ∈ groups lit) (data data' : Dict V)
    (hs : SameEntries lower data data') (out : Dict V) :
    load lower g data = .ok out ↔ load lower g data' = .ok out := by
  have hwf := groups_wf lit _ hg
  obtain ⟨mid, hp, hf⟩ := hs
  have hacc : Acceptable lower g data ↔ Acceptable lower g data' := by
    have h1 : Acceptable lower g data ↔ Acceptable lower g mid := by
      constructor
      · rintro ⟨h1, h2⟩
        exact ⟨fun p hp' => h1 p (hp.mem_iff.2 hp'),
          hp.pairwise h2 (fun {p q} h t ht => h t ⟨ht.2, ht.1⟩)⟩
      · rintro ⟨h1, h2⟩
        exact ⟨fun p hp' => h1 p (hp.mem_iff.1 hp'),
          hp.symm.pairwise h2 (fun {p q} h t ht => h t ⟨ht.2, ht.1⟩)⟩
    rw [h1]
    clear h1 hp
    induction hf with
    | nil => rfl
    | @cons p q mid data' hpq hf ih =>
      have hmem : ∀ {l l' : Dict V}, List.Forall₂ (fun p q => lower p.1 = lower q.1 ∧ p.2 = q.2)
          l l' → ((∀ x ∈ l, ∀ t, ¬ (Denotes lower g p.1 t ∧ Denotes lower g x.1 t)) ↔
            (∀ x ∈ l', ∀ t, ¬ (Denotes lower g q.1 t ∧ Denotes lower g x.1 t))) := by
        intro l l' h
        induction h with
        | nil => simp
        | @cons x y l l' hxy _ ih =>
          rw [List.forall_mem_cons, List.forall_mem_cons, ih]
          simp only [denotes_lower hpq.1, denotes_lower hxy.1]
      constructor
      · rintro ⟨h1, h2⟩
        rw [List.pairwise_cons] at h2
        rw [List.forall_mem_cons] at h1
        obtain ⟨h3, h4⟩ := ih.1 ⟨h1.2, h2.2⟩
        refine ⟨?_, List.pairwise_cons.2 ⟨(hmem hf).1 h2.1, h4⟩⟩
        rw [List.forall_mem_cons]
        obtain ⟨t, ht⟩ := h1.1
        exact ⟨⟨t, (denotes_lower hpq.1).1 ht⟩, h3⟩
      · rintro ⟨h1, h2⟩
        rw [List.pairwise_cons] at h2
        rw [List.forall_mem_cons] at h1
        obtain ⟨h3, h4⟩ := ih.2 ⟨h1.2, h2.2⟩
        refine ⟨?_, List.pairwise_cons.2 ⟨(hmem hf).2 h2.1, h4⟩⟩
        rw [List.forall_mem_cons]
        obtain ⟨t, ht⟩ := h1.1
        exact ⟨⟨t, (denotes_lower hpq.1).2 ht⟩, h3⟩
  have hsame : ∀ f v, (∃ k, (k, v) ∈ data ∧ Denotes lower g k f) ↔
      ∃ k, (k, v) ∈ data' ∧ Denotes lower g k f := by
    intro f v
    have h1 : (∃ k, (k, v) ∈ data ∧ Denotes lower g k f) ↔
        (∃ k, (k, v) ∈ mid ∧ Denotes lower g k f) := by
      simp only [hp.mem_iff]
    rw [h1]
    clear h1 hp hacc
    induction hf with
    | nil => rfl
    | @cons p q mid data' hpq hf ih =>
      have : ∀ (a : String × V) (l : Dict V), (∃ k, (k, v) ∈ a :: l ∧ Denotes lower g k f) ↔
          (a.2 = v ∧ Denotes lower g a.1 f) ∨ ∃ k, (k, v) ∈ l ∧ Denotes lower g k f := by
        intro a l
        constructor
        · rintro ⟨k, hk, hd⟩
          rcases List.mem_cons.1 hk with rfl | hk
          · exact .inl ⟨rfl, hd⟩
          · exact .inr ⟨k, hk, hd⟩
        · rintro (⟨rfl, hd⟩ | ⟨k, hk, hd⟩)
          · exact ⟨a.1, List.mem_cons_self, hd⟩
          · exact ⟨k, List.mem_cons_of_mem _ hk, hd⟩
      rw [this, this, hpq.2, denotes_lower hpq.1]
      exact or_congr Iff.rfl ih
  have hC := C49_group lower lit name g hg
  constructor
  · intro h
    obtain ⟨out', h'⟩ := (hC data').1.2 (hacc.1 ((hC data).1.1 ⟨out, h⟩))
    rw [h', Loaded.unique hwf (C50_values lower hlow lit name g hg _ _ h)
      (C50_values lower hlow lit name g hg _ _ h') hsame]
  · intro h
    obtain ⟨out', h'⟩ := (hC data).1.2 (hacc.2 ((hC data').1.1 ⟨out, h⟩))
    rw [h', Loaded.unique hwf (C50_values lower hlow lit name g hg _ _ h')
      (C50_values lower hlow lit name g hg _ _ h) hsame]

example : SameEntries lowerAscii [("A", 1), ("b", 2)] [("B", 2), ("a", 1)] :=
  ⟨[("b", 2), ("A", 1)], List.Perm.swap _ _ _,
    .cons ⟨by decide +kernel, rfl⟩ (.cons ⟨by decide +kernel, rfl⟩ .nil)⟩

/-! ### C52 -/

theorem load_roundtrip {lower : String → String} {g : Group V} (hwf : g.WF)
    (hlow : ∀ n ∈ g.names, lower n = n) {out : Dict V} (ho : out.map Prod.fst = g.names) :
    load lower g out = .ok out := by
  have hkey : ∀ p ∈ out, p.1 ∈ g.names := by
    intro p hp
    rw [← ho]
    exact List.mem_map.2 ⟨p, hp, rfl⟩
  have hden : ∀ f ∈ g.names, ∀ t, Denotes lower g f t → t = f := by
    intro f hf t ht
    rcases ht with ⟨h1, -⟩ | h1
    · rw [← h1, hlow f hf]
    · rw [hlow f hf] at h1
      exact ((hwf.clash _ h1).1 hf).symm
  have hself : ∀ f ∈ g.names, Denotes lower g f f := fun f hf => .inl ⟨hlow f hf, .inl hf⟩
  have hacc : Acceptable lower g out := by
    refine ⟨fun p hp => ⟨_, hself _ (hkey p hp)⟩, ?_⟩
    have hn : out.Pairwise fun p q => p.1 ≠ q.1 := by
      have := hwf.names
      rw [← ho] at this
      exact List.pairwise_map.1 this
    have : out.Pairwise fun p q => p ∈ out ∧ q ∈ out ∧ p.1 ≠ q.1 := by
      rw [List.pairwise_iff_forall_sublist]
      intro p q hsub
      have h1 := List.Sublist.subset hsub
      exact ⟨h1 (by simp), h1 (by simp), List.pairwise_iff_forall_sublist.1 hn hsub⟩
    refine this.imp ?_
    rintro p q ⟨hp, hq, hne⟩ t ⟨h1, h2⟩
    exact hne ((hden _ (hkey p hp) t h1).symm.trans (hden _ (hkey q hq) t h2))
  have hl := (load_ok (lower := lower) (g := g) out _).2 ⟨(validate_ok hwf out).2 hacc, rfl⟩
  rw [hl]
  have hL := load_loaded hwf hlow hl
  congr 1
  symm
  apply dict_ext (by rw [ho, hL.fields]) (by rw [ho]; exact hwf.names)
  rintro ⟨f, v⟩ hp
  exact hL.given f v f hp (hself f (hkey _ hp)) (hkey _ hp)

/-- **C52** Writing options as a dictionary of dictionaries by field name and loading them back
gives the same options.  `dict` makes a Python value of a dictionary. -/
theorem C52_roundtrip (lower : String → String) (hlow : LowerOK lower) (lit : Lit → V)
    (asDict : V → Option (Dict V)) (dict : Dict V → V) (hdict : ∀ d, asDict (dict d) = some d)
    (o : List (String × Dict V))
    (ho : List.Forall₂ (fun p q => p.1 = q.1 ∧ q.2.map Prod.fst = p.2.names) (groups lit) o) :
    fromDict lower asDict (groups lit) (o.map fun p => (p.1, dict p.2)) = .ok o := by
  have hnames : o.map Prod.fst = (groups lit).map Prod.fst := by
    have : ∀ {gs : List (String × Group V)} {o : List (String × Dict V)},
        List.Forall₂ (fun p q => p.1 = q.1 ∧ q.2.map Prod.fst = p.2.names) gs o →
        o.map Prod.fst = gs.map Prod.fst := by
      intro gs o h
      induction h with
      | nil => rfl
      | cons h _ ih => rw [List.map_cons, List.map_cons, ih, h.1]
    exact this ho
  have hcn : ((o.map fun p => (p.1, dict p.2)).map Prod.fst) = o.map Prod.fst := by
    rw [List.map_map]; rfl
  have hnodup : ((o.map fun p => (p.1, dict p.2)).map Prod.fst).Nodup := by
    rw [hcn, hnames]
    exact groups_names_nodup lit
  have key : ∀ (contents : Dict V), (contents.map Prod.fst).Nodup →
      ∀ {gs : List (String × Group V)} {o : List (String × Dict V)},
      List.Forall₂ (fun p q => p.1 = q.1 ∧ q.2.map Prod.fst = p.2.names) gs o →
      (∀ p ∈ gs, p ∈ groups lit) → (∀ p ∈ o, (p.1, dict p.2) ∈ contents) →
      loadAll lower asDict contents gs = .ok o := by
    intro contents hc gs o h
    induction h with
    | nil => intro _ _; rfl
    | @cons p q gs o hpq _ ih =>
      intro hsub hin
      obtain ⟨name, g⟩ := p
      obtain ⟨name', d⟩ := q
      obtain ⟨rfl, hd⟩ := hpq
      have hmem := hsub _ List.mem_cons_self
      have h1 : get contents name = some (dict d) :=
        (get_eq_some hc).2 (hin _ List.mem_cons_self)
      unfold loadAll groupData
      simp only [h1, hdict]
      rw [load_roundtrip (groups_wf lit _ hmem) (groups_low hlow lit _ hmem) hd]
      simp only
      rw [ih (fun p hp => hsub p (List.mem_cons_of_mem _ hp))
        (fun p hp => hin p (List.mem_cons_of_mem _ hp))]
  unfold fromDict
  simp only
  rw [if_pos]
  · exact key _ hnodup ho (fun p hp => hp) (fun p hp => List.mem_map.2 ⟨p, hp, rfl⟩)
  · rw [hcn, hnames, List.filter_eq_nil_iff]
    intro k hk
    simp [hk]

-- The hypothesis holds, for instance, for the defaults with one changed value.
example : List.Forall₂ (fun p q => p.1 = q.1 ∧ q.2.map Prod.fst = p.2.names)
    (groups (id : Lit → Lit)) (default (groups id) fun n =>
      if n = "trace" then some [("use_sim", .bool false), ("purity", .dec 9 1)] else none) := by
  unfold groups litGroups default
  simp only [List.map_cons, List.map_nil]
  repeat' first
    | exact List.Forall₂.nil
    | refine List.Forall₂.cons ⟨rfl, ?_⟩ ?_
    | rfl

/-- **C52** The empty dictionary gives the defaults. -/
theorem C52_empty (lower : String → String) (hlow : LowerOK lower) (lit : Lit → V)
    (asDict : V → Option (Dict V)) :
    fromDict lower asDict (groups lit) [] = .ok (default (groups lit) fun _ => none) := by
  have key : ∀ (gs : List (String × Group V)), (∀ p ∈ gs, p ∈ groups lit) →
      loadAll lower asDict [] gs = .ok (default gs fun _ => none) := by
    intro gs
    induction gs with
    | nil => intro _; rfl
    | cons p gs ih =>
      intro hsub
      obtain ⟨name, g⟩ := p
      have hmem := hsub _ List.mem_cons_self
      have hwf := groups_wf lit _ hmem
      have hl := (load_ok (lower := lower) (g := g) [] _).2
        ⟨(validate_ok hwf []).2 (nil_acceptable _ _), rfl⟩
      have hL := load_loaded hwf (groups_low hlow lit _ hmem) hl
      have : g.fields = _ := dict_ext (by rw [hL.fields]; rfl) hwf.names
        (fun p hp => hL.default p.1 p.2 hp (by simp))
      rw [← this] at hl
      unfold loadAll
      have hget : groupData asDict ([] : Dict V) name = some [] := rfl
      simp only [hget, hl]
      rw [ih (fun p hp => hsub p (List.mem_cons_of_mem _ hp))]
      rfl
  unfold fromDict
  simp only [List.map_nil, List.filter_nil, if_true]
  exact key _ (fun p hp => hp)

/-! ### C53 -/

/-- Python values for the examples: literals and dictionaries. -/
inductive Py
  | lit (l : Lit)
  | dict (d : List (String × Py))

/-- `dict` values are dictionaries. -/
def Py.asDict : Py → Option (Dict Py)
  | .lit _ => none
  | .dict d => some d

/-- The full claim of C53 for readable files. -/
def LoadNeverRaises : Prop :=
  ∀ v : Py, fromJsonFile lowerAscii Py.asDict (groups Py.lit) (.value v) ≠ .raises

/-- **C53** is false: a file whose content is the JSON value `5`, or `{"trace": 5}`, makes
`from_json_file` raise `AttributeError`. -/
theorem C53_refuted : ¬ LoadNeverRaises := fun h => h (.lit (.int 5)) rfl

example : fromJsonFile lowerAscii Py.asDict (groups Py.lit)
    (.value (.dict [("trace", .lit (.int 5))])) = .raises := rfl
example : fromJsonFile lowerAscii Py.asDict (groups Py.lit)
    (.value (.dict [("nonsense", .lit (.int 5))])) = .returns none := rfl

theorem loadAll_attribute {lower : String → String} {asDict : V → Option (Dict V)}
    {contents : Dict V} (hc : (contents.map Prod.fst).Nodup) {gs : List (String × Group V)}
    (hwf : ∀ p ∈ gs, p.2.WF) :
    (∃ e, loadAll lower asDict contents gs = .error e ∧ e.isValueError = false) ↔
      ∃ pre name g post v, gs = pre ++ (name, g) :: post ∧ (name, v) ∈ contents ∧
        asDict v = none ∧ ∀ p ∈ pre, GroupOK lower asDict contents p := by
  induction gs with
  | nil => simp [loadAll]
  | cons p gs ih =>
    obtain ⟨name, g⟩ := p
    have hg := hwf _ List.mem_cons_self
    have ih := ih (fun p hp => hwf p (List.mem_cons_of_mem _ hp))
    have hhead : (∃ o, loadAll lower asDict contents [(name, g)] = .ok o) ↔
        GroupOK lower asDict contents (name, g) := by
      rw [loadAll_ok hc (by simpa using hg)]
      simp
    have hval : ∀ d e, load lower g d = .error e → e.isValueError = true := by
      intro d e h
      have hv : ∀ (d : Dict V) (seen errs : List String) (e : OptError),
          validateLoop lower g d seen errs = .error e → e.isValueError = true := by
        intro d
        induction d with
        | nil =>
          intro seen errs e he
          rw [validateLoop] at he
          split at he
          · cases he
          · cases he; rfl
        | cons p d ih =>
          intro seen errs e he
          obtain ⟨k, v⟩ := p
          rw [validateLoop] at he
          split at he
          · cases he; rfl
          · exact ih _ _ _ he
      unfold load at h
      simp only at h
      cases hval : validate lower g d with
      | error e' =>
        rw [hval] at h
        cases h
        exact hv _ _ _ _ hval
      | ok u => rw [hval] at h; cases h
    conv => lhs; unfold loadAll
    unfold loadAll at hhead
    constructor
    · rintro ⟨e, h, he⟩
      split at h
      · next hd =>
        unfold groupData at hd
        cases hget : get contents name with
        | none => rw [hget] at hd; cases hd
        | some v =>
          rw [hget] at hd
          exact ⟨[], name, g, gs, v, rfl, get_mem hget, hd, by simp⟩
      · next data hd =>
        split at h
        · next e' hl =>
          cases h
          rw [hval _ _ hl] at he
          cases he
        · next out hout =>
          have hok : GroupOK lower asDict contents (name, g) := by
            rw [← hhead]
            exact ⟨[(name, out)], by simp only [hd, hout]; rfl⟩
          split at h
          · next e' hl =>
            cases h
            obtain ⟨pre, n', g', post, v, h1, h2, h3, h4⟩ := ih.1 ⟨_, hl, he⟩
            refine ⟨(name, g) :: pre, n', g', post, v, by rw [h1]; rfl, h2, h3, ?_⟩
            rw [List.forall_mem_cons]
            exact ⟨hok, h4⟩
          · cases h
    · rintro ⟨pre, n', g', post, v, h1, h2, h3, h4⟩
      cases pre with
      | nil =>
        simp only [List.nil_append, List.cons.injEq, Prod.mk.injEq] at h1
        obtain ⟨⟨rfl, rfl⟩, -⟩ := h1
        have : get contents name = some v := (get_eq_some hc).2 h2
        have h5 : groupData asDict contents name = none := by simp only [groupData, this, h3]
        exact ⟨.attributeError, by simp only [h5], rfl⟩
      | cons q pre =>
        simp only [List.cons_append, List.cons.injEq] at h1
        obtain ⟨rfl, h1⟩ := h1
        rw [List.forall_mem_cons] at h4
        obtain ⟨o, ho⟩ := hhead.2 h4.1
        split at ho
        · cases ho
        · next data hd =>
          split at ho
          · cases ho
          · next out hout =>
            obtain ⟨e, he, he'⟩ := ih.2 ⟨pre, n', g', post, v, h1, h2, h3, h4.2⟩
            exact ⟨e, by simp only [hd, hout, he], he'⟩

/-- **C53** exactly: `from_json_file` raises if and only if reading fails with an exception that
is not caught, or the JSON value is not an object, or all its keys are group names and some group
is not an object while all groups before it (in the order of the dataclass) are fine.  Missing for
the full property: these cases. -/
theorem C53_partial (lower : String → String) (lit : Lit → V) (asDict : V → Option (Dict V))
    (hdict : ∀ v d, asDict v = some d → (d.map Prod.fst).Nodup) (r : FileRead V) :
    (fromJsonFile lower asDict (groups lit) r = .raises) ↔
      r = .other ∨ ∃ v, r = .value v ∧ (asDict v = none ∨ ∃ contents, asDict v = some contents ∧
        (∀ p ∈ contents, p.1 ∈ litGroups.map Prod.fst) ∧
        ∃ pre name g post w, groups lit = pre ++ (name, g) :: post ∧ (name, w) ∈ contents ∧
          asDict w = none ∧ ∀ p ∈ pre, GroupOK lower asDict contents p) := by
  cases r with
  | other => simp [fromJsonFile]
  | caught => simp [fromJsonFile]
  | value v =>
    simp only [fromJsonFile, reduceCtorEq, FileRead.value.injEq, exists_eq_left', false_or]
    cases hv : asDict v with
    | none => simp
    | some contents =>
      simp only [reduceCtorEq, false_or, Option.some.injEq, exists_eq_left']
      have hc := hdict v contents hv
      rw [← loadAll_attribute hc (groups_wf lit)]
      have hn : (groups lit).map Prod.fst = litGroups.map Prod.fst := by
        unfold groups
        rw [List.map_map]
        rfl
      have he : ((contents.map Prod.fst).filter fun k => k ∉ (groups lit).map Prod.fst) = [] ↔
          ∀ p ∈ contents, p.1 ∈ litGroups.map Prod.fst := by
        rw [List.filter_eq_nil_iff, hn]
        simp
      rw [← he]
      unfold fromDict
      simp only
      by_cases h : ((contents.map Prod.fst).filter fun k => k ∉ (groups lit).map Prod.fst) = []
      · rw [if_pos h]
        cases hl : loadAll lower asDict contents (groups lit) with
        | ok o => simp
        | error e =>
          constructor
          · intro h1
            refine ⟨h, e, rfl, ?_⟩
            cases hev : e.isValueError with
            | false => rfl
            | true => simp [hev] at h1
          · rintro ⟨-, e', h1, h2⟩
            cases h1
            simp [h2]
      · rw [if_neg h]
        constructor
        · intro h1; simp [OptError.isValueError] at h1
        · exact fun h1 => absurd h1.1 h

end Verif.Options
