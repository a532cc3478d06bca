import Verif.Options.SpecDocs
import Verif.Options.Props
/-!
# C50, C52: the spellings and defaults of all options
-/
set_option autoImplicit false
set_option linter.unusedSectionVars false

namespace Verif.Options

variable {V : Type}

/-- The tables of the model say what the documentation says. -/
theorem documented_groups : litGroups.map Prod.fst = documentedGroups := by decide +kernel

theorem documented_fields : ∀ p ∈ litGroups,
    p.2.fields = (documented.filter fun o => o.group == p.1).map fun o => (o.name, o.default) := by
  decide +kernel

theorem documented_groups_known : ∀ o ∈ documented, ∃ p ∈ litGroups, p.1 = o.group := by
  decide +kernel

theorem documented_mapping : ∀ p ∈ litGroups, ∀ o ∈ documented, o.group = p.1 →
    (∀ a ∈ o.matilda, (a, o.name) ∈ p.2.mapping) ∧
    (∀ q ∈ p.2.mapping, q.2 = o.name → q.1 = o.name ∨ some q.1 = o.matilda) := by
  decide +kernel

theorem documented_distinct : documented.Pairwise fun o o' => o.group = o'.group → o.name ≠ o'.name := by
  decide +kernel

theorem spelt_iff {lower : String → String} (lit : Lit → V) {p : String × Group Lit} (hp : p ∈ litGroups)
    {o : Documented} (ho : o ∈ documented) (hg : o.group = p.1) (key : String) :
    Denotes lower (p.2.embed lit) key o.name ↔ o.Spelt lower key := by
  have hf := documented_fields p hp
  have hn : o.name ∈ (p.2.embed lit).names := by
    rw [embed_names]
    unfold Group.names
    rw [hf, List.map_map]
    exact List.mem_map.2 ⟨o, List.mem_filter.2 ⟨ho, by simp [hg]⟩, rfl⟩
  obtain ⟨h1, h2⟩ := documented_mapping p hp o ho hg
  unfold Denotes Documented.Spelt
  constructor
  · rintro (⟨h, -⟩ | h)
    · exact .inl h
    · exact h2 _ h rfl
  · rintro (h | h)
    · exact .inl ⟨h, .inl hn⟩
    · exact .inr (h1 _ h.symm)

/-- **C50, C52: the documented options.**  `from_dict` gives the groups in the order of the data class, each
with exactly the documented options.  The value of a documented option is the one the dictionary gives
under its name or its MATILDA spelling, in any letter case, in the dictionary of its group; without such a
key it is the documented default. -/
theorem C50_documented (lower : String → String) (hlow : LowerOK lower) (lit : Lit → V)
    (asDict : V → Option (Dict V)) (contents : Dict V) (hc : (contents.map Prod.fst).Nodup)
    (out : List (String × Dict V)) (h : fromDict lower asDict (groups lit) contents = .ok out) :
    out.map Prod.fst = documentedGroups ∧
    ∀ g ∈ documentedGroups, ∃ fields, (g, fields) ∈ out ∧
      fields.map Prod.fst = (documented.filter fun o => o.group == g).map Documented.name ∧
      ∀ o ∈ documented, o.group = g →
        (∀ v data k w, (g, v) ∈ contents → asDict v = some data → (k, w) ∈ data → o.Spelt lower k →
          (o.name, w) ∈ fields) ∧
        ((∀ v data, (g, v) ∈ contents → asDict v = some data → ∀ q ∈ data, ¬ o.Spelt lower q.1) →
          (o.name, lit o.default) ∈ fields) := by
  have hl := C50_from_dict lower hlow lit asDict contents hc out h
  have hnames : out.map Prod.fst = (groups lit).map Prod.fst := by
    have : ∀ {gs : List (String × Group V)} {o : List (String × Dict V)} {R : Group V → String → Dict V → Prop},
        List.Forall₂ (fun p q => p.1 = q.1 ∧ R p.2 p.1 q.2) gs o → o.map Prod.fst = gs.map Prod.fst := by
      intro gs o R h
      induction h with
      | nil => rfl
      | cons h _ ih => rw [List.map_cons, List.map_cons, ih, h.1]
    exact this (R := fun g n d => ∃ data, ((∃ v, (n, v) ∈ contents ∧ asDict v = some data) ∨
      ((∀ v, (n, v) ∉ contents) ∧ data = [])) ∧ Loaded lower g data d) hl
  have hgn : (groups lit).map Prod.fst = documentedGroups := by
    rw [← documented_groups]
    unfold groups
    rw [List.map_map]
    rfl
  refine ⟨hnames.trans hgn, ?_⟩
  intro g hg
  rw [← documented_groups] at hg
  obtain ⟨p, hp, rfl⟩ := List.mem_map.1 hg
  have hpm : (p.1, p.2.embed lit) ∈ groups lit := List.mem_map.2 ⟨p, hp, rfl⟩
  obtain ⟨⟨n, fields⟩, hq, hn, data, hdata, hload⟩ : ∃ q ∈ out, p.1 = q.1 ∧ ∃ data,
      ((∃ v, (p.1, v) ∈ contents ∧ asDict v = some data) ∨ ((∀ v, (p.1, v) ∉ contents) ∧ data = [])) ∧
      Loaded lower (p.2.embed lit) data q.2 := by
    have : ∀ {gs : List (String × Group V)} {o : List (String × Dict V)}
        {R : String × Group V → String × Dict V → Prop}, List.Forall₂ R gs o → ∀ x ∈ gs, ∃ q ∈ o, R x q := by
      intro gs o R h
      induction h with
      | nil => simp
      | @cons a b _ _ h _ ih =>
        intro x hx
        rcases List.mem_cons.1 hx with rfl | hx
        · exact ⟨b, List.mem_cons_self, h⟩
        · obtain ⟨q, hq, hr⟩ := ih x hx
          exact ⟨q, List.mem_cons_of_mem _ hq, hr⟩
    exact this hl _ hpm
  dsimp only at hn hload
  subst hn
  have hf := documented_fields p hp
  refine ⟨fields, hq, ?_, ?_⟩
  · rw [hload.fields, embed_names]
    unfold Group.names
    rw [hf, List.map_map]
    rfl
  · intro o ho hog
    have hof : (o.name, o.default) ∈ p.2.fields := by
      rw [hf]
      exact List.mem_map.2 ⟨o, List.mem_filter.2 ⟨ho, by simp [hog]⟩, rfl⟩
    have hon : o.name ∈ (p.2.embed lit).names := by
      rw [embed_names]
      exact List.mem_map.2 ⟨_, hof, rfl⟩
    constructor
    · intro v data' k w hv hd hk hs
      have : data' = data := by
        rcases hdata with ⟨v', hv', hd'⟩ | ⟨hno, -⟩
        · have h1 := (get_eq_some hc).2 hv
          have h2 := (get_eq_some hc).2 hv'
          rw [h1] at h2
          cases h2
          rw [hd] at hd'
          exact Option.some.inj hd'
        · exact absurd hv (hno v)
      subst this
      exact hload.given k w o.name hk ((spelt_iff lit hp ho hog k).2 hs) hon
    · intro hno
      apply hload.default
      · exact List.mem_map.2 ⟨(o.name, o.default), hof, rfl⟩
      · intro q hq' hden
        rw [spelt_iff lit hp ho hog] at hden
        rcases hdata with ⟨v', hv', hd'⟩ | ⟨-, rfl⟩
        · exact hno v' data hv' hd' q hq' hden
        · cases hq'

/-- Non-vacuity: a file that sets the purity under its MATILDA spelling. -/
example : (fromDict lowerAscii Py.asDict (groups Py.lit)
    [("trace", .dict [("PI", .lit (.dec 9 1))])]).toOption.isSome = true ∧
    (⟨"trace", "purity", some "pi", .dec 55 2⟩ : Documented) ∈ documented ∧
    (⟨"trace", "purity", some "pi", .dec 55 2⟩ : Documented).Spelt lowerAscii "PI" := by
  refine ⟨by decide +kernel, by decide, .inr (by decide +kernel)⟩

/-- **C52: the documented defaults.**  `InstanceSpaceOptions.default()` without arguments gives every
documented option its documented default. -/
theorem C52_documented (lit : Lit → V) :
    (default (groups lit) fun _ => none).map Prod.fst = documentedGroups ∧
    ∀ g fields, (g, fields) ∈ default (groups lit) (fun _ => none) →
      fields = (documented.filter fun o => o.group == g).map fun o => (o.name, lit o.default) := by
  constructor
  · rw [← documented_groups]
    unfold default groups
    simp
  · intro g fields h
    unfold default groups at h
    rw [List.map_map] at h
    obtain ⟨p, hp, he⟩ := List.mem_map.1 h
    simp only [Function.comp, Option.getD_none, Prod.mk.injEq] at he
    obtain ⟨rfl, rfl⟩ := he
    unfold Group.embed
    rw [documented_fields p hp, List.map_map]
    rfl

end Verif.Options
