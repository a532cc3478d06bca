import Verif.Runner.SpecInfluence
/-!
# Lemmas about what a change in some stages can reach
-/
set_option autoImplicit false
set_option linter.unusedSectionVars false

namespace Verif.Runner

variable {S N V E : Type} [DecidableEq S] [DecidableEq N]

/-- The same values outside `R`. -/
def AgreeOff (R : N → Prop) (d d' : Dict N V) : Prop := ∀ n, ¬ R n → d' n = d n

theorem override_other {d : Dict N V} {out : List (N × V)} {n : N} (h : n ∉ out.map Prod.fst) :
    override d out n = d n := by
  unfold override
  rw [List.find?_eq_none.2 fun p hp => by
    simp only [decide_eq_true_eq]
    intro e
    exact h (e ▸ List.mem_map_of_mem (List.mem_reverse.1 hp))]

theorem override_agree {R : N → Prop} {d d' : Dict N V} (h : AgreeOff R d d') (out : List (N × V)) :
    AgreeOff R (override d out) (override d' out) := by
  intro n hn
  unfold override
  split
  · rfl
  · exact h n hn

theorem find_congr {l : List N} {p q : N → Bool} (h : ∀ n ∈ l, p n = q n) : l.find? p = l.find? q := by
  induction l with
  | nil => rfl
  | cons n l ih =>
    rw [List.find?_cons, List.find?_cons, h n List.mem_cons_self, ih fun m hm => h m (List.mem_cons_of_mem _ hm)]

/-- What a stage of two pipelines does to two dictionaries: both give dictionaries that agree, or it is touched
and one of them fails, or both fail alike. -/
theorem step_agree {R : N → Prop} {P P' : Pipeline S N V E} (hf : P'.fields = P.fields) {touched : S → Prop} {s : S}
    (hrun : ¬ touched s → ∀ k vs, P'.run k s vs = P.run k s vs)
    (hread : ¬ touched s → ∀ n ∈ P.fields s, ¬ R n)
    (hout : touched s → ∀ k vs out, P.run k s vs = .ok out → ∀ n ∈ out.map Prod.fst, R n)
    (hout' : touched s → ∀ k vs out, P'.run k s vs = .ok out → ∀ n ∈ out.map Prod.fst, R n)
    {d d' : Dict N V} (hd : AgreeOff R d d') (k : Nat) :
    (∃ e e', applyStage P k s d = .ok e ∧ applyStage P' k s d' = .ok e' ∧ AgreeOff R e e') ∨
      (touched s ∧ ((∃ x, applyStage P k s d = .error x) ∨ ∃ x, applyStage P' k s d' = .error x)) ∨
      ∃ x, applyStage P k s d = .error x ∧ applyStage P' k s d' = .error x := by
  by_cases ht : touched s
  · cases e : applyStage P k s d with
    | error x => exact .inr (.inl ⟨ht, .inl ⟨x, rfl⟩⟩)
    | ok y =>
      cases e' : applyStage P' k s d' with
      | error x => exact .inr (.inl ⟨ht, .inr ⟨x, rfl⟩⟩)
      | ok y' =>
        refine .inl ⟨y, y', rfl, rfl, ?_⟩
        unfold applyStage at e e'
        split at e
        · cases e
        split at e
        · cases e
        split at e'
        · cases e'
        split at e'
        · cases e'
        rename_i _ _ out h1 _ _ _ out' h2
        cases e
        cases e'
        intro n hn
        rw [override_other fun h => hn (hout ht _ _ _ h1 n h), override_other fun h => hn (hout' ht _ _ _ h2 n h)]
        exact hd n hn
  · have h1 : (P.fields s).find? (fun n => (d' n).isNone) = (P.fields s).find? fun n => (d n).isNone := by
      refine find_congr fun n hn => ?_
      rw [hd n (hread ht n hn)]
    have h2 : (P.fields s).filterMap d' = (P.fields s).filterMap d :=
      List.filterMap_congr fun n hn => hd n (hread ht n hn)
    unfold applyStage
    rw [hf, h1, h2, hrun ht]
    cases (P.fields s).find? fun n => (d n).isNone with
    | some n => exact .inr (.inr ⟨_, rfl, rfl⟩)
    | none =>
      dsimp only
      cases P.run k s ((P.fields s).filterMap d) with
      | error x => exact .inr (.inr ⟨_, rfl, rfl⟩)
      | ok out => exact .inl ⟨_, _, rfl, rfl, override_agree hd out⟩

theorem RaisedBy.cons {P : Pipeline S N V E} {k : Nat} {t : S} {ss : List S} {d e : Dict N V} {s : S}
    {x : RunError N E} (h1 : applyStage P k t d = .ok e) (h : RaisedBy P (k + 1) ss e s x) :
    RaisedBy P k (t :: ss) d s x := by
  obtain ⟨before, after, f, rfl, h2, h3⟩ := h
  refine ⟨t :: before, after, f, rfl, ?_, ?_⟩
  · rw [applyAll, h1]
    exact h2
  · rw [List.length_cons, Nat.add_comm before.length, ← Nat.add_assoc]
    exact h3

theorem all_agree {R : N → Prop} {P P' : Pipeline S N V E} (hf : P'.fields = P.fields) {touched : S → Prop} :
    ∀ (ss : List S) (k : Nat) (d d' : Dict N V), AgreeOff R d d' →
    (∀ s ∈ ss, (¬ touched s → ∀ k vs, P'.run k s vs = P.run k s vs) ∧ (¬ touched s → ∀ n ∈ P.fields s, ¬ R n) ∧
      (touched s → ∀ k vs out, P.run k s vs = .ok out → ∀ n ∈ out.map Prod.fst, R n) ∧
      (touched s → ∀ k vs out, P'.run k s vs = .ok out → ∀ n ∈ out.map Prod.fst, R n)) →
    (∃ e e', applyAll P k ss d = .ok e ∧ applyAll P' k ss d' = .ok e' ∧ AgreeOff R e e') ∨
      (∃ x, applyAll P k ss d = .error x ∧ applyAll P' k ss d' = .error x) ∨
      ∃ s x, touched s ∧ (RaisedBy P k ss d s x ∨ RaisedBy P' k ss d' s x)
  | [], _, d, d', hd, _ => .inl ⟨d, d', rfl, rfl, hd⟩
  | s :: ss, k, d, d', hd, h => by
    obtain ⟨h1, h2, h3, h4⟩ := h s List.mem_cons_self
    rcases step_agree hf h1 h2 h3 h4 hd k with ⟨e, e', g1, g2, g3⟩ | ⟨ht, ⟨x, g⟩ | ⟨x, g⟩⟩ | ⟨x, g1, g2⟩
    · simp only [applyAll, g1, g2]
      rcases all_agree hf ss (k + 1) e e' g3 fun t ht => h t (List.mem_cons_of_mem _ ht) with
        g | g | ⟨t, x, ht, g | g⟩
      · exact .inl g
      · exact .inr (.inl g)
      · exact .inr (.inr ⟨t, x, ht, .inl (g.cons g1)⟩)
      · exact .inr (.inr ⟨t, x, ht, .inr (g.cons g2)⟩)
    · exact .inr (.inr ⟨s, x, ht, .inl ⟨[], ss, d, rfl, rfl, g⟩⟩)
    · exact .inr (.inr ⟨s, x, ht, .inr ⟨[], ss, d', rfl, rfl, g⟩⟩)
    · simp only [applyAll, g1, g2]
      exact .inr (.inl ⟨x, rfl, rfl⟩)

end Verif.Runner
