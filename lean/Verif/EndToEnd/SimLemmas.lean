import Verif.Runner.Lemmas
import Mathlib.Data.List.Forall2
/-!
# Two runs side by side

If two dictionaries are related name by name and every stage takes related inputs to the same exception or
to related outputs, then so does applying the stages one after the other.
-/
set_option autoImplicit false
set_option linter.unusedSectionVars false

namespace Verif.EndToEnd

open Verif.Runner (Dict override applyAll applyStage RunError Pipeline)

/-- The same exception, or related values. -/
def Both {ε α β : Type} (R : α → β → Prop) : Except ε α → Except ε β → Prop
  | .error e, .error e' => e = e'
  | .ok a, .ok b => R a b
  | _, _ => False

variable {S N X E : Type} [DecidableEq N]

/-- Dictionaries related name by name. -/
def DictRel (R : N → X → X → Prop) (d d' : Dict N X) : Prop := ∀ n, Option.Rel (R n) (d n) (d' n)

/-- Outputs related field by field. -/
def OutRel (R : N → X → X → Prop) (out out' : List (N × X)) : Prop :=
  List.Forall₂ (fun p p' => p.1 = p'.1 ∧ R p.1 p.2 p'.2) out out'

theorem find_rel {R : N → X → X → Prop} {out out' : List (N × X)} (h : OutRel R out out') (n : N) :
    Option.Rel (fun p p' => p.1 = n ∧ R n p.2 p'.2) (out.find? fun p => p.1 = n)
      (out'.find? fun p => p.1 = n) := by
  induction h with
  | nil => exact .none
  | @cons p p' out out' hp _ ih =>
    rw [List.find?_cons, List.find?_cons, ← hp.1]
    by_cases hn : p.1 = n
    · simp only [hn, decide_true]
      exact .some ⟨hn, hn ▸ hp.2⟩
    · simp only [hn, decide_false]
      exact ih

theorem override_rel {R : N → X → X → Prop} {d d' : Dict N X} {out out' : List (N × X)}
    (ho : OutRel R out out') (hd : ∀ n, n ∉ out.map Prod.fst → Option.Rel (R n) (d n) (d' n)) :
    DictRel R (override d out) (override d' out') := by
  intro n
  have h := find_rel (List.forall₂_reverse_iff.2 ho : OutRel R out.reverse out'.reverse) n
  unfold override
  cases h1 : out.reverse.find? (fun p => p.1 = n) with
  | some p =>
    cases h2 : out'.reverse.find? (fun p => p.1 = n) with
    | some p' =>
      rw [h1, h2] at h
      cases h with
      | some h => exact .some h.2
    | none => rw [h1, h2] at h; cases h
  | none =>
    cases h2 : out'.reverse.find? (fun p => p.1 = n) with
    | some p' => rw [h1, h2] at h; cases h
    | none =>
      apply hd
      intro hm
      obtain ⟨p, hp, rfl⟩ := List.mem_map.1 hm
      have := List.find?_eq_none.1 h1 p (List.mem_reverse.2 hp)
      simp at this

theorem inputs_rel {R : N → X → X → Prop} {d d' : Dict N X} :
    ∀ (fields : List N), (∀ n ∈ fields, Option.Rel (R n) (d n) (d' n)) →
    fields.find? (fun n => (d n).isNone) = fields.find? (fun n => (d' n).isNone) ∧
    (fields.find? (fun n => (d n).isNone) = none →
      ∃ ps : List (X × X), fields.filterMap d = ps.map Prod.fst ∧ fields.filterMap d' = ps.map Prod.snd ∧
        List.Forall₂ (fun n p => R n p.1 p.2) fields ps)
  | [], _ => ⟨rfl, fun _ => ⟨[], rfl, rfl, .nil⟩⟩
  | n :: fields, h => by
    obtain ⟨h1, h2⟩ := inputs_rel fields fun m hm => h m (List.mem_cons_of_mem _ hm)
    have hn := h n List.mem_cons_self
    rw [List.find?_cons, List.find?_cons, List.filterMap_cons, List.filterMap_cons]
    cases e : d n with
    | none =>
      cases e' : d' n with
      | none => exact ⟨rfl, fun h => by cases h⟩
      | some v' => rw [e, e'] at hn; cases hn
    | some v =>
      cases e' : d' n with
      | none => rw [e, e'] at hn; cases hn
      | some v' =>
        rw [e, e'] at hn
        cases hn with
        | some hv =>
          refine ⟨h1, fun h3 => ?_⟩
          obtain ⟨ps, p1, p2, p3⟩ := h2 h3
          refine ⟨(v, v') :: ps, ?_, ?_, .cons hv p3⟩
          · simp only [List.map_cons, p1]
          · simp only [List.map_cons, p2]

theorem step_rel {R R' : N → X → X → Prop} {P : Pipeline S N X E} {k : Nat} {s : S} {d d' : Dict N X}
    (hd : DictRel R d d')
    (hrun : ∀ ps : List (X × X), List.Forall₂ (fun n p => R n p.1 p.2) (P.fields s) ps →
      Both (fun out out' => OutRel R' out out' ∧
          ∀ n, n ∉ out.map Prod.fst → ∀ v v', R n v v' → R' n v v')
        (P.run k s (ps.map Prod.fst)) (P.run k s (ps.map Prod.snd))) :
    Both (DictRel R') (applyStage P k s d) (applyStage P k s d') := by
  obtain ⟨h1, h2⟩ := inputs_rel (P.fields s) fun n _ => hd n
  unfold applyStage
  rw [← h1]
  cases e : (P.fields s).find? (fun n => (d n).isNone) with
  | some n => exact rfl
  | none =>
    obtain ⟨ps, p1, p2, p3⟩ := h2 e
    dsimp only
    rw [p1, p2]
    have h3 := hrun ps p3
    cases r : P.run k s (ps.map Prod.fst) with
    | error e =>
      cases r' : P.run k s (ps.map Prod.snd) with
      | error e' => rw [r, r'] at h3; exact congrArg _ h3
      | ok out' => rw [r, r'] at h3; exact h3.elim
    | ok out =>
      cases r' : P.run k s (ps.map Prod.snd) with
      | error e' => rw [r, r'] at h3; exact h3.elim
      | ok out' =>
        rw [r, r'] at h3
        refine override_rel h3.1 fun n hn => ?_
        have := hd n
        cases e1 : d n with
        | none =>
          cases e2 : d' n with
          | none => exact .none
          | some v' => rw [e1, e2] at this; cases this
        | some v =>
          cases e2 : d' n with
          | none => rw [e1, e2] at this; cases this
          | some v' =>
            rw [e1, e2] at this
            cases this with
            | some hv => exact .some (h3.2 n hn _ _ hv)

theorem all_rel {R : N → X → X → Prop} {P : Pipeline S N X E} :
    ∀ (ss : List S) (k : Nat) (d d' : Dict N X), DictRel R d d' →
    (∀ s ∈ ss, ∀ k (d d' : Dict N X), DictRel R d d' →
      Both (DictRel R) (applyStage P k s d) (applyStage P k s d')) →
    Both (DictRel R) (applyAll P k ss d) (applyAll P k ss d')
  | [], _, _, _, hd, _ => hd
  | s :: ss, k, d, d', hd, h => by
    have h1 := h s List.mem_cons_self k d d' hd
    simp only [applyAll]
    cases e : applyStage P k s d with
    | error x =>
      cases e' : applyStage P k s d' with
      | error x' => rw [e, e'] at h1; exact h1
      | ok y' => rw [e, e'] at h1; exact h1.elim
    | ok y =>
      cases e' : applyStage P k s d' with
      | error x' => rw [e, e'] at h1; exact h1.elim
      | ok y' =>
        rw [e, e'] at h1
        exact all_rel ss (k + 1) y y' h1 fun t ht => h t (List.mem_cons_of_mem _ ht)

theorem cons_rel {R R' : N → X → X → Prop} {P : Pipeline S N X E} {s : S} {ss : List S} {k : Nat}
    {d d' : Dict N X} (h1 : Both (DictRel R) (applyStage P k s d) (applyStage P k s d'))
    (h2 : ∀ y y', DictRel R y y' →
      Both (DictRel R') (applyAll P (k + 1) ss y) (applyAll P (k + 1) ss y')) :
    Both (DictRel R') (applyAll P k (s :: ss) d) (applyAll P k (s :: ss) d') := by
  simp only [applyAll]
  cases e : applyStage P k s d with
  | error x =>
    cases e' : applyStage P k s d' with
    | error x' => rw [e, e'] at h1; exact h1
    | ok y' => rw [e, e'] at h1; exact h1.elim
  | ok y =>
    cases e' : applyStage P k s d' with
    | error x' => rw [e, e'] at h1; exact h1.elim
    | ok y' =>
      rw [e, e'] at h1
      exact h2 y y' h1

end Verif.EndToEnd
