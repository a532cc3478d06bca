import Verif.Pipeline.Whole
import Verif.Pipeline.Props
import Verif.Options.Props
/-! Helper lemmas about whole runs of the default pipeline. -/
set_option autoImplicit false
set_option linter.unusedSectionVars false

namespace Verif.Pipeline

open Verif.Runner

section
variable {S N V E : Type} [DecidableEq S] [DecidableEq N]

/-- The value of a name at the end is what its last writer returned. -/
theorem applyAll_last {P : Runner.Pipeline S N V E} {k : Nat} {pre post : List S} {s : S}
    {d d' : Dict N V} {n : N} (hpost : ∀ t ∈ post, ¬ Writes P t n)
    (hw : ∀ k vs out, P.run k s vs = .ok out → n ∈ out.map Prod.fst)
    (h : applyAll P k (pre ++ s :: post) d = .ok d') :
    ∃ ev ∈ applyEvents P k (pre ++ s :: post) d, ev.stage = s ∧
      ∃ out v, ev.result = .ok out ∧ (n, v) ∈ out ∧ d' n = some v := by
  rw [applyAll_append] at h
  rw [applyEvents_append]
  cases h1 : applyAll P k pre d with
  | error e => rw [h1] at h; cases h
  | ok d1 =>
    rw [h1] at h
    simp only at h
    unfold applyAll at h
    cases h2 : applyStage P (k + pre.length) s d1 with
    | error e => rw [h2] at h; cases h
    | ok d2 =>
      rw [h2] at h
      simp only at h
      obtain ⟨hall, out, hrun, rfl⟩ := applyStage_ok h2
      have hm := hw _ _ _ hrun
      obtain ⟨v, hv, hd2⟩ := override_of_mem (d := d1) hm
      refine ⟨⟨s, (P.fields s).filterMap d1, .ok out⟩, ?_, rfl, out, v, rfl, hv, ?_⟩
      · refine List.mem_append_right _ ?_
        simp only
        unfold applyEvents
        have : (P.fields s).find? (fun n => (d1 n).isNone) = none := by
          rw [List.find?_eq_none]
          intro n hn
          have := hall n hn
          cases hx : d1 n <;> simp_all
        rw [this]
        simp only [hrun]
        exact List.mem_cons_self
      · rw [applyAll_frame hpost h, hd2]

/-- In every execution of a run, successful or not, names that no stage writes have their initial
values. -/
theorem applyEvents_inputs {P : Runner.Pipeline S N V E} {k : Nat} {l : List S} {d : Dict N V}
    {ev : Event S N V E} (h : ev ∈ applyEvents P k l d) :
    ∃ d₁ : Dict N V, ev.inputs.map some = (P.fields ev.stage).map d₁ ∧
      ∀ n, (∀ s ∈ l, ¬ Writes P s n) → d₁ n = d n := by
  induction l generalizing k d with
  | nil => simp [applyEvents] at h
  | cons s ss ih =>
    have hmap : ∀ (fs : List N) (d : Dict N V), fs.find? (fun n => (d n).isNone) = none →
        (fs.filterMap d).map some = fs.map d := by
      intro fs d hn
      rw [List.find?_eq_none] at hn
      induction fs with
      | nil => rfl
      | cons f fs ih' =>
        have hf := hn f List.mem_cons_self
        cases hx : d f with
        | none => simp [hx] at hf
        | some v =>
          rw [List.filterMap_cons, hx, List.map_cons, List.map_cons, hx,
            ih' fun n h => hn n (List.mem_cons_of_mem _ h)]
    unfold applyEvents at h
    split at h
    · cases h
    · rename_i hnone
      split at h
      · rw [List.mem_singleton] at h
        subst h
        exact ⟨d, hmap _ _ hnone, fun _ _ => rfl⟩
      · rename_i out hrun
        rcases List.mem_cons.1 h with rfl | h
        · exact ⟨d, hmap _ _ hnone, fun _ _ => rfl⟩
        · obtain ⟨d₁, h1, h2⟩ := ih h
          refine ⟨d₁, h1, fun n hn => ?_⟩
          rw [h2 n fun t ht => hn t (List.mem_cons_of_mem _ ht)]
          exact override_of_not_mem fun hm => hn s List.mem_cons_self ⟨_, _, _, hrun, hm⟩

end

/-- Splitting a list at an element. -/
theorem split_at {α : Type} [DecidableEq α] (l : List α) (s : α) (h : s ∈ l) :
    l = l.takeWhile (fun t => decide (t ≠ s)) ++ s :: (l.dropWhile fun t => decide (t ≠ s)).tail := by
  induction l with
  | nil => cases h
  | cons a l ih =>
    by_cases ha : a = s
    · subst ha
      simp
    · rw [List.takeWhile_cons_of_pos (by simpa using ha),
        List.dropWhile_cons_of_pos (by simpa using ha), List.cons_append,
        ← ih ((List.mem_cons.1 h).resolve_left (Ne.symm ha))]

/-- A stage returns a named tuple of its output class: exactly the declared fields. -/
def ReturnsTuple {V E : Type} (run : Nat → Stg → List V → Except E (List (Name × V))) : Prop :=
  ∀ k s vs out, run k s vs = .ok out → out.map Prod.fst = (outputs s).map Prod.fst

theorem tuple_writes {V E : Type} {order : List Stg} {sched : List (List Stg)}
    {run : Nat → Stg → List V → Except E (List (Name × V))} (hrun : ReturnsTuple run) {s : Stg}
    {n : Name} (h : n ∉ (outputs s).map Prod.fst) : ¬ Writes (runner order sched run) s n := by
  rintro ⟨k, vs, out, h1, h2⟩
  exact h ((hrun k s vs out h1) ▸ h2)

/-- Reading a part when the keys are present. -/
theorem readPart_ok {V : Type} (d : Dict Name V) (fields : List (String × Name))
    (h : ∀ p ∈ fields, (d p.2).isSome) :
    ∃ part, readPart d fields = .ok part ∧ part.map Prod.fst = fields.map Prod.fst ∧
      ∀ p ∈ fields, ∃ v, d p.2 = some v ∧ (p.1, v) ∈ part := by
  obtain ⟨vs, h1, h2⟩ := collect_present d (fields.map Prod.snd) (by
    intro n hn
    obtain ⟨p, hp, rfl⟩ := List.mem_map.1 hn
    exact h p hp)
  refine ⟨(fields.map Prod.fst).zip vs, by simp only [readPart, h1], ?_, ?_⟩
  · rw [List.map_fst_zip]
    have := congrArg List.length h2
    simp only [List.length_map] at this
    simp [this]
  · clear h1 h
    induction fields generalizing vs with
    | nil => intro p hp; cases hp
    | cons q fields ih =>
      cases vs with
      | nil => simp at h2
      | cons v vs =>
        simp only [List.map_cons, List.cons.injEq] at h2
        intro p hp
        rcases List.mem_cons.1 hp with rfl | hp
        · exact ⟨v, h2.1, List.mem_cons_self⟩
        · obtain ⟨w, h3, h4⟩ := ih vs h2.2 p hp
          exact ⟨w, h3, List.mem_cons_of_mem _ h4⟩

end Verif.Pipeline
