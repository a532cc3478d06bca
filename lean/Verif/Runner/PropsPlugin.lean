import Verif.Runner.PropsBuilt
import Verif.Builder.PropsPlugin
/-!
# Property C137, the results: a stage that only observes changes no result
-/
set_option autoImplicit false
set_option linter.unusedSectionVars false

namespace Verif.Runner

open Verif.Builder

variable {S N V E T : Type} [DecidableEq S] [DecidableEq N] [DecidableEq T]

/-- Stages of one element of a built schedule are independent, under the conditions of
C18. -/
theorem built_independent {kind : N × T → Kind S} {B : Builder S (N × T)} (hB : B.stages.Nodup)
    {init : List (N × T)} {run : Nat → S → List V → Except E (List (N × V))}
    (hdecl : ∀ k, ∀ s ∈ B.stages, ∀ vs out, run k s vs = .ok out →
      ∀ n ∈ out.map Prod.fst, ∃ a ∈ B.outs s, a.1 = n)
    (huniq : ∀ s ∈ B.stages, ∀ t ∈ B.stages, ∀ a ∈ B.outs s, ∀ b ∈ B.outs t, a.1 = b.1 → a.2 = b.2)
    {π : SetOrder S} {sched : List (List S)}
    (h : (build cpython kind B π (.namedTuple init)).1 = .ok sched)
    (hread : ∀ e ∈ sched, ∀ s ∈ e, ∀ t ∈ e, s ≠ t → ∀ a ∈ B.outs s, ∀ b ∈ B.ins t, a.1 ≠ b.1) :
    ∀ e ∈ sched, ∀ s ∈ e, ∀ t ∈ e, s ≠ t → Independent (pipelineOf B sched run) s t := by
  have hv := C01_schedule_valid kind B hB π _ sched h
  have hst : ∀ e ∈ sched, ∀ s ∈ e, s ∈ B.stages := by
    intro e he s hs
    obtain ⟨i, hi⟩ := List.getElem?_of_mem he
    exact (hv.complete s).2 ⟨i, e, hi, hs⟩
  intro e he s hs t ht hst'
  obtain ⟨i, hi⟩ := List.getElem?_of_mem he
  have hdis := (C04_no_conflict kind B hB π _ sched h i s t ⟨e, hi, hs⟩ ⟨e, hi, ht⟩ hst').1
  have hnw : ∀ n, ¬ (Writes (pipelineOf B sched run) s n ∧ Writes (pipelineOf B sched run) t n) := by
    rintro n ⟨⟨k, vs, out, hr, hm⟩, ⟨k', vs', out', hr', hm'⟩⟩
    obtain ⟨a, ha, rfl⟩ := hdecl k s (hst e he s hs) vs out hr n hm
    obtain ⟨b, hb, hab⟩ := hdecl k' t (hst e he t ht) vs' out' hr' a.1 hm'
    have := huniq s (hst e he s hs) t (hst e he t ht) a ha b hb hab.symm
    exact hdis a ⟨ha, (Prod.ext hab.symm this : a = b) ▸ hb⟩
  intro n
  refine ⟨fun hw => ⟨?_, fun hw' => hnw n ⟨hw, hw'⟩⟩, fun hw => ⟨?_, fun hw' => hnw n ⟨hw', hw⟩⟩⟩
  · obtain ⟨k, vs, out, hr, hm⟩ := hw
    obtain ⟨a, ha, rfl⟩ := hdecl k s (hst e he s hs) vs out hr n hm
    intro hf
    obtain ⟨b, hb, hab⟩ := List.mem_map.1 hf
    exact hread e he s hs t ht hst' a ha b hb hab.symm
  · obtain ⟨k, vs, out, hr, hm⟩ := hw
    obtain ⟨a, ha, rfl⟩ := hdecl k t (hst e he t ht) vs out hr n hm
    intro hf
    obtain ⟨b, hb, hab⟩ := List.mem_map.1 hf
    exact hread e he t ht s hs (Ne.symm hst') a ha b hb hab.symm

theorem strike_flatten (t : S) (l : List (List S)) :
    (strike t l).flatten = without t l.flatten := by
  induction l with
  | nil => rfl
  | cons e rest ih =>
    have hw : without t (e :: rest).flatten = without t e ++ without t rest.flatten := by
      simp [without]
    rw [hw, ← ih]
    unfold strike
    rw [List.map_cons]
    cases he : without t e with
    | nil => simp
    | cons x xs => simp

/-- Running with an extra stage that writes only names from `W`, which the other stages do
not read: either the extra stage itself fails, or the results agree outside `W`. -/
theorem applyAll_extra {P P' : Pipeline S N V E} (hrun : P'.run = P.run)
    (hdet : P.Deterministic) {t : S} {W : N → Prop} :
    ∀ (l : List S) (_ : ∀ s ∈ l, s ≠ t → P'.fields s = P.fields s ∧ ∀ n ∈ P.fields s, ¬ W n)
      (_ : ∀ n, Writes P t n → W n) (k k' : Nat) (d d' dd : Dict N V),
      (∀ n, ¬ W n → d' n = d n) → applyAll P k (without t l) d = .ok dd →
      (∃ dd', applyAll P' k' l d' = .ok dd' ∧ ∀ n, ¬ W n → dd' n = dd n) ∨
      (∃ k₀ d₀ e, applyAll P' k' l d' = .error e ∧ applyStage P' k₀ t d₀ = .error e) := by
  intro l
  induction l with
  | nil =>
    intro _ _ k k' d d' dd hd h
    cases h
    exact .inl ⟨d', rfl, hd⟩
  | cons s ss ih =>
    intro hf hw k k' d d' dd hd h
    have hf' : ∀ s ∈ ss, s ≠ t → P'.fields s = P.fields s ∧ ∀ n ∈ P.fields s, ¬ W n :=
      fun s hs => hf s (List.mem_cons_of_mem _ hs)
    by_cases hst : s = t
    · subst hst
      have hws : without s (s :: ss) = without s ss := by simp [without]
      rw [hws] at h
      cases ha : applyStage P' k' s d' with
      | error e =>
        exact .inr ⟨k', d', e, by simp [applyAll, ha], ha⟩
      | ok d₁ =>
        simp only [applyAll, ha]
        refine ih hf' hw k (k' + 1) d d₁ dd ?_ h
        intro n hn
        obtain ⟨_, out, hr, rfl⟩ := applyStage_ok ha
        rw [override_of_not_mem, hd n hn]
        intro hm
        rw [hrun] at hr
        exact hn (hw n ⟨_, _, _, hr, hm⟩)
    · have hws : without t (s :: ss) = s :: without t ss := by simp [without, hst]
      rw [hws] at h
      unfold applyAll at h
      cases ha : applyStage P k s d with
      | error e => rw [ha] at h; cases h
      | ok d₁ =>
        rw [ha] at h
        simp only at h
        obtain ⟨h1, out, hr, rfl⟩ := applyStage_ok ha
        obtain ⟨g1, g2⟩ := hf s List.mem_cons_self hst
        have hsame : ∀ n ∈ P.fields s, d' n = d n := fun n hn => hd n (g2 n hn)
        have ha' : applyStage P' k' s d' = .ok (override d' out) := by
          apply applyStage_of
          · rw [g1]
            intro n hn
            rw [hsame n hn]
            exact h1 n hn
          · rw [g1, List.filterMap_congr hsame, hrun, hdet k' k]
            exact hr
        simp only [applyAll, ha']
        refine ih hf' hw (k + 1) (k' + 1) (override d out) _ dd ?_ h
        intro n hn
        exact override_congr (hd n hn)

/-- **C137, results.** Take a pipeline that can be built and a stage `t` that only observes,
and let the names `t` writes be new.  Then the pipeline with `t` can be built, and a run that
succeeds without `t` either succeeds with `t` and leaves every other value as it was, or
raises what `t` itself raised.  (Conditions as in C18: the stages do not depend on how often
something was run, return what they declare, and no stage reads an output of another stage of
its element.) -/
theorem C137_results (kind : N × T → Kind S) (B : Builder S (N × T)) (hB : B.stages.Nodup)
    (init : List (N × T)) (t : S) (ins outs : List (N × T))
    (hobs : Observer kind B init t ins outs)
    (hnames : ∀ a ∈ outs, ∀ s ∈ B.stages, ∀ b ∈ B.ins s, a.1 ≠ b.1)
    (run : Nat → S → List V → Except E (List (N × V)))
    (hdet : ∀ k k' s vs, run k s vs = run k' s vs)
    (hdecl : ∀ k s vs out, run k s vs = .ok out → ∀ n, n ∈ out.map Prod.fst ↔
      ∃ a ∈ (addStage cpython kind B t ins outs).2.outs s, a.1 = n)
    (huniq : ∀ s ∈ B.stages, ∀ u ∈ B.stages, ∀ a ∈ B.outs s, ∀ b ∈ B.outs u, a.1 = b.1 → a.2 = b.2)
    (π π' : SetOrder S) (sched : List (List S))
    (h : (build cpython kind B π (.namedTuple init)).1 = .ok sched)
    (hread : ∀ e ∈ sched, ∀ s ∈ e, ∀ u ∈ e, s ≠ u → ∀ a ∈ B.outs s, ∀ b ∈ B.ins u, a.1 ≠ b.1)
    (args d : Dict N V) (hargs : ∀ a ∈ init, (args a.1).isSome)
    (hd : contents (runAll (pipelineOf B sched run) State.init args) = .ok d) :
    ∃ sched', (build cpython kind (addStage cpython kind B t ins outs).2 π'
        (.namedTuple init)).1 = .ok sched' ∧
      ((∃ d', contents (runAll (pipelineOf (addStage cpython kind B t ins outs).2 sched' run)
          State.init args) = .ok d' ∧ ∀ n, (∀ a ∈ outs, a.1 ≠ n) → d' n = d n) ∨
       ∃ k vs x, run k t vs = .error x ∧
          contents (runAll (pipelineOf (addStage cpython kind B t ins outs).2 sched' run)
            State.init args) = .error (.stage x)) := by
  obtain ⟨sched', hb', -, hperm⟩ := C137_schedule kind B hB (.namedTuple init) t ins outs hobs
    π π' sched h
  refine ⟨sched', hb', ?_⟩
  have hext := hobs.ext
  have hBeq := addStage_ok (ins := ins) hobs.new
    fun a ha => hobs.plain a (List.mem_append_right _ ha)
  have houtT : (addStage cpython kind B t ins outs).2.outs t = outs := by rw [hBeq]; simp
  generalize hB' : (addStage cpython kind B t ins outs).2 = B' at *
  have hnd' : B'.stages.Nodup := by
    rw [hext.stages, List.nodup_append]
    refine ⟨hB, by simp, ?_⟩
    intro a ha b hb hab
    simp at hb
    subst hb hab
    exact hobs.new ha
  have hP := built_proper hB h run
  have hP' := built_proper hnd' hb' run
  have hv' := C01_schedule_valid kind B' hnd' π' _ sched' hb'
  have e1 : contents (runAll (pipelineOf B sched run) State.init args) =
      applyAll (pipelineOf B sched run) 0 sched.flatten args :=
    (runFrom_apply hP (Inv.init _) args sched [] (by simp [pipelineOf])).1
  have e2 : contents (runAll (pipelineOf B' sched' run) State.init args) =
      applyAll (pipelineOf B' sched' run) 0 sched'.flatten args :=
    (runFrom_apply hP' (Inv.init _) args sched' [] (by simp [pipelineOf])).1
  rw [e1] at hd
  have hv := C01_schedule_valid kind B hB π _ sched h
  have hind := built_independent (run := run) hB (fun k s hs vs out hr n hn => by
    obtain ⟨a, ha, g⟩ := (hdecl k s vs out hr n).1 hn
    rw [hext.outs s (hext.ne hs)] at ha
    exact ⟨a, ha, g⟩) huniq h hread
  have hd2 := applyAll_elements (P := pipelineOf B sched run) hdet hperm hind
    (fun e he => (List.nodup_flatten.1 hv.once).1 e he) 0 args d hd
  rw [strike_flatten] at hd2
  have hstage : ∀ s ∈ sched'.flatten, s ∈ B'.stages := by
    intro s hs
    obtain ⟨e, he, hse⟩ := List.mem_flatten.1 hs
    obtain ⟨i, hi⟩ := List.getElem?_of_mem he
    exact (hv'.complete s).2 ⟨i, e, hi, hse⟩
  have hfields : ∀ s ∈ sched'.flatten, s ≠ t →
      (pipelineOf B' sched' run).fields s = (pipelineOf B sched run).fields s ∧
      ∀ n ∈ (pipelineOf B sched run).fields s, ¬ ∃ a ∈ outs, a.1 = n := by
    intro s hs hst
    refine ⟨?_, ?_⟩
    · simp only [pipelineOf]
      rw [hext.ins s hst]
    · rintro n hn ⟨a, ha, rfl⟩
      obtain ⟨b, hb, hab⟩ := List.mem_map.1 hn
      have hsB : s ∈ B.stages := by
        have := hstage s hs
        rw [hext.stages] at this
        rcases List.mem_append.1 this with g | g
        · exact g
        · simp at g; exact absurd g hst
      exact hnames a ha s hsB b hb hab.symm
  have hwrites : ∀ n, Writes (pipelineOf B sched run) t n → ∃ a ∈ outs, a.1 = n := by
    rintro n ⟨k, vs, out, hr, hm⟩
    have := (hdecl k t vs out hr n).1 hm
    rwa [houtT] at this
  rcases applyAll_extra (P := pipelineOf B sched run) (P' := pipelineOf B' sched' run) rfl hdet
    (W := fun n => ∃ a ∈ outs, a.1 = n) sched'.flatten hfields hwrites 0 0 args args d
    (fun n _ => rfl) hd2 with ⟨dd', g1, g2⟩ | ⟨k₀, d₀, e, g1, g2⟩
  · left
    refine ⟨dd', by rw [e2, g1], ?_⟩
    intro n hn
    exact g2 n (by rintro ⟨a, ha, hna⟩; exact hn a ha hna)
  · right
    obtain ⟨x, rfl⟩ : ∃ x, e = .stage x := by
      refine C11_never_missing kind B' hnd' π' (.namedTuple init) sched' hb' run
        (fun k s vs out hr a ha => (hdecl k s vs out hr a.1).2 ⟨a, ha, rfl⟩) [] args hargs e ?_
      rw [g1] at e2
      unfold contents at e2
      change (runAll _ State.init args).1 = _
      split at e2
      · rename_i e' he'
        rw [he']
        cases e2
        rfl
      · cases e2
    unfold applyStage at g2
    split at g2
    · cases g2
    · split at g2
      · rename_i x' hr
        cases g2
        exact ⟨k₀, _, x, hr, by rw [e2, g1]⟩
      · cases g2

/-! A plugin 7 beside the stages of `beside`: it reads what stage 0 made and writes 9. -/

def besideRun : Nat → Nat → List Int → Except Unit (List (Nat × Int)) :=
  fun _ s vs => match s with
    | 0 => .ok [(2, vs.sum + 1)]
    | 1 => .ok [(3, vs.sum + 2)]
    | 7 => if vs.sum < 0 then .error () else .ok [(9, vs.sum)]
    | _ => .ok []

example : Observer (fun _ => .plain) beside [(0, ()), (1, ())] 7 [(2, ())] [(9, ())] where
  new := by decide
  found := by decide
  fresh := by decide
  writes := by decide
  plain := by intro a _ h; cases h

example : (∀ a ∈ [((9 : Nat), ())], ∀ s ∈ beside.stages, ∀ b ∈ beside.ins s, a.1 ≠ b.1) ∧
    (∀ k s vs out, besideRun k s vs = .ok out → ∀ n, n ∈ out.map Prod.fst ↔
      ∃ a ∈ (addStage cpython (fun _ => .plain) beside 7 [(2, ())] [(9, ())]).2.outs s, a.1 = n) := by
  refine ⟨by decide, ?_⟩
  intro k s vs out h n
  by_cases h0 : s = 0
  · subst h0; cases h; simp [addStage, beside, isBefore, isAfter, eq_comm]
  by_cases h1 : s = 1
  · subst h1; cases h; simp [addStage, beside, isBefore, isAfter, eq_comm]
  by_cases h7 : s = 7
  · subst h7
    simp only [besideRun] at h
    split at h
    · cases h
    · cases h; simp [addStage, beside, isBefore, isAfter, eq_comm]
  · have : out = [] := by
      unfold besideRun at h
      split at h
      · exact absurd rfl h0
      · exact absurd rfl h1
      · exact absurd rfl h7
      · cases h; rfl
    subst this
    have hb : beside.outs s = [] := by
      unfold beside
      dsimp only
      split
      · exact absurd rfl h0
      · exact absurd rfl h1
      · rfl
    have : (addStage cpython (fun _ => .plain) beside 7 [(2, ())] [(9, ())]).2.outs s = [] := by
      exact (if_neg h7).trans hb
    simp [this]

example : ((contents (runAll (pipelineOf beside [[0, 1]] besideRun) .init
      (fun n => if n ≤ 1 then some 5 else none))).toOption.map fun d => [d 0, d 1, d 2, d 3]) =
    some [some 5, some 5, some 6, some 12] := rfl
example : ((contents (runAll (pipelineOf
      (addStage cpython (fun _ => .plain) beside 7 [(2, ())] [(9, ())]).2 [[0, 1], [7]] besideRun)
      .init (fun n => if n ≤ 1 then some 5 else none))).toOption.map
        fun d => [d 0, d 1, d 2, d 3, d 9]) =
    some [some 5, some 5, some 6, some 12, some 6] := rfl

end Verif.Runner
