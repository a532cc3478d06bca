import Verif.Pipeline.Props
import Verif.Runner.PropsPlugin
/-!
# Property C137 for the default pipeline with a plugin

The seven stages with one more stage (`none`).  Names and types a plugin may declare are those
of the pipeline (`inl`) and any others (`inr`).
-/
set_option autoImplicit false
set_option linter.unusedSectionVars false

namespace Verif.Pipeline

open Verif.Builder Verif.Runner

/-- Names of arguments when there is a plugin, example_plugin.py:23-34. -/
abbrev PName := Name ⊕ String

/-- Annotations of arguments when there is a plugin, example_plugin.py:23-34. -/
abbrev PTy := Ty ⊕ String

/-- An argument of the seven stages (`Tables.lean`; stages/prelim.py:28-62 and the others). -/
def own (a : Name × Ty) : PName × PTy := (.inl a.1, .inl a.2)

/-- The builder after the seven stages have been added, instance_space.py:167-170,
example_plugin.py:91-103. -/
def sevenStages : Builder (Option Stg) (PName × PTy) :=
  runCalls cpython (fun _ => .plain)
    (defaultStages.map fun s => ⟨some s, (inputs s).map own, (outputs s).map own⟩) Builder.empty

/-- The builder after the plugin has been added too, example_plugin.py:102. -/
def withPlugin (ins outs : List (PName × PTy)) : Builder (Option Stg) (PName × PTy) :=
  (addStage cpython (fun _ => .plain) sevenStages none ins outs).2

/-- The annotations of `_InstanceSpaceInputs`, instance_space.py:172-183. -/
def pluginInit : List (PName × PTy) := initial.map own

/-- What the stages declare to return. -/
def declared (outs : List (PName × PTy)) : Option Stg → List (PName × PTy)
  | some s => (outputs s).map own
  | none => outs

/-- The set enumerated in list order. -/
def pluginOrder : SetOrder (Option Stg) := ⟨fun _ l => l, fun _ _ => .refl _⟩

theorem sevenStages_stages : sevenStages.stages = defaultStages.map some := by decide +kernel

theorem sevenStages_ins (s : Stg) : sevenStages.ins (some s) = (inputs s).map own := by
  cases s <;> decide +kernel

theorem sevenStages_outs (s : Stg) : sevenStages.outs (some s) = (outputs s).map own := by
  cases s <;> decide +kernel

theorem seven_once : (build cpython (fun _ => .plain) sevenStages pluginOrder
    (.namedTuple pluginInit)).1 = .ok (defaultSchedule.map (List.map some)) := by
  decide +kernel

theorem mem_seven {s : Option Stg} (h : s ∈ sevenStages.stages) : ∃ s', s = some s' := by
  rw [sevenStages_stages] at h
  obtain ⟨s', _, rfl⟩ := List.mem_map.1 h
  exact ⟨s', rfl⟩

/-- A plugin that reads what the pipeline provides and writes names of its own. -/
theorem plugin_observes (ins outs : List (PName × PTy)) (hne : outs ≠ [])
    (hnew : ∀ a ∈ outs, ∃ n, a.1 = .inr n)
    (hfound : ∀ a ∈ ins, ∃ b, a = own b ∧ (b ∈ initial ∨ ∃ s, b ∈ outputs s)) :
    Observer (fun _ => .plain) sevenStages pluginInit none ins outs where
  new := by decide +kernel
  found := by
    intro a ha
    obtain ⟨b, rfl, hb | ⟨s, hb⟩⟩ := hfound a ha
    · exact .inl (List.mem_map_of_mem hb)
    · refine .inr ⟨some s, ?_, ?_⟩
      · rw [sevenStages_stages]
        exact List.mem_map_of_mem (by cases s <;> decide)
      · rw [sevenStages_outs]
        exact List.mem_map_of_mem hb
  fresh := by
    intro a ha
    obtain ⟨n, hn⟩ := hnew a ha
    have key : ∀ l : List (Name × Ty), a ∉ l.map own := by
      intro l hl
      obtain ⟨b, _, rfl⟩ := List.mem_map.1 hl
      cases hn
    refine ⟨?_, ?_⟩
    · intro hi
      obtain ⟨b, rfl, _⟩ := hfound a hi
      cases hn
    · intro s hs
      obtain ⟨s', rfl⟩ := mem_seven hs
      rw [sevenStages_ins, sevenStages_outs]
      exact ⟨key _, key _⟩
  writes := hne
  plain := by intro a _ h; cases h

/-- **C137 for the default pipeline.** Let a plugin read fields that the pipeline's inputs or
its stages provide and write at least one field, all with names of their own.  Then the
pipeline with the plugin can be built, and if the pipeline alone runs successfully, then the
pipeline with the plugin leaves every field of the pipeline with the same value, unless the
plugin itself raises. -/
theorem C137_default {V E : Type} (ins outs : List (PName × PTy)) (hne : outs ≠ [])
    (hnew : ∀ a ∈ outs, ∃ n, a.1 = .inr n)
    (hfound : ∀ a ∈ ins, ∃ b, a = own b ∧ (b ∈ initial ∨ ∃ s, b ∈ outputs s))
    (run : Nat → Option Stg → List V → Except E (List (PName × V)))
    (hdet : ∀ k k' s vs, run k s vs = run k' s vs)
    (hdecl : ∀ k s vs out, run k s vs = .ok out → ∀ n, n ∈ out.map Prod.fst ↔
      ∃ a ∈ declared outs s, a.1 = n)
    (π π' : SetOrder (Option Stg)) (sched : List (List (Option Stg)))
    (h : (build cpython (fun _ => .plain) sevenStages π (.namedTuple pluginInit)).1 = .ok sched)
    (args d : Dict PName V) (hargs : ∀ a ∈ initial, (args (.inl a.1)).isSome)
    (hd : contents (runAll (pipelineOf sevenStages sched run) State.init args) = .ok d) :
    ∃ sched', (build cpython (fun _ => .plain) (withPlugin ins outs) π'
        (.namedTuple pluginInit)).1 = .ok sched' ∧
      ((∃ d', contents (runAll (pipelineOf (withPlugin ins outs) sched' run) State.init args) =
          .ok d' ∧ ∀ n : Name, d' (.inl n) = d (.inl n)) ∨
       ∃ k vs x, run k none vs = .error x ∧
        contents (runAll (pipelineOf (withPlugin ins outs) sched' run) State.init args) =
          .error (.stage x)) := by
  have hobs := plugin_observes ins outs hne hnew hfound
  have hnd : sevenStages.stages.Nodup := by decide +kernel
  have hso : SameOutcome (build cpython (fun _ => .plain) sevenStages π (.namedTuple pluginInit)).1
      (build cpython (fun _ => .plain) sevenStages pluginOrder (.namedTuple pluginInit)).1 :=
    build_rel (.refl _) rfl rfl (fun _ => Iff.rfl)
  rw [h, seven_once] at hso
  have hperm : List.Forall₂ List.Perm sched (defaultSchedule.map (List.map some)) := by
    cases hso with
    | ok _ _ h => exact h
  have hext := hobs.ext
  obtain ⟨sched', h1, h2⟩ := C137_results (fun _ => .plain) sevenStages hnd pluginInit none ins
    outs hobs
    (by
      intro a ha s hs b hb
      obtain ⟨n, hn⟩ := hnew a ha
      obtain ⟨s', rfl⟩ := mem_seven hs
      rw [sevenStages_ins] at hb
      obtain ⟨c, _, rfl⟩ := List.mem_map.1 hb
      rw [hn]
      simp [own])
    run hdet
    (by
      intro k s vs out hr n
      rw [hdecl k s vs out hr n]
      cases s with
      | none =>
        rw [addStage_ok hobs.new fun a ha => hobs.plain a (List.mem_append_right _ ha)]
        simp [declared]
      | some s =>
        rw [hext.outs (some s) (by simp), sevenStages_outs]
        rfl)
    (by
      intro s hs u hu a ha b hb hab
      obtain ⟨s', rfl⟩ := mem_seven hs
      obtain ⟨u', rfl⟩ := mem_seven hu
      rw [sevenStages_outs] at ha hb
      obtain ⟨a', ha', rfl⟩ := List.mem_map.1 ha
      obtain ⟨b', hb', rfl⟩ := List.mem_map.1 hb
      have hall : ∀ s ∈ defaultStages, ∀ t ∈ defaultStages, ∀ a ∈ outputs s, ∀ b ∈ outputs t,
        a.1 = b.1 → a.2 = b.2 := by decide +kernel
      have := hall s' (by cases s' <;> decide) u' (by cases u' <;> decide) a' ha' b' hb'
        (by simpa [own] using hab)
      simp [own, this])
    π π' sched h
    (by
      intro e he s hs u hu hne' a ha b hb
      obtain ⟨e', he', hp⟩ := forall₂_left hperm e he
      obtain ⟨f, hf, rfl⟩ := List.mem_map.1 he'
      obtain ⟨s', hs', rfl⟩ := List.mem_map.1 (hp.mem_iff.1 hs)
      obtain ⟨u', hu', rfl⟩ := List.mem_map.1 (hp.mem_iff.1 hu)
      rw [sevenStages_outs] at ha
      rw [sevenStages_ins] at hb
      obtain ⟨a', ha', rfl⟩ := List.mem_map.1 ha
      obtain ⟨b', hb', rfl⟩ := List.mem_map.1 hb
      have hx : ∀ e ∈ defaultSchedule, ∀ s ∈ e, ∀ t ∈ e, s ≠ t → ∀ a ∈ outputs s,
        ∀ b ∈ inputs t, a.1 ≠ b.1 := by decide +kernel
      have := hx f hf s' hs' u' hu' (fun g => hne' (by rw [g])) a' ha' b' hb'
      simpa [own] using this)
    args d
    (by
      intro a ha
      obtain ⟨b, hb, rfl⟩ := List.mem_map.1 ha
      exact hargs b hb)
    hd
  refine ⟨sched', h1, h2.imp ?_ id⟩
  rintro ⟨d', g1, g2⟩
  refine ⟨d', g1, fun n => g2 _ ?_⟩
  intro a ha
  obtain ⟨m, hm⟩ := hnew a ha
  rw [hm]
  simp

/-! ### The plugin of `example_plugin.py` -/

/-- `ExamplePluginInput`, example_plugin.py:23-29. -/
def exampleIns : List (PName × PTy) :=
  [(.accuracy, .listFloat), (.precision, .listFloat), (.recall, .listFloat),
    (.selection0, .arrayInt), (.selection1, .arrayInt), (.pythia_summary, .dataFrame)].map own

/-- `ExamplePluginOutput`, example_plugin.py:32-34. -/
def exampleOuts : List (PName × PTy) := [(.inr "blank", .inr "str")]

example : exampleOuts ≠ [] ∧ (∀ a ∈ exampleOuts, ∃ n, a.1 = .inr n) ∧
    (∀ a ∈ exampleIns, ∃ b, a = own b ∧ (b ∈ initial ∨ ∃ s, b ∈ outputs s)) := by
  refine ⟨by decide, ?_, ?_⟩
  · intro a ha
    simp only [exampleOuts, List.mem_cons, List.not_mem_nil, or_false] at ha
    exact ⟨"blank", by rw [ha]⟩
  · intro a ha
    obtain ⟨b, hb, rfl⟩ := List.mem_map.1 ha
    refine ⟨b, rfl, .inr ⟨.pythia, ?_⟩⟩
    clear ha
    revert b
    decide

/-- The example plugin runs beside TRACE. -/
example : (build cpython (fun _ => .plain) (withPlugin exampleIns exampleOuts) pluginOrder
    (.namedTuple pluginInit)).1 = .ok [[some .preprocessing], [some .prelim], [some .sifted],
      [some .pilot], [some .pythia, some .cloister], [some .trace, none]] := by
  decide +kernel

/-- Stages that return the sum of their inputs plus one in every field. -/
def pluginRun : Nat → Option Stg → List Nat → Except Unit (List (PName × Nat)) :=
  fun _ s vs => .ok ((declared exampleOuts s).map fun a => (a.1, vs.sum + 1))

example : (∀ k k' s vs, pluginRun k s vs = pluginRun k' s vs) ∧
    (∀ k s vs out, pluginRun k s vs = .ok out → ∀ n, n ∈ out.map Prod.fst ↔
      ∃ a ∈ declared exampleOuts s, a.1 = n) ∧
    (contents (runAll (pipelineOf sevenStages (defaultSchedule.map (List.map some)) pluginRun)
      State.init fun n => match n with
        | .inl n => if n ∈ initial.map Prod.fst then some 100 else none
        | .inr _ => none)).toOption.isSome := by
  refine ⟨fun _ _ _ _ => rfl, ?_, by decide +kernel⟩
  intro k s vs out h n
  cases h
  simp

end Verif.Pipeline
