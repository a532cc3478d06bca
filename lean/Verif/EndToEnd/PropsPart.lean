import Verif.EndToEnd.PartLemmas
import Verif.EndToEnd.PropsRecompute
/-!
# C227 for the whole pipeline: a subset of the instances against a smaller table
-/
set_option autoImplicit false
set_option linter.unusedSectionVars false

namespace Verif.EndToEnd

open Verif (Num)
open Verif.Pipeline (Stg Name runner defaultStages buildDefault inputs outputs)
open Verif.Metadata (Meta)
open Verif.Preprocessing (pick Lists)
open Verif.Runner (Dict Op exec runAll contents RunError)

variable {V W : Type}

private theorem part_eq {ns : List Name} {d d' : Dict Name (Val V W)} (h : DictRel (Outside ns) d d')
    {n : Name} (hn : n ∉ ns) : d' n = d n := by
  have := h n
  revert this
  generalize d n = u
  generalize d' n = u'
  rintro (hv | _)
  · rw [hv hn]
  · rfl

private theorem part_schedule {order : List Stg} {π : Builder.SetOrder Stg} {sched : List (List Stg)}
    (horder : order.Perm defaultStages) (hs : buildDefault order π = .ok sched) :
    ∃ rest, sched.flatten = .preprocessing :: .prelim :: .sifted :: rest ∧
      ∀ s ∈ rest, s = Stg.pilot ∨ s = .pythia ∨ s = .cloister ∨ s = .trace := by
  rcases Pipeline.C10_default_schedule order horder π with h | h <;>
    · rw [hs] at h
      obtain rfl := Except.ok.inj h
      exact ⟨_, rfl, by decide⟩

/-- **C227 (part), with an index file.** A build on the instances that the index file names is a build on a table
with these instances only: if the features are neither bounded nor normalised, no value is missing, the density
option is off and the numbers in the file are between 1 and one less than the number of instances, then both
outputs agree in every name but the metadata, the labels and the quantities that PRELIM records of the columns.
`σ` lists the positions of the named instances. Missing: bounding or normalisation (`C227_refuted`) and missing
values, which preprocessing counts over all instances. -/
theorem C227_file_partial {num : V → Num} {env : Env V W} {m : Meta V} {l : List V} {s : Option (List V)}
    (hm : Fitting l s m) (full : NothingMissing num m) (unbounded : env.prelim.bound = false)
    (plain : env.prelim.norm = false) (sparse : env.subset.byDensity = false) (uses : Prelim.UsesFile env.subset)
    {nums : List Int} (file : env.file = some nums) (inside : ∀ k ∈ nums, 1 ≤ k ∧ k < m.features.length)
    {σ : List Nat} (named : Lists σ m.features.length fun i => (i : Int) + 1 ∈ nums)
    {order : List Stg} {π : Builder.SetOrder Stg} {sched : List (List Stg)}
    (horder : order.Perm defaultStages) (hs : buildDefault order π = .ok sched)
    (ops ops' : List (Op Stg Name (Val V W)))
    (calls : (exec (runner order sched (run (withoutSubset env))) ops').st.calls.length =
      (exec (runner order sched (run env)) ops).st.calls.length) {d d' : Dict Name (Val V W)}
    (h : contents (runAll (runner order sched (run env)) (exec (runner order sched (run env)) ops).st
      (args env num m)) = .ok d)
    (h' : contents (runAll (runner order sched (run (withoutSubset env)))
      (exec (runner order sched (run (withoutSubset env))) ops').st
      (args (withoutSubset env) num (instancesOnly σ l s m))) = .ok d') :
    ∀ n, n ∉ ofAllInstances → d' n = d n := by
  rw [contents_apply horder hs] at h h'
  rw [calls] at h'
  obtain ⟨rest, e, hrest⟩ := part_schedule horder hs
  rw [e] at h h'
  have := run_of_part hm full unbounded plain sparse (σ := σ) (fun i hi => ((named.exact i).1 hi).1)
    (fun c a b dd ha hf => by
      rw [file] at hf
      obtain ⟨b', dd', is, f1, f2, f3⟩ := Prelim.C45_partial env.subset env.tests c env.split nums a _ ha uses inside
      rw [hf] at f1
      cases f1
      exact f3.unique named ▸ f2) sched hrest (exec (runner order sched (run env)) ops).st.calls.length
  rw [h, h'] at this
  exact fun n hn => part_eq this hn

/-- **C227 (part), with a fraction.** The same for a random fraction of the instances: a build on the positions
`js` that the split draws is a build on a table with these instances only. -/
theorem C227_fraction_partial {num : V → Num} {env : Env V W} {m : Meta V} {l : List V} {s : Option (List V)}
    (hm : Fitting l s m) (full : NothingMissing num m) (unbounded : env.prelim.bound = false)
    (plain : env.prelim.norm = false) (sparse : env.subset.byDensity = false)
    (uses : Prelim.UsesFraction env.subset) {js : List Nat} (split : env.split = some js)
    {σ : List Nat} (drawn : Lists σ m.features.length (· ∈ js))
    {order : List Stg} {π : Builder.SetOrder Stg} {sched : List (List Stg)}
    (horder : order.Perm defaultStages) (hs : buildDefault order π = .ok sched)
    (ops ops' : List (Op Stg Name (Val V W)))
    (calls : (exec (runner order sched (run (withoutSubset env))) ops').st.calls.length =
      (exec (runner order sched (run env)) ops).st.calls.length) {d d' : Dict Name (Val V W)}
    (h : contents (runAll (runner order sched (run env)) (exec (runner order sched (run env)) ops).st
      (args env num m)) = .ok d)
    (h' : contents (runAll (runner order sched (run (withoutSubset env)))
      (exec (runner order sched (run (withoutSubset env))) ops').st
      (args (withoutSubset env) num (instancesOnly σ l s m))) = .ok d') :
    ∀ n, n ∉ ofAllInstances → d' n = d n := by
  rw [contents_apply horder hs] at h h'
  rw [calls] at h'
  obtain ⟨rest, e, hrest⟩ := part_schedule horder hs
  rw [e] at h h'
  have := run_of_part hm full unbounded plain sparse (σ := σ) (fun i hi => ((drawn.exact i).1 hi).1)
    (fun c a b dd ha hf => by
      obtain ⟨js', is, f1, f2, f3⟩ := Prelim.C44_fraction env.subset env.tests c env.split env.file a b _ dd ha uses hf
      rw [split] at f1
      cases f1
      exact f2.unique drawn ▸ f3) sched hrest (exec (runner order sched (run env)) ops).st.calls.length
  rw [h, h'] at this
  exact fun n hn => part_eq this hn

/-- The full claim, for the index file and the features after SIFTED, without conditions on bounding and
normalisation. -/
def SubsetIsTable (V W : Type) : Prop :=
  ∀ (num : V → Num) (env : Env V W) (m : Meta V) (l : List V) (s : Option (List V)) (nums : List Int)
    (σ : List Nat) (d d' : Dict Name (Val V W)),
    Fitting l s m → NothingMissing num m → env.subset.byDensity = false → Prelim.UsesFile env.subset →
    env.file = some nums → (∀ k ∈ nums, 1 ≤ k ∧ k < m.features.length) →
    Lists σ m.features.length (fun i => (i : Int) + 1 ∈ nums) →
    contents (runAll (runner defaultStages Pipeline.defaultSchedule (run env)) Runner.State.init
      (args env num m)) = .ok d →
    contents (runAll (runner defaultStages Pipeline.defaultSchedule (run (withoutSubset env))) Runner.State.init
      (args (withoutSubset env) num (instancesOnly σ l s m))) = .ok d' →
    d' .x = d .x

/-! ### Cases -/

/-- Seven instances with two features and two algorithms. -/
def partMeta : Meta Nat where
  featureNames := ["feature_a", "feature_b"]
  algorithmNames := ["algo_p", "algo_q"]
  labels := .series [10, 11, 12, 13, 14, 15, 16]
  sources := none
  features := [[1, 1], [2, 5], [3, 2], [1, 4], [2, 1], [5, 3], [9, 9]]
  algorithms := [[4, 2], [1, 0], [5, 1], [3, 1], [3, 2], [4, 1], [6, 7]]

theorem part_fitting : Fitting [10, 11, 12, 13, 14, 15, 16] none partMeta where
  labels := rfl
  sources := rfl
  features := by decide
  algorithms := by decide
  rows := rfl
  labelled := rfl
  sourced := by rintro _ ⟨⟩

theorem part_full : NothingMissing lateNum partMeta := by
  constructor <;> intro r _ v _ h <;> cases h

/-- The options with an index file that names the first six instances. -/
def partEnv : Env Nat (Kept (List (ℚ × ℚ))) :=
  { allEnv false with subset := withFile, file := some [1, 2, 3, 4, 5, 6] }

/-- The options with a split that draws the first six instances, in another order. -/
def drawEnv : Env Nat (Kept (List (ℚ × ℚ))) :=
  { allEnv false with
    subset := ⟨true, true, false, false, false, false, false, ""⟩, split := some [3, 0, 1, 2, 5, 4] }

theorem part_named : Lists [0, 1, 2, 3, 4, 5] partMeta.features.length
    fun i => (i : Int) + 1 ∈ ([1, 2, 3, 4, 5, 6] : List Int) where
  increasing := by decide
  exact i := by
    simp only [List.mem_cons, List.not_mem_nil, or_false, partMeta, List.length_cons, List.length_nil]
    omega

theorem part_drawn : Lists [0, 1, 2, 3, 4, 5] partMeta.features.length (· ∈ [3, 0, 1, 2, 5, 4]) where
  increasing := by decide
  exact i := by
    simp only [List.mem_cons, List.not_mem_nil, or_false, partMeta, List.length_cons, List.length_nil]
    omega

-- The hypotheses of `C227_file_partial` hold, and both runs complete all stages.
example : Fitting [10, 11, 12, 13, 14, 15, 16] none partMeta ∧ NothingMissing lateNum partMeta ∧
    partEnv.prelim.bound = false ∧ partEnv.prelim.norm = false ∧ partEnv.subset.byDensity = false ∧
    Prelim.UsesFile partEnv.subset ∧ (∀ k ∈ [(1 : Int), 2, 3, 4, 5, 6], 1 ≤ k ∧ k < partMeta.features.length) ∧
    raisedIn (contents (runAll (runner defaultStages Pipeline.defaultSchedule (run partEnv)) Runner.State.init
      (args partEnv lateNum partMeta))) = 0 ∧
    raisedIn (contents (runAll (runner defaultStages Pipeline.defaultSchedule (run (withoutSubset partEnv)))
      Runner.State.init (args (withoutSubset partEnv) lateNum
        (instancesOnly [0, 1, 2, 3, 4, 5] [10, 11, 12, 13, 14, 15, 16] none partMeta)))) = 0 :=
  ⟨part_fitting, part_full, rfl, rfl, rfl, by simp [Prelim.UsesFile, Prelim.UsesFraction, partEnv, withFile],
    by decide, by decide +kernel, by decide +kernel⟩

-- The hypotheses of `C227_fraction_partial` hold, and both runs complete all stages.
example : Fitting [10, 11, 12, 13, 14, 15, 16] none partMeta ∧ NothingMissing lateNum partMeta ∧
    drawEnv.prelim.bound = false ∧ drawEnv.prelim.norm = false ∧ drawEnv.subset.byDensity = false ∧
    Prelim.UsesFraction drawEnv.subset ∧
    Lists [0, 1, 2, 3, 4, 5] partMeta.features.length (· ∈ [3, 0, 1, 2, 5, 4]) ∧
    raisedIn (contents (runAll (runner defaultStages Pipeline.defaultSchedule (run drawEnv)) Runner.State.init
      (args drawEnv lateNum partMeta))) = 0 ∧
    raisedIn (contents (runAll (runner defaultStages Pipeline.defaultSchedule (run (withoutSubset drawEnv)))
      Runner.State.init (args (withoutSubset drawEnv) lateNum
        (instancesOnly [0, 1, 2, 3, 4, 5] [10, 11, 12, 13, 14, 15, 16] none partMeta)))) = 0 :=
  ⟨part_fitting, part_full, rfl, rfl, rfl, ⟨rfl, rfl⟩, part_drawn, by decide +kernel, by decide +kernel⟩

/-- The options with normalisation and an index file that leaves out the instances with the least features. -/
def lowEnv : Env Nat Unit :=
  { smallEnv withFile (some [2, 3]) with prelim := ⟨true, true, .fin 2, .fin (1 / 2), false, true⟩ }

/-- The features after SIFTED. -/
def featuresOf (r : Except (RunError Name Err) (Dict Name (Val Nat Unit))) : Option (List (List Num)) :=
  match r with
  | .ok d =>
    match d .x with
    | some (.table x) => some x.rows
    | _ => none
  | _ => none

/-- **C227, refuted in full.** With normalisation the features of the instances in the subset are relative to all
instances of the metadata, also those outside the subset, so the output differs from that of a build on the
smaller table. -/
theorem C227_refuted : ¬ SubsetIsTable Nat Unit := by
  intro hall
  have h1 : featuresOf (contents (runAll (runner defaultStages Pipeline.defaultSchedule (run lowEnv))
      Runner.State.init (args lowEnv lateNum partMeta))) =
      some [[.fin 2, .fin 5], [.fin 3, .fin 2]] := by decide +kernel
  have h2 : featuresOf (contents (runAll (runner defaultStages Pipeline.defaultSchedule (run (withoutSubset lowEnv)))
      Runner.State.init (args (withoutSubset lowEnv) lateNum
        (instancesOnly [1, 2] [10, 11, 12, 13, 14, 15, 16] none partMeta)))) =
      some [[.fin 1, .fin 4], [.fin 2, .fin 1]] := by decide +kernel
  cases e1 : contents (runAll (runner defaultStages Pipeline.defaultSchedule (run lowEnv))
      Runner.State.init (args lowEnv lateNum partMeta)) with
  | error e => rw [e1] at h1; cases h1
  | ok d =>
    cases e2 : contents (runAll (runner defaultStages Pipeline.defaultSchedule (run (withoutSubset lowEnv)))
      Runner.State.init (args (withoutSubset lowEnv) lateNum
        (instancesOnly [1, 2] [10, 11, 12, 13, 14, 15, 16] none partMeta))) with
    | error e => rw [e2] at h2; cases h2
    | ok d' =>
      have := hall lateNum lowEnv partMeta _ none [2, 3] [1, 2] d d' part_fitting part_full rfl
        (by simp [Prelim.UsesFile, Prelim.UsesFraction, lowEnv, smallEnv, withFile]) rfl (by decide)
        ⟨by decide, fun i => by
          simp only [List.mem_cons, List.not_mem_nil, or_false, partMeta, List.length_cons, List.length_nil]
          omega⟩ e1 e2
      rw [e1] at h1
      rw [e2] at h2
      unfold featuresOf at h1 h2
      dsimp only at h1 h2
      rw [this, h1] at h2
      revert h2
      decide +kernel

end Verif.EndToEnd
