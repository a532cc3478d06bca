import Verif.Pipeline.PropsWhole
import Verif.Runner.PropsLatest
/-!
# Property C138 for the default pipeline: where each input of each stage comes from
-/
set_option autoImplicit false
set_option linter.unusedSectionVars false

namespace Verif.Pipeline

open Verif.Builder Verif.Runner

/-- What each stage works on, in the order of its parameters, and the stage that provides it, as the
documentation of the pipeline has it: PRELIM works on the preprocessed data, SIFTED on what PRELIM made
of them, PILOT on the features SIFTED selected, and so on.  `none` stands for the initial inputs
(metadata and options). -/
def worksOn : Stg → List (Name × Option Stg)
  | .preprocessing => [(.feature_names, none), (.algorithm_names, none), (.instance_labels, none),
      (.instance_sources, none), (.features, none), (.algorithms, none), (.selvars_options, none)]
  | .prelim => [(.x, some .preprocessing), (.y, some .preprocessing), (.x_raw, some .preprocessing),
      (.y_raw, some .preprocessing), (.s, some .preprocessing), (.inst_labels, some .preprocessing),
      (.prelim_options, none), (.selvars_options, none)]
  | .sifted => [(.x, some .prelim), (.y, some .prelim), (.y_bin, some .prelim), (.x_raw, some .prelim),
      (.y_raw, some .prelim), (.beta, some .prelim), (.num_good_algos, some .prelim),
      (.y_best, some .prelim), (.p, some .prelim), (.inst_labels, some .preprocessing),
      (.feat_labels, some .preprocessing), (.s, some .prelim), (.sifted_options, none),
      (.selvars_options, none), (.data_dense, some .prelim), (.parallel_options, none)]
  | .pilot => [(.x, some .sifted), (.y, some .sifted), (.feat_labels, some .sifted),
      (.pilot_options, none)]
  | .pythia => [(.z, some .pilot), (.y_raw, some .sifted), (.y_bin, some .sifted),
      (.y_best, some .sifted), (.algo_labels, some .preprocessing), (.pythia_options, none),
      (.parallel_options, none)]
  | .cloister => [(.x, some .sifted), (.a, some .pilot), (.cloister_options, none)]
  | .trace => [(.z, some .pilot), (.selection0, some .pythia), (.p, some .sifted),
      (.beta, some .sifted), (.algo_labels, some .preprocessing), (.y_hat, some .pythia),
      (.y_bin, some .sifted), (.trace_options, none), (.parallel_options, none)]

/-- The stage that provides an input. -/
def source (s : Stg) (n : Name) : Option Stg := ((worksOn s).lookup n).join

theorem worksOn_inputs (s : Stg) : (worksOn s).map Prod.fst = (inputs s).map Prod.fst := by
  cases s <;> rfl

theorem worksOn_source (s : Stg) : ∀ a ∈ worksOn s, source s a.1 = a.2 := by
  cases s <;> decide +kernel

/-- In a flat order of the stages, the last stage before position `i` that declares the output
`n`. -/
def lastBefore (flat : List Stg) (i : Nat) (n : Name) : Option Stg :=
  (flat.take i).reverse.find? fun t => decide (n ∈ (outputs t).map Prod.fst)

theorem source_table₁ : ∀ i < 7, ∀ s ∈ ([Stg.preprocessing, .prelim, .sifted, .pilot, .pythia,
    .cloister, .trace] : List Stg)[i]?, ∀ a ∈ inputs s,
    lastBefore [.preprocessing, .prelim, .sifted, .pilot, .pythia, .cloister, .trace] i a.1 =
      source s a.1 := by
  decide +kernel

theorem source_table₂ : ∀ i < 7, ∀ s ∈ ([Stg.preprocessing, .prelim, .sifted, .pilot, .cloister,
    .pythia, .trace] : List Stg)[i]?, ∀ a ∈ inputs s,
    lastBefore [.preprocessing, .prelim, .sifted, .pilot, .cloister, .pythia, .trace] i a.1 =
      source s a.1 := by
  decide +kernel

theorem default_inputs {V E : Type} (order : List Stg) (horder : order.Perm defaultStages)
    (π : SetOrder Stg) (sched : List (List Stg)) (hs : buildDefault order π = .ok sched)
    (run : Nat → Stg → List V → Except E (List (Name × V))) (hrun : ReturnsTuple run)
    (ops : List (Op Stg Name V)) (args : Dict Name V) (i : Nat) (ev : Event Stg Name V E)
    (h : (executions order sched run ops args)[i]? = some ev) (j : Nat) (a : Name × Ty)
    (hj : (inputs ev.stage)[j]? = some a) :
    ∃ v, ev.inputs[j]? = some v ∧
      match source ev.stage a.1 with
      | none => args a.1 = some v
      | some t => Returned ((executions order sched run ops args).take i) t a.1 v := by
  obtain ⟨hB, ht⟩ := builderOf_tables order horder
  have hP : (runner order sched run).Proper := built_proper hB hs run
  have hexe : executions order sched run ops args =
      executionsOf (runner order sched run) ops args := rfl
  rw [hexe] at h ⊢
  obtain ⟨h1, h2, h3⟩ := C138_inputs _ hP ops args i ev h
  have hfield : ((runner order sched run).fields ev.stage)[j]? = some a.1 := by
    change (((builderOf order).ins ev.stage).map Prod.fst)[j]? = _
    rw [(ht ev.stage).1, List.getElem?_map, hj]
    rfl
  obtain ⟨v, g1, g2⟩ := h3 j a.1 hfield
  refine ⟨v, g1, ?_⟩
  -- the stage at each position of the executions
  have hpos : ∀ (k : Nat) (e : Event Stg Name V E),
      (executionsOf (runner order sched run) ops args)[k]? = some e →
      sched.flatten[k]? = some e.stage := fun k e he => (C138_inputs _ hP ops args k e he).1
  have hstages : ((executionsOf (runner order sched run) ops args).take i).map Event.stage =
      sched.flatten.take i := by
    have hi : i < (executionsOf (runner order sched run) ops args).length :=
      (List.getElem?_eq_some_iff.1 h).1
    have hi' : i < sched.flatten.length := (List.getElem?_eq_some_iff.1 h1).1
    apply List.ext_getElem?
    intro k
    rw [List.getElem?_map]
    by_cases hk : k < i
    · rw [List.getElem?_take_of_lt hk, List.getElem?_take_of_lt hk]
      have : k < (executionsOf (runner order sched run) ops args).length := by omega
      rw [List.getElem?_eq_getElem this, hpos k _ (List.getElem?_eq_getElem this)]
      rfl
    · rw [List.getElem?_eq_none (by simp; omega), List.getElem?_eq_none (by simp; omega)]
      rfl
  have hwrote : ∀ e ∈ (executionsOf (runner order sched run) ops args).take i,
      e.Wrote a.1 → a.1 ∈ (outputs e.stage).map Prod.fst := by
    intro e he hw
    obtain ⟨out, hr, hm⟩ := hw
    have he' := List.mem_of_mem_take he
    rw [executionsOf_eq hP] at he'
    obtain ⟨k, vs, hrk⟩ := applyEvents_result he'
    rw [hr] at hrk
    rw [← hrun k e.stage vs out hrk]
    exact hm
  have hdid : ∀ e ∈ (executionsOf (runner order sched run) ops args).take i,
      a.1 ∈ (outputs e.stage).map Prod.fst → e.Wrote a.1 := by
    intro e he hm
    obtain ⟨out, hr⟩ := applyEvents_ok_before (P := runner order sched run)
      (k := (exec (runner order sched run) ops).st.calls.length) (l := sched.flatten) (d := args)
      (i := i) (e := e) (by rw [executionsOf_eq hP] at he; exact he)
      (by rw [executionsOf_eq hP] at h; exact (List.getElem?_eq_some_iff.1 h).1)
    have he' := List.mem_of_mem_take he
    rw [executionsOf_eq hP] at he'
    obtain ⟨k, vs, hrk⟩ := applyEvents_result he'
    rw [hr] at hrk
    refine ⟨out, hr, ?_⟩
    rw [hrun k e.stage vs out hrk]
    exact hm
  have htab : lastBefore sched.flatten i a.1 = source ev.stage a.1 := by
    have hi' : i < sched.flatten.length := (List.getElem?_eq_some_iff.1 h1).1
    have ha : a ∈ inputs ev.stage := List.mem_of_getElem? hj
    rcases C10_default_schedule order horder π with hc | hc <;> rw [hc] at hs <;> cases hs
    · exact source_table₁ i hi' ev.stage h1 a ha
    · exact source_table₂ i hi' ev.stage h1 a ha
  rw [← htab]
  unfold lastBefore
  rw [← hstages]
  generalize (executionsOf (runner order sched run) ops args).take i = evs at g2 hwrote hdid
  rcases g2 with ⟨pre, e, post, out, rfl, hr, hl, hpost⟩ | ⟨hno, hargs⟩
  · have hfind : ((pre ++ e :: post).map Event.stage).reverse.find?
        (fun t => decide (a.1 ∈ (outputs t).map Prod.fst)) = some e.stage := by
      rw [List.map_append, List.map_cons, List.reverse_append, List.reverse_cons,
        List.append_assoc, List.find?_append]
      have h0 : (post.map Event.stage).reverse.find?
          (fun t => decide (a.1 ∈ (outputs t).map Prod.fst)) = none := by
        rw [List.find?_eq_none]
        intro t htm
        obtain ⟨e', he', rfl⟩ := List.mem_map.1 (List.mem_reverse.1 htm)
        simp only [decide_eq_true_eq]
        intro hm
        exact hpost e' he' (hdid e' (by simp [he']) hm)
      rw [h0]
      have hw : e.Wrote a.1 := by
        obtain ⟨x, y, rfl, _⟩ := hl
        exact ⟨_, hr, by simp⟩
      have := hwrote e (by simp) hw
      simp [this]
    rw [hfind]
    obtain ⟨x, y, rfl, _⟩ := hl
    exact ⟨e, by simp, rfl, _, hr, by simp⟩
  · have hfind : (evs.map Event.stage).reverse.find?
        (fun t => decide (a.1 ∈ (outputs t).map Prod.fst)) = none := by
      rw [List.find?_eq_none]
      intro t htm
      obtain ⟨e', he', rfl⟩ := List.mem_map.1 (List.mem_reverse.1 htm)
      simp only [decide_eq_true_eq]
      intro hm
      exact hno e' he' (hdid e' he' hm)
    rw [hfind]
    exact hargs

/-- **C138 for the default pipeline.** In every `run_all` of the default pipeline, every stage executed
receives exactly the values of the table, in order: where the table names a stage, the value is the one
that stage returned in this run (and that stage was executed before); otherwise it is the initial value
given. -/
theorem C138_default {V E : Type} (order : List Stg) (horder : order.Perm defaultStages)
    (π : SetOrder Stg) (sched : List (List Stg)) (hs : buildDefault order π = .ok sched)
    (run : Nat → Stg → List V → Except E (List (Name × V))) (hrun : ReturnsTuple run)
    (ops : List (Op Stg Name V)) (args : Dict Name V) (i : Nat) (ev : Event Stg Name V E)
    (h : (executions order sched run ops args)[i]? = some ev) :
    ev.inputs.length = (worksOn ev.stage).length ∧
    ∀ (j : Nat) (n : Name) (src : Option Stg), (worksOn ev.stage)[j]? = some (n, src) →
      ∃ v, ev.inputs[j]? = some v ∧
        match src with
        | none => args n = some v
        | some t => Returned ((executions order sched run ops args).take i) t n v := by
  constructor
  · obtain ⟨hB, ht⟩ := builderOf_tables order horder
    have hP : (runner order sched run).Proper := built_proper hB hs run
    have h2 := (C138_inputs _ hP ops args i ev h).2.1
    rw [h2]
    change (((builderOf order).ins ev.stage).map Prod.fst).length = _
    rw [(ht ev.stage).1, ← worksOn_inputs, List.length_map]
  · intro j n src hj
    have h1 := congrArg (fun l => l[j]?) (worksOn_inputs ev.stage)
    simp only [List.getElem?_map, hj, Option.map_some] at h1
    cases hin : (inputs ev.stage)[j]? with
    | none => rw [hin] at h1; cases h1
    | some a =>
      rw [hin] at h1
      have h3 : n = a.1 := Option.some.inj h1
      have h4 := default_inputs order horder π sched hs run hrun ops args i ev h j a hin
      rw [← h3, worksOn_source ev.stage _ (List.mem_of_getElem? hj)] at h4
      exact h4

/-- The hypotheses are met by `countingRun`, whose stages return the number of their execution:
PILOT's `x` is what SIFTED (execution 2) returned, TRACE's `z` what PILOT (3) returned. -/
example : ReturnsTuple countingRun := by
  intro k s vs out h
  cases h
  rw [List.map_map]
  rfl
example : ((executions defaultStages defaultSchedule countingRun [] someArgs).map
    fun ev => (ev.stage, ev.inputs)) =
  [(.preprocessing, [100, 100, 100, 100, 100, 100, 100]),
    (.prelim, [0, 0, 0, 0, 0, 0, 100, 100]),
    (.sifted, [1, 1, 1, 1, 1, 1, 1, 1, 1, 0, 0, 1, 100, 100, 1, 100]),
    (.pilot, [2, 2, 2, 100]), (.pythia, [3, 2, 2, 2, 0, 100, 100]), (.cloister, [2, 3, 100]),
    (.trace, [3, 4, 2, 2, 0, 4, 2, 100, 100])] := by decide +kernel

end Verif.Pipeline
