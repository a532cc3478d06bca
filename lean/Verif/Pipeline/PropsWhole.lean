import Verif.Pipeline.WholeLemmas
/-!
# C131, C132: what the Model holds and what the stages receive
-/
set_option autoImplicit false
set_option linter.unusedSectionVars false

namespace Verif.Pipeline

open Verif.Runner
open Verif.Metadata (Meta)
open Verif.Options (Lit Loaded Denotes groups litGroups LowerOK fromDict)

/-! ### C131: the Model holds what the stages returned -/

/-- The stage executions of one `run_all`. -/
def executions {V E : Type} (order : List Stg) (sched : List (List Stg))
    (run : Nat → Stg → List V → Except E (List (Name × V))) (ops : List (Op Stg Name V))
    (args : Dict Name V) : List (Event Stg Name V E) :=
  let before := (exec (runner order sched run) ops).st
  (runAll (runner order sched run) before args).2.calls.drop before.calls.length

/-- Stage `s` returned `v` under the name `n` in one of the executions. -/
def Returned {V E : Type} (evs : List (Event Stg Name V E)) (s : Stg) (n : Name) (v : V) : Prop :=
  ∃ ev ∈ evs, ev.stage = s ∧ ∃ out, ev.result = .ok out ∧ (n, v) ∈ out

/-- A part of the Model holds exactly the listed fields, with the values its stage returned under the
listed names. -/
def Holds {V E : Type} (evs : List (Event Stg Name V E)) (part : List (String × V))
    (origin : List (String × Stg × Name)) : Prop :=
  part.map Prod.fst = origin.map Prod.fst ∧
  ∀ r ∈ origin, ∃ v, (r.1, v) ∈ part ∧ Returned evs r.2.1 r.2.2 v

/-- All values of one stage. -/
def allFrom (s : Stg) (l : List (String × Name)) : List (String × Stg × Name) :=
  l.map fun p => (p.1, s, p.2)

/-- Where the data come from: the last stage that changes them. -/
def dataOrigin : List (String × Stg × Name) :=
  [("inst_labels", .sifted, .inst_labels), ("feat_labels", .sifted, .feat_labels),
    ("algo_labels", .preprocessing, .algo_labels), ("x", .sifted, .x), ("y", .sifted, .y),
    ("x_raw", .sifted, .x_raw), ("y_raw", .sifted, .y_raw), ("y_bin", .sifted, .y_bin),
    ("y_best", .sifted, .y_best), ("p", .sifted, .p),
    ("num_good_algos", .sifted, .num_good_algos), ("beta", .sifted, .beta), ("s", .sifted, .s)]

/-- The fields of the part `prelim`. -/
def prelimOrigin : List (String × Stg × Name) :=
  allFrom .prelim
    [("med_val", .med_val), ("iq_range", .iq_range), ("hi_bound", .hi_bound),
      ("lo_bound", .lo_bound), ("min_x", .min_x), ("lambda_x", .lambda_x), ("mu_x", .mu_x),
      ("sigma_x", .sigma_x), ("min_y", .min_y), ("lambda_y", .lambda_y), ("sigma_y", .sigma_y),
      ("mu_y", .mu_y)]

/-- The fields of the part `sifted`. -/
def siftedOrigin : List (String × Stg × Name) :=
  allFrom .sifted
    [("selvars", .selvars), ("idx", .idx), ("rho", .rho), ("pval", .pval),
      ("silhouette_scores", .silhouette_scores), ("clust", .clust)]

/-- The fields of the part `pilot`. -/
def pilotOrigin : List (String × Stg × Name) :=
  allFrom .pilot
    [("X0", .X0), ("alpha", .alpha), ("eoptim", .eoptim), ("perf", .perf), ("a", .a), ("z", .z),
      ("c", .c), ("b", .b), ("error", .error), ("r2", .r2), ("summary", .pilot_summary)]

/-- The fields of the part `cloister`. -/
def cloisterOrigin : List (String × Stg × Name) :=
  allFrom .cloister
    [("z_edge", .z_edge), ("z_ecorr", .z_ecorr)]

/-- The fields of the part `pythia`. -/
def pythiaOrigin : List (String × Stg × Name) :=
  allFrom .pythia
    [("mu", .mu), ("sigma", .sigma), ("cp", .cp), ("svm", .svm), ("cvcmat", .cvcmat),
      ("y_sub", .y_sub), ("y_hat", .y_hat), ("pr0_sub", .pr0_sub), ("pr0_hat", .pr0_hat),
      ("box_consnt", .box_consnt), ("k_scale", .k_scale), ("precision", .precision),
      ("recall", .recall), ("accuracy", .accuracy), ("selection0", .selection0),
      ("selection1", .selection1), ("summary", .pythia_summary)]

/-- The fields of the part `trace`. -/
def traceOrigin : List (String × Stg × Name) :=
  allFrom .trace
    [("space", .space), ("good", .good), ("best", .best), ("hard", .hard),
      ("summary", .trace_summary)]

/-- The stage that returned the value kept under a name: every key of the Model has one last writer in the
default schedules. -/
theorem last_writer {V E : Type} (order : List Stg) (horder : order.Perm defaultStages)
    (π : Builder.SetOrder Stg) (sched : List (List Stg)) (hs : buildDefault order π = .ok sched)
    (run : Nat → Stg → List V → Except E (List (Name × V))) (hrun : ReturnsTuple run)
    (ops : List (Op Stg Name V)) (args d : Dict Name V)
    (hd : contents (runAll (runner order sched run) (exec (runner order sched run) ops).st args) =
      .ok d) (s : Stg) (n : Name) (hn : n ∈ (outputs s).map Prod.fst)
    (h1 : ∀ t ∈ ([Stg.preprocessing, .prelim, .sifted, .pilot, .pythia, .cloister, .trace].dropWhile
      fun t => decide (t ≠ s)).tail, n ∉ (outputs t).map Prod.fst)
    (h2 : ∀ t ∈ ([Stg.preprocessing, .prelim, .sifted, .pilot, .cloister, .pythia, .trace].dropWhile
      fun t => decide (t ≠ s)).tail, n ∉ (outputs t).map Prod.fst) :
    ∃ v, d n = some v ∧ Returned (executions order sched run ops args) s n v := by
  have hB := (builderOf_tables order horder).1
  have hP : (runner order sched run).Proper := built_proper hB hs run
  obtain ⟨g1, g2, -⟩ := runFrom_apply hP (exec_inv hP.once ops) args sched [] (by simp [pipelineOf])
  change contents (runFrom _ _ args sched.flatten) = .ok d at hd
  rw [g1] at hd
  have hev : executions order sched run ops args =
      applyEvents (runner order sched run) (exec (runner order sched run) ops).st.calls.length
        sched.flatten args := by
    unfold executions
    simp only
    change List.drop _ (runFrom _ _ args sched.flatten).2.calls = _
    rw [g2, List.drop_left]
  have hflat : s ∈ sched.flatten ∧ ∀ t ∈ (sched.flatten.dropWhile fun t => decide (t ≠ s)).tail,
      n ∉ (outputs t).map Prod.fst := by
    rcases C10_default_schedule order horder π with h | h <;> rw [h] at hs <;> cases hs
    · exact ⟨by cases s <;> decide, h1⟩
    · exact ⟨by cases s <;> decide, h2⟩
  have hsplit := split_at _ _ hflat.1
  generalize hk : (exec (runner order sched run) ops).st.calls.length = k at *
  rw [hsplit] at hd
  obtain ⟨ev, e1, e2, out, v, e3, e4, e5⟩ := applyAll_last (s := s) (n := n)
    (fun t ht => tuple_writes hrun (hflat.2 t ht))
    (fun k vs out h => by
      have := hrun k s vs out h
      rw [this]
      exact hn) hd
  rw [← hsplit] at e1
  exact ⟨v, e5, ev, hev ▸ e1, e2, out, e3, e4⟩

/-- **C131** After a successful `run_all`, on any history and for any stage implementations that return
their output tuples, the Model is made; its parts hold exactly what the responsible stage returned in this
run, and it holds the options given. -/
theorem C131_model {V E O : Type} (order : List Stg) (horder : order.Perm defaultStages)
    (π : Builder.SetOrder Stg) (sched : List (List Stg)) (hs : buildDefault order π = .ok sched)
    (run : Nat → Stg → List V → Except E (List (Name × V))) (hrun : ReturnsTuple run)
    (ops : List (Op Stg Name V)) (args d : Dict Name V)
    (hd : contents (runAll (runner order sched run) (exec (runner order sched run) ops).st args) =
      .ok d) (opts : O) :
    ∃ m, modelOf d opts = .ok m ∧ m.opts = opts ∧
      Holds (executions order sched run ops args) m.data dataOrigin ∧
      Holds (executions order sched run ops args) m.featSel [("idx", .sifted, .idx)] ∧
      Holds (executions order sched run ops args) m.prelim prelimOrigin ∧
      Holds (executions order sched run ops args) m.sifted siftedOrigin ∧
      Holds (executions order sched run ops args) m.pilot pilotOrigin ∧
      Holds (executions order sched run ops args) m.cloister cloisterOrigin ∧
      Holds (executions order sched run ops args) m.pythia pythiaOrigin ∧
      Holds (executions order sched run ops args) m.trace traceOrigin := by
  have key : ∀ (fields : List (String × Name)) (origin : List (String × Stg × Name)),
      origin.map (fun r => (r.1, r.2.2)) = fields →
      (∀ r ∈ origin, r.2.2 ∈ (outputs r.2.1).map Prod.fst ∧
        (∀ t ∈ ([Stg.preprocessing, .prelim, .sifted, .pilot, .pythia, .cloister, .trace].dropWhile
          fun t => decide (t ≠ r.2.1)).tail, r.2.2 ∉ (outputs t).map Prod.fst) ∧
        (∀ t ∈ ([Stg.preprocessing, .prelim, .sifted, .pilot, .cloister, .pythia, .trace].dropWhile
          fun t => decide (t ≠ r.2.1)).tail, r.2.2 ∉ (outputs t).map Prod.fst)) →
      ∃ part, readPart d fields = .ok part ∧
        Holds (executions order sched run ops args) part origin := by
    intro fields origin hf ho
    have hval : ∀ r ∈ origin, ∃ v, d r.2.2 = some v ∧
        Returned (executions order sched run ops args) r.2.1 r.2.2 v := by
      intro r hr
      obtain ⟨a, b, c⟩ := ho r hr
      exact last_writer order horder π sched hs run hrun ops args d hd r.2.1 r.2.2 a b c
    obtain ⟨part, h1, h2, h3⟩ := readPart_ok d fields (by
      intro p hp
      rw [← hf] at hp
      obtain ⟨r, hr, rfl⟩ := List.mem_map.1 hp
      obtain ⟨v, hv, -⟩ := hval r hr
      rw [hv]; rfl)
    refine ⟨part, h1, ?_, ?_⟩
    · rw [h2, ← hf, List.map_map]
      rfl
    · intro r hr
      obtain ⟨v, hv, hret⟩ := hval r hr
      obtain ⟨w, hw, hmem⟩ := h3 (r.1, r.2.2) (by
        rw [← hf]
        exact List.mem_map.2 ⟨r, hr, rfl⟩)
      rw [hv] at hw
      cases hw
      exact ⟨v, hmem, hret⟩
  obtain ⟨p1, r1, h1⟩ := key dataFields dataOrigin rfl (by decide +kernel)
  obtain ⟨p2, r2, h2⟩ := key featSelFields [("idx", .sifted, .idx)] rfl (by decide +kernel)
  obtain ⟨p3, r3, h3⟩ := key prelimFields prelimOrigin rfl (by decide +kernel)
  obtain ⟨p4, r4, h4⟩ := key siftedFields siftedOrigin rfl (by decide +kernel)
  obtain ⟨p5, r5, h5⟩ := key pilotFields pilotOrigin rfl (by decide +kernel)
  obtain ⟨p6, r6, h6⟩ := key cloisterFields cloisterOrigin rfl (by decide +kernel)
  obtain ⟨p7, r7, h7⟩ := key pythiaFields pythiaOrigin rfl (by decide +kernel)
  obtain ⟨p8, r8, h8⟩ := key traceFields traceOrigin rfl (by decide +kernel)
  refine ⟨⟨p1, p1, p2, p3, p4, p5, p6, p7, p8, opts⟩, ?_, rfl, h1, h2, h3, h4, h5, h6, h7, h8⟩
  unfold modelOf
  rw [r1, r2, r3, r4, r5, r6, r7, r8]
  rfl

/-- The claim about the dense data: the Model's `data_dense` is the dense data of PRELIM, here for its
field `x`; `xOf` reads the field of the object PRELIM returns. -/
def DenseKept : Prop :=
  ∀ (V : Type) (run : Nat → Stg → List V → Except Unit (List (Name × V))) (xOf : V → V)
    (args d : Dict Name V), ReturnsTuple run →
    contents (runAll (runner defaultStages defaultSchedule run) State.init args) = .ok d →
    ∀ m, modelOf d () = .ok m → ∀ dense,
      Returned (executions defaultStages defaultSchedule run [] args) .prelim .data_dense dense →
      ("x", xOf dense) ∈ m.dataDense

/-- **C131** is false of `data_dense`: the Model stores the reduced data there a second time. -/
theorem C131_refuted : ¬ DenseKept := by
  intro h
  have htuple : ReturnsTuple countingRun := by
    intro k s vs out hk
    cases hk
    simp
  have hok : (contents (runAll (runner defaultStages defaultSchedule countingRun) State.init
      someArgs)).toOption.isSome := by decide +kernel
  cases hc : contents (runAll (runner defaultStages defaultSchedule countingRun) State.init someArgs) with
  | error e => rw [hc] at hok; cases hok
  | ok d =>
    have hx : ((contents (runAll (runner defaultStages defaultSchedule countingRun) State.init
        someArgs)).toOption.bind fun d => (modelOf d ()).toOption.map fun m =>
          decide (("x", 1) ∉ m.dataDense)) = some true := by decide +kernel
    rw [hc] at hx
    simp only [Except.toOption, Option.bind_some] at hx
    cases hm : modelOf d () with
    | error e => rw [hm] at hx; cases hx
    | ok m =>
      rw [hm] at hx
      simp only [Option.map_some, Option.some.injEq, decide_eq_true_eq] at hx
      refine hx (h Nat countingRun id someArgs d htuple hc m hm 1 ?_)
      have : (executions defaultStages defaultSchedule countingRun [] someArgs).any (fun ev =>
          decide (ev.stage = .prelim) && match ev.result with
            | .ok out => decide ((Name.data_dense, 1) ∈ out)
            | .error _ => false) = true := by decide +kernel
      obtain ⟨ev, h1, h2⟩ := List.any_eq_true.1 this
      rw [Bool.and_eq_true, decide_eq_true_eq] at h2
      refine ⟨ev, h1, h2.1, ?_⟩
      have h3 := h2.2
      cases hr : ev.result with
      | error e => rw [hr] at h3; cases h3
      | ok out => rw [hr] at h3; exact ⟨out, rfl, of_decide_eq_true h3⟩

/-- **C131, what `data_dense` is.** It always equals `data`, whatever PRELIM returned.  Missing: the dense
data. -/
theorem C131_dense_partial {V O : Type} (d : Dict Name V) (opts : O) (m : ModelObj V O)
    (h : modelOf d opts = .ok m) : m.dataDense = m.data := by
  unfold modelOf at h
  cases r1 : readPart d dataFields with
  | error e => rw [r1] at h; cases h
  | ok p1 =>
  cases r2 : readPart d featSelFields with
  | error e => rw [r1, r2] at h; cases h
  | ok p2 =>
  cases r3 : readPart d prelimFields with
  | error e => rw [r1, r2, r3] at h; cases h
  | ok p3 =>
  cases r4 : readPart d siftedFields with
  | error e => rw [r1, r2, r3, r4] at h; cases h
  | ok p4 =>
  cases r5 : readPart d pilotFields with
  | error e => rw [r1, r2, r3, r4, r5] at h; cases h
  | ok p5 =>
  cases r6 : readPart d cloisterFields with
  | error e => rw [r1, r2, r3, r4, r5, r6] at h; cases h
  | ok p6 =>
  cases r7 : readPart d pythiaFields with
  | error e => rw [r1, r2, r3, r4, r5, r6, r7] at h; cases h
  | ok p7 =>
  cases r8 : readPart d traceFields with
  | error e => rw [r1, r2, r3, r4, r5, r6, r7, r8] at h; cases h
  | ok p8 =>
    rw [r1, r2, r3, r4, r5, r6, r7, r8] at h
    cases h
    rfl

theorem readPart_ok_iff {V : Type} (d : Dict Name V) (fields : List (String × Name)) :
    (∃ p, readPart d fields = .ok p) ↔ ∀ n ∈ fields.map Prod.snd, (d n).isSome := by
  unfold readPart
  constructor
  · rintro ⟨p, h⟩
    cases hc : collect d (fields.map Prod.snd) with
    | error e => rw [hc] at h; cases h
    | ok vs =>
      clear h
      generalize fields.map Prod.snd = ns at hc
      induction ns generalizing vs with
      | nil => simp
      | cons n ns ih =>
        simp only [collect] at hc
        cases hn : d n with
        | none => rw [hn] at hc; cases hc
        | some v =>
          rw [hn] at hc
          dsimp only at hc
          cases hc' : collect d ns with
          | error e => rw [hc'] at hc; cases hc
          | ok ws =>
            intro m hm
            rcases List.mem_cons.1 hm with rfl | hm
            · rw [hn]; rfl
            · exact ih ws hc' m hm
  · intro h
    obtain ⟨vs, h1, -⟩ := collect_present d _ h
    rw [h1]
    exact ⟨_, rfl⟩

/-- **C25, the keys.** A Model can be made from a dictionary exactly when every one of the listed keys is in
it: those of `C25_model_keys` are the ones needed, none is missing from the list and none is superfluous. -/
theorem C25_needed {V O : Type} (d : Dict Name V) (opts : O) :
    (∃ m, modelOf d opts = .ok m) ↔ ∀ n ∈ modelKeys, (d n).isSome := by
  have hall : (∀ n ∈ modelKeys, (d n).isSome) ↔ (∀ n ∈ dataFields.map Prod.snd, (d n).isSome) ∧
      (∀ n ∈ featSelFields.map Prod.snd, (d n).isSome) ∧
      (∀ n ∈ prelimFields.map Prod.snd, (d n).isSome) ∧
      (∀ n ∈ siftedFields.map Prod.snd, (d n).isSome) ∧
      (∀ n ∈ pilotFields.map Prod.snd, (d n).isSome) ∧
      (∀ n ∈ cloisterFields.map Prod.snd, (d n).isSome) ∧
      (∀ n ∈ pythiaFields.map Prod.snd, (d n).isSome) ∧
      (∀ n ∈ traceFields.map Prod.snd, (d n).isSome) := by
    have hk : modelKeys = dataFields.map Prod.snd ++ prelimFields.map Prod.snd ++
        siftedFields.map Prod.snd ++ pilotFields.map Prod.snd ++ cloisterFields.map Prod.snd ++
        pythiaFields.map Prod.snd ++ traceFields.map Prod.snd ++ featSelFields.map Prod.snd := rfl
    rw [hk]
    simp only [List.forall_mem_append]
    tauto
  rw [hall]
  simp only [← readPart_ok_iff]
  unfold modelOf
  constructor
  · rintro ⟨m, h⟩
    simp only [bind, Except.bind, pure, Except.pure] at h
    repeat' split at h
    all_goals first
      | cases h; done
      | exact ⟨⟨_, by assumption⟩, ⟨_, by assumption⟩, ⟨_, by assumption⟩, ⟨_, by assumption⟩,
          ⟨_, by assumption⟩, ⟨_, by assumption⟩, ⟨_, by assumption⟩, ⟨_, by assumption⟩⟩
  · rintro ⟨⟨_, h1⟩, ⟨_, h2⟩, ⟨_, h3⟩, ⟨_, h4⟩, ⟨_, h5⟩, ⟨_, h6⟩, ⟨_, h7⟩, ⟨_, h8⟩⟩
    rw [h1, h2, h3, h4, h5, h6, h7, h8]
    exact ⟨_, rfl⟩

/-- A dictionary with everything but `instlabels`: the Model is made. -/
example : ∃ m, modelOf (fun n => if n = .instlabels then none else some 0) () = .ok m :=
  (C25_needed _ _).2 (by decide +kernel)

/-- Non-vacuity for C131: the counting stages return tuples and their run succeeds; the Model's PILOT part
holds the values of execution 3. -/
example : ReturnsTuple countingRun ∧
    ((contents (runAll (runner defaultStages defaultSchedule countingRun) State.init
      someArgs)).toOption.bind fun d => (modelOf d ()).toOption.map fun m =>
        (m.cloister, m.trace)) =
      some ([("z_edge", 5), ("z_ecorr", 5)],
        [("space", 6), ("good", 6), ("best", 6), ("hard", 6), ("summary", 6)]) := by
  refine ⟨?_, by decide +kernel⟩
  intro k s vs out hk
  cases hk
  simp

/-! ### C132: the stages receive the user's metadata and options -/

section
variable {V W X E : Type}

/-- The value of a field of an options group according to the contents of the options file: given under
its name or alias in any case, or the default. -/
def FileValue (lower : String → String) (asDict : W → Option (Options.Dict W)) (lit : Lit → W)
    (contents : Options.Dict W) (gname field : String) (v : W) : Prop :=
  ∃ g, (gname, g) ∈ groups lit ∧ ∃ data,
    ((∃ w, (gname, w) ∈ contents ∧ asDict w = some data) ∨
      ((∀ w, (gname, w) ∉ contents) ∧ data = [])) ∧
    ((∃ k, (k, v) ∈ data ∧ Denotes lower g k field) ∨
      ((field, v) ∈ g.fields ∧ ∀ p ∈ data, ¬ Denotes lower g p.1 field))

theorem find_forall₂ {A B : Type} {R : String × A → String × B → Prop} {l : List (String × A)}
    {l' : List (String × B)} (h : List.Forall₂ (fun p q => p.1 = q.1 ∧ R p q) l l')
    (hnd : (l.map Prod.fst).Nodup) {p : String × A} (hp : p ∈ l) :
    ∃ q, l'.find? (fun q => q.1 == p.1) = some q ∧ R p q := by
  induction h with
  | nil => cases hp
  | @cons a b l l' hab _ ih =>
    rw [List.map_cons, List.nodup_cons] at hnd
    rcases List.mem_cons.1 hp with rfl | hp
    · refine ⟨b, ?_, hab.2⟩
      rw [List.find?_cons_of_pos]
      rw [hab.1]; simp
    · obtain ⟨q, h1, h2⟩ := ih hnd.2 hp
      refine ⟨q, ?_, h2⟩
      rw [List.find?_cons_of_neg, h1]
      intro he
      rw [beq_iff_eq] at he
      exact hnd.1 (List.mem_map.2 ⟨p, hp, by rw [← he, hab.1]⟩)

/-- A loaded group as it reaches the stages. -/
theorem group_values (lower : String → String) (hlow : LowerOK lower) (lit : Lit → W)
    (asDict : W → Option (Options.Dict W)) (contents : Options.Dict W)
    (hc : (contents.map Prod.fst).Nodup) (o : List (String × Options.Dict W))
    (h : fromDict lower asDict (groups lit) contents = .ok o) (gname : String)
    (g : Options.Group W) (hg : (gname, g) ∈ groups lit) :
    (group o gname).map Prod.fst = g.names ∧
    ∀ f v, (f, v) ∈ group o gname → FileValue lower asDict lit contents gname f v := by
  obtain ⟨q, h1, data, hdata, hl⟩ := find_forall₂
    (Options.C50_from_dict lower hlow lit asDict contents hc o h)
    (Options.groups_names_nodup lit) hg
  have hq : group o gname = q.2 := by
    unfold group
    rw [h1]
    rfl
  rw [hq]
  refine ⟨hl.fields, fun f v hf => ⟨g, hg, data, hdata, ?_⟩⟩
  have hfn : f ∈ g.names := by
    rw [← hl.fields]
    exact List.mem_map_of_mem hf
  have hnd : (q.2.map Prod.fst).Nodup := by
    rw [hl.fields]
    exact (Options.groups_wf lit _ hg).names
  by_cases hk : ∃ p ∈ data, Denotes lower g p.1 f
  · obtain ⟨⟨k, w⟩, hp, hd⟩ := hk
    have := Options.key_unique hnd hf (hl.given k w f hp hd hfn)
    subst this
    exact .inl ⟨k, hp, hd⟩
  · have hno : ∀ p ∈ data, ¬ Denotes lower g p.1 f := fun p hp hd => hk ⟨p, hp, hd⟩
    obtain ⟨⟨f', w⟩, hw, rfl⟩ := List.mem_map.1 hfn
    have := Options.key_unique hnd hf (hl.default _ w hw hno)
    subst this
    exact .inr ⟨hw, hno⟩

/-- The value found under a field of a loaded group. -/
theorem group_get (lower : String → String) (hlow : LowerOK lower) (lit : Lit → W)
    (asDict : W → Option (Options.Dict W)) (contents : Options.Dict W)
    (hc : (contents.map Prod.fst).Nodup) (o : List (String × Options.Dict W))
    (h : fromDict lower asDict (groups lit) contents = .ok o) (gname : String)
    (g : Options.Group W) (hg : (gname, g) ∈ groups lit) (f : String) (hf : f ∈ g.names) :
    ∃ v, Options.get (group o gname) f = some v ∧
      FileValue lower asDict lit contents gname f v := by
  obtain ⟨h1, h2⟩ := group_values lower hlow lit asDict contents hc o h gname g hg
  have hnd : ((group o gname).map Prod.fst).Nodup := by
    rw [h1]
    exact (Options.groups_wf lit _ hg).names
  rw [← h1] at hf
  obtain ⟨⟨f', v⟩, hv, rfl⟩ := List.mem_map.1 hf
  exact ⟨v, (Options.get_eq_some hnd).2 hv, h2 _ v hv⟩

/-- What every stage finds among its inputs for a name no stage writes. -/
theorem inputs_kept (order : List Stg) (horder : order.Perm defaultStages)
    (π : Builder.SetOrder Stg) (sched : List (List Stg)) (hs : buildDefault order π = .ok sched)
    (run : Nat → Stg → List X → Except E (List (Name × X))) (hrun : ReturnsTuple run)
    (ops : List (Op Stg Name X)) (args : Dict Name X) (ev : Event Stg Name X E)
    (hev : ev ∈ executions order sched run ops args) (i : Nat) (n : Name) (t : Ty)
    (hi : (inputs ev.stage)[i]? = some (n, t))
    (hn : ∀ s ∈ defaultStages, n ∉ (outputs s).map Prod.fst) : ev.inputs[i]? = args n := by
  obtain ⟨hB, ht⟩ := builderOf_tables order horder
  have hP : (runner order sched run).Proper := built_proper hB hs run
  obtain ⟨-, g2, -⟩ := runFrom_apply hP (exec_inv hP.once ops) args sched [] (by simp [pipelineOf])
  have hev' : ev ∈ applyEvents (runner order sched run)
      (exec (runner order sched run) ops).st.calls.length sched.flatten args := by
    unfold executions at hev
    simp only at hev
    change ev ∈ List.drop _ (runFrom _ _ args sched.flatten).2.calls at hev
    rwa [g2, List.drop_left] at hev
  obtain ⟨d₁, h1, h2⟩ := applyEvents_inputs hev'
  have h3 := h2 n fun s _ => tuple_writes hrun (hn s (by cases s <;> decide))
  rw [← h3]
  have hf : (runner order sched run).fields ev.stage = (inputs ev.stage).map Prod.fst := by
    change ((builderOf order).ins ev.stage).map Prod.fst = _
    rw [(ht ev.stage).1]
  rw [hf] at h1
  have := congrArg (fun l => l[i]?) h1
  simp only [List.getElem?_map, hi, Option.map_some] at this
  cases hx : ev.inputs[i]? with
  | none => rw [hx] at this; cases this
  | some v =>
    rw [hx] at this
    simp only [Option.map_some, Option.some.injEq] at this
    exact this

/-- **C132, metadata.** In every run of the default pipeline, on any history, preprocessing receives the
names, labels, sources and tables of the metadata. -/
theorem C132_metadata (order : List Stg) (horder : order.Perm defaultStages)
    (π : Builder.SetOrder Stg) (sched : List (List Stg)) (hs : buildDefault order π = .ok sched)
    (run : Nat → Stg → List X → Except E (List (Name × X))) (hrun : ReturnsTuple run)
    (ops : List (Op Stg Name X)) (emb : Given V W → X) (m : Meta V)
    (o : List (String × Options.Dict W)) (ev : Event Stg Name X E)
    (hev : ev ∈ executions order sched run ops fun n => (spaceInputs m o n).map emb)
    (hst : ev.stage = .preprocessing) :
    ev.inputs.take 6 = [emb (.names m.featureNames), emb (.names m.algorithmNames),
      emb (.column m.labels), emb (.sources m.sources), emb (.table m.features),
      emb (.table m.algorithms)] := by
  have key := fun i n t => inputs_kept order horder π sched hs run hrun ops _ ev hev i n t
  rw [hst] at key
  have k0 := key 0 _ _ rfl (by decide +kernel)
  have k1 := key 1 _ _ rfl (by decide +kernel)
  have k2 := key 2 _ _ rfl (by decide +kernel)
  have k3 := key 3 _ _ rfl (by decide +kernel)
  have k4 := key 4 _ _ rfl (by decide +kernel)
  have k5 := key 5 _ _ rfl (by decide +kernel)
  simp only [spaceInputs, Option.map_some] at k0 k1 k2 k3 k4 k5
  apply List.ext_getElem?
  intro i
  rw [List.getElem?_take]
  rcases i with _ | _ | _ | _ | _ | _ | i
  · simpa using k0
  · simpa using k1
  · simpa using k2
  · simpa using k3
  · simpa using k4
  · simpa using k5
  · rw [if_neg (by omega)]
    simp

/-- **C132, options.** In every run of the default pipeline with options loaded from a dictionary, on any
history, every stage with an options input receives a group that has the fields of that group, each with
the value given in the file under its name or alias in any case, or else the default. -/
theorem C132_options (order : List Stg) (horder : order.Perm defaultStages)
    (π : Builder.SetOrder Stg) (sched : List (List Stg)) (hs : buildDefault order π = .ok sched)
    (run : Nat → Stg → List X → Except E (List (Name × X))) (hrun : ReturnsTuple run)
    (ops : List (Op Stg Name X)) (emb : Given V W → X) (m : Meta V)
    (lower : String → String) (hlow : LowerOK lower) (lit : Lit → W)
    (asDict : W → Option (Options.Dict W)) (contents : Options.Dict W)
    (hc : (contents.map Prod.fst).Nodup) (o : List (String × Options.Dict W))
    (ho : fromDict lower asDict (groups lit) contents = .ok o) (ev : Event Stg Name X E)
    (hev : ev ∈ executions order sched run ops fun n => (spaceInputs m o n).map emb)
    (i : Nat) (n : Name) (t : Ty) (hi : (inputs ev.stage)[i]? = some (n, t)) (gname : String)
    (hn : (n, gname) ∈ [(Name.parallel_options, "parallel"), (.selvars_options, "selvars"),
      (.sifted_options, "sifted"), (.pilot_options, "pilot"), (.cloister_options, "cloister"),
      (.pythia_options, "pythia"), (.trace_options, "trace")]) :
    ∃ fields g, ev.inputs[i]? = some (emb (.options fields)) ∧ (gname, g) ∈ groups lit ∧
      fields.map Prod.fst = g.names ∧
      ∀ f v, (f, v) ∈ fields → FileValue lower asDict lit contents gname f v := by
  have key := inputs_kept order horder π sched hs run hrun ops _ ev hev i n t hi
  have hg : ∃ g, (gname, g) ∈ groups lit := by
    simp only [List.mem_cons, Prod.mk.injEq, List.not_mem_nil, or_false] at hn
    have : gname ∈ (groups lit).map Prod.fst := by
      have hgs : (groups lit).map Prod.fst = litGroups.map Prod.fst := by
        unfold groups
        rw [List.map_map]
        rfl
      rw [hgs]
      rcases hn with h | h | h | h | h | h | h <;> rw [h.2] <;> decide
    obtain ⟨⟨a, g⟩, hg, rfl⟩ := List.mem_map.1 this
    exact ⟨g, hg⟩
  obtain ⟨g, hg⟩ := hg
  obtain ⟨h1, h2⟩ := group_values lower hlow lit asDict contents hc o ho gname g hg
  refine ⟨group o gname, g, ?_, hg, h1, h2⟩
  simp only [List.mem_cons, Prod.mk.injEq, List.not_mem_nil, or_false] at hn
  rcases hn with ⟨rfl, rfl⟩ | ⟨rfl, rfl⟩ | ⟨rfl, rfl⟩ | ⟨rfl, rfl⟩ | ⟨rfl, rfl⟩ | ⟨rfl, rfl⟩ | ⟨rfl, rfl⟩ <;>
    exact key (by decide +kernel)

/-- **C132, options of PRELIM.** PRELIM receives six options; they are those of the groups `perf`, `bound`
and `norm` of the file. -/
theorem C132_prelim (order : List Stg) (horder : order.Perm defaultStages)
    (π : Builder.SetOrder Stg) (sched : List (List Stg)) (hs : buildDefault order π = .ok sched)
    (run : Nat → Stg → List X → Except E (List (Name × X))) (hrun : ReturnsTuple run)
    (ops : List (Op Stg Name X)) (emb : Given V W → X) (m : Meta V)
    (lower : String → String) (hlow : LowerOK lower) (lit : Lit → W)
    (asDict : W → Option (Options.Dict W)) (contents : Options.Dict W)
    (hc : (contents.map Prod.fst).Nodup) (o : List (String × Options.Dict W))
    (ho : fromDict lower asDict (groups lit) contents = .ok o) (ev : Event Stg Name X E)
    (hev : ev ∈ executions order sched run ops fun n => (spaceInputs m o n).map emb)
    (hst : ev.stage = .prelim) :
    ∃ v1 v2 v3 v4 v5 v6, ev.inputs[6]? = some (emb (.options
      [("max_perf", v1), ("abs_perf", v2), ("epsilon", v3), ("beta_threshold", v4), ("bound", v5),
        ("norm", v6)])) ∧
      FileValue lower asDict lit contents "perf" "max_perf" v1 ∧
      FileValue lower asDict lit contents "perf" "abs_perf" v2 ∧
      FileValue lower asDict lit contents "perf" "epsilon" v3 ∧
      FileValue lower asDict lit contents "perf" "beta_threshold" v4 ∧
      FileValue lower asDict lit contents "bound" "flag" v5 ∧
      FileValue lower asDict lit contents "norm" "flag" v6 := by
  have key := inputs_kept order horder π sched hs run hrun ops _ ev hev 6
  rw [hst] at key
  have k6 := key _ _ rfl (by decide +kernel)
  have hp : ("perf", Options.Group.embed lit Options.perfGroup) ∈ groups lit := by
    simp [groups, litGroups]
  have hb : ("bound", Options.Group.embed lit Options.boundGroup) ∈ groups lit := by
    simp [groups, litGroups]
  have hnm : ("norm", Options.Group.embed lit Options.normGroup) ∈ groups lit := by
    simp [groups, litGroups]
  have get := group_get lower hlow lit asDict contents hc o ho
  obtain ⟨v1, e1, f1⟩ := get _ _ hp "max_perf" (by rw [Options.embed_names]; decide)
  obtain ⟨v2, e2, f2⟩ := get _ _ hp "abs_perf" (by rw [Options.embed_names]; decide)
  obtain ⟨v3, e3, f3⟩ := get _ _ hp "epsilon" (by rw [Options.embed_names]; decide)
  obtain ⟨v4, e4, f4⟩ := get _ _ hp "beta_threshold" (by rw [Options.embed_names]; decide)
  obtain ⟨v5, e5, f5⟩ := get _ _ hb "flag" (by rw [Options.embed_names]; decide)
  obtain ⟨v6, e6, f6⟩ := get _ _ hnm "flag" (by rw [Options.embed_names]; decide)
  refine ⟨v1, v2, v3, v4, v5, v6, ?_, f1, f2, f3, f4, f5, f6⟩
  rw [k6]
  simp only [spaceInputs, prelimOptions, List.filterMap_cons, List.filterMap_nil, e1, e2, e3, e4, e5,
    e6, Option.map_some]

end

/-- Stages that return, for every field, a constant. -/
def constRun : Nat → Stg → List (Given Nat Options.Py) →
    Except Unit (List (Name × Given Nat Options.Py)) :=
  fun _ s _ => .ok ((outputs s).map fun a => (a.1, .names []))

/-- Non-vacuity for C132: an options file that turns off bounding and gives a threshold under an alias; the
second execution is PRELIM and receives both. -/
example : ReturnsTuple constRun ∧
    ∃ o, fromDict Options.lowerAscii Options.Py.asDict (groups Options.Py.lit)
      [("bound", .dict [("Flag", .lit (.bool false))]),
        ("perf", .dict [("EPSILON", .lit (.dec 1 1))])] = .ok o ∧
      Options.get (prelimOptions o) "bound" = some (Options.Py.lit (.bool false)) ∧
      Options.get (prelimOptions o) "epsilon" = some (Options.Py.lit (.dec 1 1)) ∧
      ((executions defaultStages defaultSchedule constRun [] fun n =>
        spaceInputs ⟨[], [], .series [], none, [], []⟩ o n).map (·.stage)) =
        [.preprocessing, .prelim, .sifted, .pilot, .pythia, .cloister, .trace] := by
  refine ⟨?_, _, rfl, rfl, rfl, ?_⟩
  · intro k s vs out hk
    cases hk
    simp
  · decide +kernel

end Verif.Pipeline
