import Verif.Wiring.Stages
import Verif.Wiring.Lemmas
import Verif.Wiring.Spec
import Mathlib.Tactic.FinCases
/-!
# Values keep their names on the way through the stages
-/
set_option autoImplicit false
set_option linter.unusedSectionVars false

namespace Verif.Wiring

variable {V : Type} {I : String → List (Option V) → Option V}

/-- Python's rule for calls: an accepted call of a function with distinct parameters gives the `i`-th
parameter the `i`-th positional argument and each keyword argument to the parameter of its name, leaves
out none without a default, and gives nothing to anything else. -/
theorem C143_calls (s : Sig) (a : Args) (f : Frame V) (hs : s.params.Nodup)
    (b : List (String × Option V)) (h : call I s a f = some b) :
    (∀ (i : Nat) (q : String) (e : Expr), s.params[i]? = some q → a.pos[i]? = some e →
      start b q = e.eval I f) ∧
    (∀ q e, (q, e) ∈ a.kw → start b q = e.eval I f) ∧
    (∀ q ∈ s.params, q ∉ s.optional → ∃ v, (q, v) ∈ b) ∧
    (∀ q v, (q, v) ∈ b → q ∈ s.params) := by
  unfold call at h
  cases hb : bindArgs s a with
  | none => rw [hb] at h; simp at h
  | some c =>
    rw [hb] at h
    simp only [Option.map_some, Option.some.injEq] at h
    subst h
    unfold bindArgs at hb
    simp only at hb
    split at hb
    · rename_i hc
      obtain ⟨hl, hn, hk, ha⟩ := hc
      simp only [Option.some.injEq] at hb
      subst hb
      refine ⟨?_, ?_, ?_, ?_⟩
      · intro i q e hq he
        exact start_positional hs hq he
      · intro q e he
        exact start_keyword hn (fun k hm => (hk k hm).2) he
      · intro q hq ho
        rcases ha q hq with h | h | h
        · obtain ⟨i, hi, hiq⟩ := List.getElem_of_mem h
          rw [List.length_take] at hi
          have h1 : i < s.params.length := by omega
          have h2 : i < a.pos.length := by omega
          rw [List.getElem_take] at hiq
          refine ⟨(a.pos[i]).eval I f, ?_⟩
          simp only [valuesOf, List.mem_map, List.mem_append]
          refine ⟨(q, a.pos[i]), Or.inl ?_, rfl⟩
          rw [List.mem_iff_getElem]
          refine ⟨i, by simp [h1, h2], ?_⟩
          simp [hiq]
        · obtain ⟨⟨k, e⟩, hm, hke⟩ := List.mem_map.1 h
          simp only at hke
          subst hke
          refine ⟨e.eval I f, ?_⟩
          simp only [valuesOf, List.mem_map, List.mem_append]
          exact ⟨(k, e), Or.inr hm, rfl⟩
        · exact absurd h ho
      · intro q v hv
        simp only [valuesOf, List.mem_map, List.mem_append] at hv
        obtain ⟨⟨k, e⟩, hm, hke⟩ := hv
        simp only [Prod.mk.injEq] at hke
        obtain ⟨rfl, -⟩ := hke
        rcases hm with hm | hm
        · exact (List.of_mem_zip hm).1
        · exact (hk k (List.mem_map_of_mem (f := Prod.fst) hm)).1
    · simp at hb

/-- C143, Preprocessing: features, performances and names of features and algorithms go into the selection
of columns; what comes out of it goes with the sources and the labels into the removal of rows; every
field of the output is what its name says, the raw tables being the tables themselves. -/
theorem C143_preprocessing (select remove : Frame V → Frame V) (inputs : Frame V) :
    let S := select (frameOf [("x", inputs "inputs.features"), ("y", inputs "inputs.algorithms"),
      ("feat_labels", inputs "inputs.feature_names"), ("algo_labels", inputs "inputs.algorithm_names"),
      ("selvars", inputs "inputs.selvars_options")])
    let R := remove (frameOf [("x", S "new_x"), ("y", S "new_y"), ("s", inputs "inputs.instance_sources"),
      ("feat_labels", S "new_feat_labels"), ("inst_labels", inputs "inputs.instance_labels")])
    ∃ out, runPreprocessing I select remove inputs = some out ∧
      Renamed out R [("inst_labels", "new_inst_labels"), ("feat_labels", "new_feat_labels"),
        ("x", "new_x"), ("y", "new_y"), ("s", "new_s"), ("x_raw", "new_x"), ("y_raw", "new_y")] ∧
      out "algo_labels" = S "new_algo_labels" := by
  intro S R
  refine ⟨_, rfl, ?_, rfl⟩
  intro p hp
  fin_cases hp <;> rfl

/-- C143, the instance filter: PRELIM gives it its tables and options, `do_filter` gives those on to
`filter_instance`, and the features with the resulting flags to `compute_uniformity`; the three flags and
the uniformity are returned in this order. -/
theorem C143_filter (filter uniformity : Frame V → Frame V) (f : Frame V) :
    let F := filter (frameOf [("x", f "x"), ("y", f "y"), ("y_bin", f "y_bin"),
      ("selvars_type", I "selvars_opts.selvars_type" [f "selvars_opts"]),
      ("min_distance", I "selvars_opts.min_distance" [f "selvars_opts"])])
    let U := uniformity (frameOf [("x", f "x"), ("subset_index", F "subset_index")])
    ∃ b l, call I doFilterSig doFilterCall f = some b ∧ doFilter I filter uniformity b = some l ∧
      doFilterReturns.map (·.eval I l) = [F "subset_index", F "is_dissimilar", F "is_visa",
        I "float(1 - np.std(nearest, ddof=1) / np.mean(nearest))" [U "nearest"]] :=
  ⟨_, _, rfl, rfl, rfl⟩

/-- C143, PRELIM: the dense data set keeps every table under its name. -/
theorem C143_dense (f : Frame V) :
    ∃ b, call I denseFields denseCall f = some b ∧ Same (start b) f ["x", "y", "x_raw", "y_raw", "y_bin",
      "y_best", "p", "num_good_algos", "beta", "s", "inst_labels"] := by
  refine ⟨_, rfl, ?_⟩
  intro p hp; fin_cases hp <;> rfl

/-- C143, SIFTED with the density filter: the filter is given the selected features and the dense tables,
and every dense table is cut with the same flags (but see C104: the first cut fails). -/
theorem C143_sifted_density (body : Frame V → Frame V) (inputs : Frame V) :
    ∃ l out, siftedLocals I inputs = some l ∧ runSifted I .density body inputs = some out ∧
      (let d := inputs "inputs.data_dense"
       let k := body l "subset_index"
       out "x" = I "data_dense.x[subset_index][:selvars]" [d, k, body l "selvars"] ∧
       out "y" = I "data_dense.y[subset_index][:]" [d, k] ∧
       out "y_bin" = I "data_dense.y_bin[subset_index][:]" [d, k] ∧
       out "x_raw" = I "data_dense.x_raw[subset_index][:]" [d, k] ∧
       out "y_raw" = I "data_dense.y_raw[subset_index][:]" [d, k] ∧
       out "beta" = I "data_dense.beta[subset_index]" [d, k] ∧
       out "num_good_algos" = I "data_dense.num_good_algos[subset_index]" [d, k] ∧
       out "y_best" = I "data_dense.y_best[subset_index][:]" [d, k] ∧
       out "p" = I "data_dense.p[subset_index]" [d, k] ∧
       out "inst_labels" = I "data_dense.inst_labels[subset_index]" [d, k]) ∧
      Same out (body l) ["s", "selvars", "idx", "rho", "pval", "silhouette_scores", "clust"] := by
  refine ⟨_, _, rfl, rfl, ⟨rfl, rfl, rfl, rfl, rfl, rfl, rfl, rfl, rfl, rfl⟩, ?_⟩
  intro p hp; fin_cases hp <;> rfl

/-- C143, SIFTED with the density filter: the filter is given the selected columns of the dense features,
the dense performances and verdicts, the kind of selection and the distance; the flags it is used for are
those of the filtered instances, and no other variable changes. -/
theorem C143_sifted_filter (filter uniformity : Frame V → Frame V) (f : Frame V) :
    let F := filter (frameOf [("x", I "data_dense.x[:, selvars]" [f "data_dense", f "selvars"]),
      ("y", I "data_dense.y" [f "data_dense"]), ("y_bin", I "data_dense.y_bin" [f "data_dense"]),
      ("selvars_type", I "opts_selvars.selvars_type" [f "opts_selvars"]),
      ("min_distance", I "opts_selvars.min_distance" [f "opts_selvars"])])
    ∃ b l g, call I doFilterSig doFilterCallSifted f = some b ∧ doFilter I filter uniformity b = some l ∧
      unpack I doFilterTargetsSifted doFilterReturns l f = some g ∧
      g "subset_index" = F "subset_index" ∧ ∀ q, q ≠ "subset_index" → q ≠ "_" → g q = f q := by
  refine ⟨_, _, _, rfl, rfl, rfl, rfl, ?_⟩
  intro q h1 h2
  simp [doFilterTargetsSifted, doFilterReturns, List.lookup, beq_eq_false_iff_ne.2 h1, beq_eq_false_iff_ne.2 h2]

/-- C143, PRELIM: the scaling function works on the inputs of the same names, both as arguments and as
attributes; the filter gets from it what it computed and from the inputs the labels, the raw tables and
the sources; the output takes the scaling quantities from the former and the data from the latter. -/
theorem C143_prelim (prelim filter : Frame V → Frame V) (inputs : Frame V) :
    let P := prelim (frameOf [("x", inputs "inputs.x"), ("y", inputs "inputs.y"),
      ("prelim_opts", inputs "inputs.prelim_options"), ("self.x", inputs "inputs.x"),
      ("self.y", inputs "inputs.y"), ("self.prelim_opts", inputs "inputs.prelim_options"),
      ("self.selvars_opts", inputs "inputs.selvars_options"), ("self.x_raw", inputs "inputs.x_raw"),
      ("self.y_raw", inputs "inputs.y_raw"), ("self.s", inputs "inputs.s"),
      ("self.inst_labels", inputs "inputs.inst_labels")])
    let F := filter (frameOf [("inst_labels", inputs "inputs.inst_labels"), ("x", P "x"), ("y", P "y"),
      ("y_bin", P "y_bin"), ("y_best", P "y_best"), ("x_raw", inputs "inputs.x_raw"),
      ("y_raw", inputs "inputs.y_raw"), ("p", P "p"), ("num_good_algos", P "num_good_algos"),
      ("beta", P "beta"), ("s", inputs "inputs.s"), ("selvars_opts", inputs "inputs.selvars_options"),
      ("self.x", P "x"), ("self.y", P "y"), ("self.prelim_opts", inputs "inputs.prelim_options"),
      ("self.selvars_opts", inputs "inputs.selvars_options"), ("self.x_raw", inputs "inputs.x_raw"),
      ("self.y_raw", inputs "inputs.y_raw"), ("self.s", inputs "inputs.s"),
      ("self.inst_labels", inputs "inputs.inst_labels")])
    ∃ out, runPrelim I prelim filter inputs = some out ∧
      Same out P ["med_val", "iq_range", "hi_bound", "lo_bound", "min_x", "lambda_x", "mu_x",
        "sigma_x", "min_y", "lambda_y", "sigma_y", "mu_y"] ∧
      Same out F ["x", "y", "x_raw", "y_raw", "y_bin", "y_best", "p", "num_good_algos",
        "beta", "data_dense", "s"] ∧
      out "instlabels" = F "inst_labels" := by
  intro P F
  refine ⟨_, rfl, ?_, ?_, rfl⟩
  · intro p hp; fin_cases hp <;> rfl
  · intro p hp; fin_cases hp <;> rfl

/-- The variables SIFTED works with: all of them are the inputs of the same names; only the feature labels
become an array and two option groups lose their suffix. -/
theorem C143_sifted_given (inputs : Frame V) :
    ∃ l, siftedLocals I inputs = some l ∧
      Renamed l inputs [("x", "inputs.x"), ("y", "inputs.y"), ("y_bin", "inputs.y_bin"),
        ("x_raw", "inputs.x_raw"), ("y_raw", "inputs.y_raw"), ("beta", "inputs.beta"),
        ("num_good_algos", "inputs.num_good_algos"), ("y_best", "inputs.y_best"), ("p", "inputs.p"),
        ("inst_labels", "inputs.inst_labels"), ("s", "inputs.s"), ("opts", "inputs.sifted_options"),
        ("opts_selvars", "inputs.selvars_options"), ("data_dense", "inputs.data_dense"),
        ("self.x", "inputs.x"), ("self.y", "inputs.y"), ("self.y_bin", "inputs.y_bin"),
        ("self.opts", "inputs.sifted_options"), ("self.parallel_options", "inputs.parallel_options")] ∧
      l "feat_labels" = I "np.array(feat_labels)" [inputs "inputs.feat_labels"] := by
  refine ⟨_, rfl, ?_, rfl⟩
  intro p hp; fin_cases hp <;> rfl

/-- C143, SIFTED: wherever it returns without the density filter, everything but the selected features and
their labels is handed on as it came in. -/
theorem C143_sifted (e : SiftedExit) (he : e ≠ .density) (body : Frame V → Frame V) (inputs : Frame V) :
    ∃ out, runSifted I e body inputs = some out ∧
      Renamed out inputs [("y", "inputs.y"), ("y_bin", "inputs.y_bin"), ("x_raw", "inputs.x_raw"),
        ("y_raw", "inputs.y_raw"), ("beta", "inputs.beta"), ("num_good_algos", "inputs.num_good_algos"),
        ("y_best", "inputs.y_best"), ("p", "inputs.p"), ("inst_labels", "inputs.inst_labels"),
        ("s", "inputs.s")] := by
  cases e <;> first | exact absurd rfl he | skip
  all_goals
    refine ⟨_, rfl, ?_⟩
    intro p hp; fin_cases hp <;> rfl

/-- C143, SIFTED: what it selects is reported under its own name, and the labels are read with the selected
positions from the labels that came in. -/
theorem C143_sifted_selected (body : Frame V → Frame V) (inputs : Frame V) :
    ∃ l, siftedLocals I inputs = some l ∧
      (∃ out, runSifted I .fewFeatures body inputs = some out ∧
        out "x" = inputs "inputs.x" ∧ Same out (body l) ["selvars", "idx"] ∧
        out "feat_labels" =
          I "list(feat_labels)" [I "np.array(feat_labels)" [inputs "inputs.feat_labels"]]) ∧
      (∀ e ∈ [SiftedExit.fewCorrelated, .fewClusters, .search],
        ∃ out, runSifted I e body inputs = some out ∧
          out "x" = body l "x_aux" ∧ Same out (body l) ["selvars", "idx", "rho", "pval"] ∧
          out "feat_labels" = I "[feat_labels[i] for i in selvars]"
            [I "np.array(feat_labels)" [inputs "inputs.feat_labels"], body l "selvars"]) ∧
      ∃ out, runSifted I .search body inputs = some out ∧
        Same out (body l) ["silhouette_scores", "clust"] := by
  refine ⟨_, rfl, ⟨_, rfl, rfl, ?_, rfl⟩, ?_, _, rfl, ?_⟩
  · intro p hp; fin_cases hp <;> rfl
  · intro e he
    fin_cases he
    all_goals
      refine ⟨_, rfl, rfl, ?_, rfl⟩
      intro p hp; fin_cases hp <;> rfl
  · intro p hp; fin_cases hp <;> rfl

/-- C143, PILOT: it works on the inputs of the same names, and every field of its output is the local
variable of its meaning, whether or not there are starting points. -/
theorem C143_pilot (given : Bool) (body : Frame V → Frame V) (inputs : Frame V) :
    let L := body (frameOf [("x", inputs "inputs.x"), ("y", inputs "inputs.y"),
      ("feat_labels", inputs "inputs.feat_labels"), ("options", inputs "inputs.pilot_options")])
    ∃ out, runPilot I given body inputs = some out ∧
      Renamed out L [("X0", if given then "x_init" else "x0"), ("alpha", "alpha"), ("eoptim", "eoptim"),
        ("perf", "perf"), ("a", "out_a"), ("z", "out_z"), ("c", "out_c"), ("b", "out_b"),
        ("error", "error"), ("r2", "r2"), ("pilot_summary", "summary")] := by
  intro L
  cases given
  all_goals
    refine ⟨_, rfl, ?_⟩
    intro p hp; fin_cases hp <;> rfl

/-- C143, PILOT: the two solvers are called with their parameters in order, and their results are assigned
in the order in which they are returned. -/
theorem C143_solvers (f : Frame V) :
    (∃ b, call I analyticSig analyticCall f = some b ∧ Same (start b) f ["x", "x_bar", "n", "m"]) ∧
    (∃ b, call I numericalSig numericalCall f = some b ∧
      Same (start b) f ["x", "hd", "x0", "x_bar", "n", "m", "alpha", "eoptim", "perf", "_do_output"] ∧
      start b "opts" = f "options") ∧
    (∀ callee, ∃ g, unpack I analyticTargets analyticReturns callee f = some g ∧
      Renamed g callee [("out_a", "a"), ("out_z", "z"), ("out_c", "c"), ("out_b", "b"), ("error", "err"),
        ("r2", "corref")]) ∧
    (∀ callee, ∃ g, unpack I numericalTargets numericalReturns callee f = some g ∧
      Renamed g callee [("idx", "idx"), ("alpha", "al"), ("eoptim", "ept"), ("perf", "prf")]) := by
  refine ⟨⟨_, rfl, ?_⟩, ⟨_, rfl, ?_, rfl⟩, fun callee => ⟨_, rfl, ?_⟩, fun callee => ⟨_, rfl, ?_⟩⟩
  all_goals intro p hp; fin_cases hp <;> rfl

/-- C143, PYTHIA: it works on the inputs of the same names, with the raw performances as `y`, and every
field of its output is the local variable of its meaning. -/
theorem C143_pythia (body : Frame V → Frame V) (inputs : Frame V) :
    let L := body (frameOf [("z", inputs "inputs.z"), ("y", inputs "inputs.y_raw"),
      ("y_bin", inputs "inputs.y_bin"), ("y_best", inputs "inputs.y_best"),
      ("algo_labels", inputs "inputs.algo_labels"), ("opts", inputs "inputs.pythia_options"),
      ("parallel_options", inputs "inputs.parallel_options")])
    ∃ out, runPythia I body inputs = some out ∧
      Same out L ["mu", "sigma", "w", "cp", "svm", "cvcmat", "y_sub", "y_hat", "box_consnt", "k_scale",
        "selection0", "selection1"] ∧
      Renamed out L [("pr0_sub", "pr0sub"), ("pr0_hat", "pr0hat"), ("accuracy", "accuracy_record"),
        ("precision", "precision_record"), ("recall", "recall_record"), ("pythia_summary", "summary")] := by
  intro L
  refine ⟨_, rfl, ?_, ?_⟩
  all_goals intro p hp; fin_cases hp <;> rfl

/-- C143, PYTHIA: the performances, the labels and the options that came in are those of every step, and
the training and the selection are called with each value under its own name. -/
theorem C143_pythia_steps (body : Frame V → Frame V) (inputs : Frame V) :
    ∃ l, pythiaLocals I body inputs = some l ∧
      Renamed l inputs [("y", "inputs.y_raw"), ("y_bin", "inputs.y_bin"), ("y_best", "inputs.y_best"),
        ("algo_labels", "inputs.algo_labels"), ("opts", "inputs.pythia_options"),
        ("parallel_options", "inputs.parallel_options")] ∧
      (∃ b, call I fitSig fitCall l = some b ∧
        Same (start b) l ["z", "param_space", "parallel_options"] ∧
        start b "y_bin" = I "y_bin[:, i]" [inputs "inputs.y_bin", l "i"] ∧
        start b "w" = I "w[:, i].flatten()" [l "w", l "i"] ∧ start b "skf" = l "cp" ∧
        start b "is_poly_kernel" = I "opts.is_poly_krnl" [inputs "inputs.pythia_options"] ∧
        start b "use_grid_search" = I "opts.use_grid_search" [inputs "inputs.pythia_options"]) ∧
      (∃ b, call I selectionsSig selectionsCall l = some b ∧
        Same (start b) l ["nalgos", "y_hat", "y_bin"] ∧ start b "precision" = l "precision_record") ∧
      ∀ callee, ∃ g, unpack I selectionsTargets selectionsReturns callee l = some g ∧
        Same g callee ["selection0", "selection1"] := by
  refine ⟨_, rfl, ?_, ⟨_, rfl, ?_, rfl, rfl, rfl, rfl, rfl⟩, ⟨_, rfl, ?_, rfl⟩, fun callee => ⟨_, rfl, ?_⟩⟩
  all_goals intro p hp; fin_cases hp <;> rfl

/-- C143, PYTHIA: the summary gets every value under its own name, but for the two in
`C143_refuted`. -/
theorem C143_summary_partial (f : Frame V) :
    ∃ b, call I summarySig summaryCall f = some b ∧
      Same (start b) f ["nalgos", "algo_labels", "y", "y_hat", "y_bin", "y_best", "selection0",
        "selection1", "box_consnt", "k_scale"] ∧
      start b "recall" = f "recall_record" := by
  refine ⟨_, rfl, ?_, rfl⟩
  intro p hp; fin_cases hp <;> rfl

/-- The function that writes the summary gets the accuracies under the name of the precisions, and the
other way round. -/
theorem C143_summary_swapped (f : Frame V) :
    ∃ b, call I summarySig summaryCall f = some b ∧
      start b "precision" = f "accuracy_record" ∧ start b "accuracy" = f "precision_record" :=
  ⟨_, rfl, rfl, rfl⟩

/-- C143 is false of the call that makes PYTHIA's summary: the precisions do not arrive under their
name. -/
theorem C143_refuted : ¬ ∀ (f : Frame String) (b : List (String × Option String)),
    call (fun _ _ => none) summarySig summaryCall f = some b →
      start b "precision" = f "precision_record" := by
  intro h
  have h' := h some _ rfl
  revert h'
  decide +kernel

/-- C143, CLOISTER: features, projection and options arrive as such, and so do the two boundaries. -/
theorem C143_cloister (body : Frame V → Frame V) (inputs : Frame V) :
    let L := body (frameOf [("x", inputs "inputs.x"), ("a", inputs "inputs.a"),
      ("options", inputs "inputs.cloister_options")])
    ∃ out, runCloister I body inputs = some out ∧ Same out L ["z_edge", "z_ecorr"] := by
  intro L
  refine ⟨_, rfl, ?_⟩
  intro p hp; fin_cases hp <;> rfl

/-- C143, TRACE: the coordinates, `beta`, labels and options arrive as such; the footprints are made from
PYTHIA's predictions and selection if asked for, and from the measured goodness and best algorithm
otherwise; every field of the output is the local variable of its meaning. -/
theorem C143_trace (useSim : Bool) (body : Frame V → Frame V) (inputs : Frame V) :
    let L := body (frameOf [("self.z", inputs "inputs.z"),
      ("self.y_bin", inputs (if useSim then "inputs.y_hat" else "inputs.y_bin")),
      ("self.p", inputs (if useSim then "inputs.selection0" else "inputs.p")),
      ("self.beta", inputs "inputs.beta"), ("self.algo_labels", inputs "inputs.algo_labels"),
      ("self.opts", inputs "inputs.trace_options"), ("self.parallel_opts", inputs "inputs.parallel_options")])
    ∃ out, runTrace I useSim body inputs = some out ∧
      Same out L ["space", "good", "best", "hard"] ∧ out "trace_summary" = L "final_df" := by
  intro L
  cases useSim
  all_goals
    refine ⟨_, rfl, ?_, rfl⟩
    intro p hp; fin_cases hp <;> rfl

/-- C143, PRELIM: counting good algorithms is called with its parameters in order. -/
theorem C143_best (f callee : Frame V) :
    (∃ b, call I bestSig bestCall f = some b ∧
      Same (start b) f ["y_raw", "y_best", "y_bin", "nalgos", "p"] ∧
      start b "beta_threshold" = I "prelim_opts.beta_threshold" [f "prelim_opts"]) ∧
    ∃ g, unpack I bestTargets bestReturns callee f = some g ∧
      Same g callee ["num_good_algos", "p", "beta"] := by
  refine ⟨⟨_, rfl, ?_, rfl⟩, _, rfl, ?_⟩
  all_goals intro p hp; fin_cases hp <;> rfl

/-! Concrete runs: every variable holds a text that tells where it comes from. -/

/-- What PRELIM puts into the fields `y_best`, `mu_x` and `instlabels`. -/
example : (runPrelim (fun _ _ => none) (fun f n => if n = "y_best" then f "self.y" else some ("scaled " ++ n))
      (fun f n => if n = "y_best" then f n else (f n).map ("kept " ++ ·)) some).map
      (fun out => (out "y_best", out "mu_x", out "instlabels")) =
    some (some "inputs.y", some "scaled mu_x", some "kept inputs.inst_labels") := by decide +kernel

/-- What TRACE calls the best algorithm, with and without PYTHIA. -/
example : (runTrace (fun _ _ => none) true (fun f _ => f "self.p") some).map (· "best") =
      some (some "inputs.selection0") ∧
    (runTrace (fun _ _ => none) false (fun f _ => f "self.p") some).map (· "best") =
      some (some "inputs.p") := by decide +kernel

/-- A parameter given twice and a parameter not given are rejected. -/
example : bindArgs ⟨["x", "y"], []⟩ ⟨[.var "a", .var "b"], [("y", .var "c")]⟩ = none ∧
    bindArgs ⟨["x", "y"], []⟩ ⟨[.var "a"], []⟩ = none ∧
    bindArgs ⟨["x", "y"], ["y"]⟩ ⟨[.var "a"], []⟩ = some [("x", .var "a")] := by decide +kernel

end Verif.Wiring
