{
 "claims": [
  {
   "property": "C01",
   "status": "proved",
   "theorems": [
    "Verif.Builder.C01_schedule_valid"
   ],
   "note": ""
  },
  {
   "property": "C02",
   "status": "proved",
   "theorems": [
    "Verif.Builder.C02_order_irrelevant"
   ],
   "note": ""
  },
  {
   "property": "C03",
   "status": "proved",
   "theorems": [
    "Verif.Builder.C03_complete"
   ],
   "note": ""
  },
  {
   "property": "C04",
   "status": "proved",
   "theorems": [
    "Verif.Builder.C04_no_conflict"
   ],
   "note": ""
  },
  {
   "property": "C05",
   "status": "partial",
   "theorems": [
    "Verif.Builder.C05_refuted",
    "Verif.Builder.C05_partial"
   ],
   "note": "False of the code: a reader overtakes a mutating stage that waits for another input. The true part covers mutating stages that are ready."
  },
  {
   "property": "C06",
   "status": "partial",
   "theorems": [
    "Verif.Builder.C06_refuted",
    "Verif.Builder.C06_partial",
    "Verif.Builder.C06_resolver_complete_partial"
   ],
   "note": "False of the code: no pipeline with RunBefore/RunAfter can be built. The true part is about the resolver alone, were the markers recognised."
  },
  {
   "property": "C07",
   "status": "proved",
   "theorems": [
    "Verif.Builder.C07_output_required"
   ],
   "note": ""
  },
  {
   "property": "C08",
   "status": "partial",
   "theorems": [
    "Verif.Builder.C08_refuted",
    "Verif.Builder.C08_partial"
   ],
   "note": "False for set objects (the caller's set is mutated); true for NamedTuple classes."
  },
  {
   "property": "C09",
   "status": "proved",
   "theorems": [
    "Verif.Builder.C09_call",
    "Verif.Builder.C09_histories"
   ],
   "note": ""
  },
  {
   "property": "C10",
   "status": "proved",
   "theorems": [
    "Verif.Pipeline.C10_default_schedule"
   ],
   "note": ""
  },
  {
   "property": "C11",
   "status": "partial",
   "theorems": [
    "Verif.Pipeline.C11_default",
    "Verif.Pipeline.C11_default_types",
    "Verif.Runner.C11_never_missing",
    "Verif.Runner.C11_types_refuted",
    "Verif.Runner.C11_types_partial"
   ],
   "note": "Presence proved in full; typing false when a name has two types, proved when types are unique."
  },
  {
   "property": "C12",
   "status": "proved",
   "theorems": [
    "Verif.Runner.C12_run_all",
    "Verif.Runner.C12_fresh"
   ],
   "note": ""
  },
  {
   "property": "C13",
   "status": "proved",
   "theorems": [
    "Verif.Runner.C13_prerequisites",
    "Verif.Runner.C13_refused"
   ],
   "note": ""
  },
  {
   "property": "C14",
   "status": "partial",
   "theorems": [
    "Verif.Runner.C14_refuted",
    "Verif.Runner.C14_partial",
    "Verif.Runner.C14_rerun_sees_current_partial"
   ],
   "note": "False of the code: all snapshots are one dict object. True parts: inputs that nothing overwrites later; exact inputs of a re-run."
  },
  {
   "property": "C15",
   "status": "partial",
   "theorems": [
    "Verif.Runner.C15_refuted",
    "Verif.Runner.C15_partial"
   ],
   "note": "False of the code for every pipeline: the stop stage is never run. Exact result proved."
  },
  {
   "property": "C16",
   "status": "proved",
   "theorems": [
    "Verif.Runner.C16_run_iter",
    "Verif.Runner.C16_unique",
    "Verif.Runner.C16_history"
   ],
   "note": ""
  },
  {
   "property": "C17",
   "status": "proved",
   "theorems": [
    "Verif.Runner.C17_failure_harmless",
    "Verif.Runner.C17_recovers"
   ],
   "note": ""
  },
  {
   "property": "C18",
   "status": "partial",
   "theorems": [
    "Verif.Pipeline.C18_default",
    "Verif.Runner.C18_refuted",
    "Verif.Runner.C18_partial"
   ],
   "note": "False of the code: an overwriting stage may share an element with a reader. Proved without such overlap."
  },
  {
   "property": "C19",
   "status": "proved",
   "theorems": [
    "Verif.Isolation.C19_isolation",
    "Verif.Isolation.C19_always",
    "Verif.Isolation.C19_faithful_copy"
   ],
   "note": ""
  },
  {
   "property": "C20",
   "status": "partial",
   "theorems": [
    "Verif.Runner.C20_refuted",
    "Verif.Runner.C20_partial"
   ],
   "note": "False of the code: the returned dict is live. Proved once a new run has been started."
  },
  {
   "property": "C21",
   "status": "proved",
   "theorems": [
    "Verif.Runner.C21_kwargs_local"
   ],
   "note": ""
  },
  {
   "property": "C22",
   "status": "partial",
   "theorems": [
    "Verif.InstanceSpace.C22_refuted",
    "Verif.InstanceSpace.C22_partial",
    "Verif.InstanceSpace.C22_available_partial"
   ],
   "note": "False of the code: running all stages through run_iter does not make the model available. Exact condition proved: StageRunningError iff no build finished running all stages."
  },
  {
   "property": "C23",
   "status": "partial",
   "theorems": [
    "Verif.InstanceSpace.C23_refuted",
    "Verif.InstanceSpace.C23_partial",
    "Verif.InstanceSpace.C23_deterministic_partial"
   ],
   "note": "False of the code: the model is cached. Proved for the first build and for stages that do not change between calls."
  },
  {
   "property": "C24",
   "status": "partial",
   "theorems": [
    "Verif.InstanceSpace.C24_refuted",
    "Verif.InstanceSpace.C24_never_refuted",
    "Verif.InstanceSpace.C24_partial"
   ],
   "note": "False of the code for every plugin: build always raises. True part: keyword arguments of run_stage reach the stage."
  },
  {
   "property": "C25",
   "status": "proved",
   "theorems": [
    "Verif.Pipeline.C25_model_keys",
    "Verif.Pipeline.C25_needed"
   ],
   "note": ""
  },
  {
   "property": "C26",
   "status": "partial",
   "theorems": [
    "Verif.Pipeline.C26_refuted",
    "Verif.Pipeline.C26_partial",
    "Verif.Pipeline.C26_exact_partial",
    "Verif.Pipeline.C26_other_values_partial"
   ],
   "note": "False of the code with a subset of instances: labels are those of all instances. Proved without subsetting; exact effect and alignment of everything else proved with it."
  },
  {
   "property": "C27",
   "status": "partial",
   "theorems": [
    "Verif.Preprocessing.C27_refuted",
    "Verif.Preprocessing.C27_partial",
    "Verif.Preprocessing.C27_keep_all_partial",
    "Verif.Preprocessing.C27_labels_partial",
    "Verif.Preprocessing.C27_run_partial"
   ],
   "note": "False with repeated labels: feat_labels.index returns the first column for every repetition (C27_refuted). Proved for distinct labels; keep-all and label lists proved without that hypothesis."
  },
  {
   "property": "C28",
   "status": "proved",
   "theorems": [
    "Verif.Preprocessing.C28_rows_aligned"
   ],
   "note": "Arrays fit together by hypothesis (same number of instances). Includes the ZeroDivisionError when no instance is left."
  },
  {
   "property": "C29",
   "status": "proved",
   "theorems": [
    "Verif.Preprocessing.C29_columns"
   ],
   "note": "The mean is compared with 0.20 in exact arithmetic."
  },
  {
   "property": "C30",
   "status": "partial",
   "theorems": [
    "Verif.Preprocessing.C30_refuted",
    "Verif.Preprocessing.C30_partial"
   ],
   "note": "False: a dropped feature may have been the only one an instance had (C30_refuted). Performance values always survive; feature values survive when no feature is dropped."
  },
  {
   "property": "C31",
   "status": "proved",
   "theorems": [
    "Verif.Filter.C31_removed_covered",
    "Verif.Filter.C31_call",
    "Verif.Filter.C31_apGood"
   ],
   "note": "All tests on pairs are parameters; C31_apGood instantiates them with Euclidean distances over the reals."
  },
  {
   "property": "C32",
   "status": "proved",
   "theorems": [
    "Verif.Filter.C32_kept_apart",
    "Verif.Filter.C32_ftr_apart"
   ],
   "note": "C32_ftr_apart is the Euclidean case over the reals."
  },
  {
   "property": "C33",
   "status": "proved",
   "theorems": [
    "Verif.Filter.C33_flags"
   ],
   "note": ""
  },
  {
   "property": "C34",
   "status": "proved",
   "theorems": [
    "Verif.Filter.C34_idempotent"
   ],
   "note": ""
  },
  {
   "property": "C35",
   "status": "proved",
   "theorems": [
    "Verif.Prelim.C35_absolute"
   ],
   "note": ""
  },
  {
   "property": "C36",
   "status": "partial",
   "theorems": [
    "Verif.Prelim.C36_refuted",
    "Verif.Prelim.C36_partial",
    "Verif.Prelim.C36_negative_partial"
   ],
   "note": "False for non-positive best values when maximising (C36_refuted, C36_negative_partial: with a negative best everything is good). C36_partial: positive best."
  },
  {
   "property": "C37",
   "status": "partial",
   "theorems": [
    "Verif.Prelim.C37_refuted",
    "Verif.Prelim.C37_partial"
   ],
   "note": "False: best 0 when maximising (C37_refuted). C37_partial is an exact characterisation for 0 <= epsilon < 1."
  },
  {
   "property": "C38",
   "status": "partial",
   "theorems": [
    "Verif.Prelim.C38_refuted",
    "Verif.Prelim.C38_partial"
   ],
   "note": "False: relative, minimising, best 0 and two later values equal to the machine epsilon (C38_refuted). C38_partial covers everything else."
  },
  {
   "property": "C39",
   "status": "proved",
   "theorems": [
    "Verif.Prelim.C39_counts",
    "Verif.Prelim.C39_rows"
   ],
   "note": ""
  },
  {
   "property": "C40",
   "status": "proved",
   "theorems": [
    "Verif.Prelim.C40_monotone"
   ],
   "note": ""
  },
  {
   "property": "C41",
   "status": "proved",
   "theorems": [
    "Verif.Prelim.C41_clamp",
    "Verif.Prelim.C41_bounds",
    "Verif.Prelim.C41_stage"
   ],
   "note": "Median and quartiles are computed in the model as in the code (C41_bounds says they are medians and quartiles); C41_clamp is the property."
  },
  {
   "property": "C42",
   "status": "partial",
   "theorems": [
    "Verif.Prelim.C42_x_wiped_partial",
    "Verif.Prelim.C42_y_wiped_partial",
    "Verif.Prelim.C42_refuted",
    "Verif.Prelim.C42_partial"
   ],
   "note": "False: NaN propagates through np.min (C42_refuted). Exact effect for features and performances, and finite columns."
  },
  {
   "property": "C43",
   "status": "proved",
   "theorems": [
    "Verif.Prelim.C43_one_selection"
   ],
   "note": ""
  },
  {
   "property": "C44",
   "status": "proved",
   "theorems": [
    "Verif.Prelim.C44_fraction",
    "Verif.Prelim.C44_density",
    "Verif.Prelim.C44_all",
    "Verif.Prelim.C44_dense"
   ],
   "note": "data_dense needs the density flag and options of the declared types. The index-file case is C45."
  },
  {
   "property": "C45",
   "status": "partial",
   "theorems": [
    "Verif.Prelim.C45_exact_partial",
    "Verif.Prelim.C45_partial",
    "Verif.Prelim.C45_refuted"
   ],
   "note": "False: the last instance cannot be listed and 0 selects the last instance (C45_refuted). C45_exact_partial characterises every file."
  },
  {
   "property": "C46",
   "status": "partial",
   "theorems": [
    "Verif.Prelim.C46_refuted",
    "Verif.Prelim.C46_partial"
   ],
   "note": "False under the aliasing produced by preprocessing (C46_refuted); C46_partial is an exact iff."
  },
  {
   "property": "C47",
   "status": "proved",
   "theorems": [
    "Verif.Metadata.C47_columns",
    "Verif.Metadata.C47_disjoint"
   ],
   "note": "Python's str.lower is a parameter. Cells are opaque."
  },
  {
   "property": "C48",
   "status": "partial",
   "theorems": [
    "Verif.Metadata.C48_refuted",
    "Verif.Metadata.C48_exact_partial",
    "Verif.Metadata.C48_partial"
   ],
   "note": "False for one-row tables (C48_refuted); C48_exact_partial is an iff."
  },
  {
   "property": "C49",
   "status": "proved",
   "theorems": [
    "Verif.Options.C49_group",
    "Verif.Options.C49_from_dict"
   ],
   "note": "For the twelve actual groups (tables transcribed with defaults); keys of any dictionary. The placeholder '_' counts as a field name for the no-repetition rule."
  },
  {
   "property": "C50",
   "status": "proved",
   "theorems": [
    "Verif.Options.C50_values",
    "Verif.Options.C50_from_dict",
    "Verif.Options.C50_documented"
   ],
   "note": "Loaded is the independent specification; str.lower only needs to fix the field names. C50_documented states the same against a separately written table of options, spellings and defaults."
  },
  {
   "property": "C51",
   "status": "proved",
   "theorems": [
    "Verif.Options.C51_order_and_case"
   ],
   "note": "SameEntries: permutation followed by a change of letter case."
  },
  {
   "property": "C52",
   "status": "proved",
   "theorems": [
    "Verif.Options.C52_roundtrip",
    "Verif.Options.C52_empty",
    "Verif.Options.C52_documented",
    "Verif.Options.C52_given"
   ],
   "note": "The dictionary of dictionaries is what dataclasses.asdict gives."
  },
  {
   "property": "C53",
   "status": "partial",
   "theorems": [
    "Verif.Options.C53_refuted",
    "Verif.Options.C53_partial"
   ],
   "note": "False (C53_refuted: AttributeError escapes). C53_partial is an exact iff over all outcomes of reading."
  },
  {
   "property": "C54",
   "status": "proved",
   "theorems": [
    "Verif.Cloister.C54_rows",
    "Verif.Cloister.C54_every_corner",
    "Verif.Cloister.C54_distinct"
   ],
   "note": "Exact arithmetic over any ordered field, at least one instance and one feature. 'Exactly once' is about choices of sides; corners of a constant feature coincide as points (C54_distinct assumes none is constant)."
  },
  {
   "property": "C55",
   "status": "proved",
   "theorems": [
    "Verif.Cloister.C55_discarded",
    "Verif.Cloister.C55_kept"
   ],
   "note": "C55_discarded is about the correlation matrix the loop sees; C55_kept is about unordered pairs and uses that pearsonr is symmetric."
  },
  {
   "property": "C56",
   "status": "proved",
   "theorems": [
    "Verif.Cloister.C56_encloses"
   ],
   "note": "scipy's ConvexHull is a parameter; assumed: when it succeeds, its vertices have the same convex hull as the points. Exact arithmetic over any ordered field."
  },
  {
   "property": "C57",
   "status": "proved",
   "theorems": [
    "Verif.Cloister.C57_diagonal",
    "Verif.Cloister.C57_significant",
    "Verif.Cloister.C57_fallback"
   ],
   "note": "pearsonr is a parameter. C57_fallback characterises both outcomes of the correlated hull."
  },
  {
   "property": "C58",
   "status": "proved",
   "theorems": [
    "Verif.Dbscan.C58_clustered",
    "Verif.Dbscan.C58_same_label",
    "Verif.Dbscan.C58_no_gaps",
    "Verif.Dbscan.C58_real"
   ],
   "note": "The loop with its early marks and duplicate queue entries is modelled; distances enter through a symmetric and reflexive relation (C58_real instantiates it with Euclidean distances of real points and a radius that is not negative)."
  },
  {
   "property": "C59",
   "status": "proved",
   "theorems": [
    "Verif.Trace.C59_from_polygon",
    "Verif.Trace.C59_missing",
    "Verif.Trace.C59_build"
   ],
   "note": "Geometry is abstract; assumed: areas are not negative, and a geometry of area 0 contains no point."
  },
  {
   "property": "C60",
   "status": "proved",
   "theorems": [
    "Verif.Trace.C60_order",
    "Verif.Trace.C60_raises"
   ],
   "note": "The completion order is an arbitrary permutation; the computation for one algorithm is a function of its number."
  },
  {
   "property": "C61",
   "status": "partial",
   "theorems": [
    "Verif.Trace.C61_exact_partial",
    "Verif.Trace.C61_refuted",
    "Verif.Trace.C61_first_missing_partial",
    "Verif.Trace.C61_sim_refuted",
    "Verif.Trace.C61_sim_partial"
   ],
   "note": "False with UseSim off: PRELIM numbers algorithms from 1, TRACE from 0, so each best footprint is built from the instances of the algorithm before it and the first one is always missing. False with UseSim on: instances without recommendation count for the first algorithm; exact for the others (C61_sim_partial)."
  },
  {
   "property": "C62",
   "status": "partial",
   "theorems": [
    "Verif.Trace.C62_refuted",
    "Verif.Trace.C62_exact_partial"
   ],
   "note": "False: tight never returns a polygon, so contra raises whenever the overlap contains more instances of one algorithm than of the other and otherwise changes nothing (C62_exact_partial)."
  },
  {
   "property": "C63",
   "status": "partial",
   "theorems": [
    "Verif.Trace.C63_present",
    "Verif.Trace.C63_refuted",
    "Verif.Trace.C63_partial"
   ],
   "note": "No NaN is ever reported (C63_present), but an undefined ratio is reported as the measure itself instead of 0 (C63_refuted, C63_partial is exact)."
  },
  {
   "property": "C64",
   "status": "proved",
   "theorems": [
    "Verif.Pythia.C64_recommended",
    "Verif.Pythia.C64_fallback"
   ],
   "note": "scikit-learn's predictions are a parameter. Stated for completed runs, which have at least two algorithms (C97)."
  },
  {
   "property": "C65",
   "status": "partial",
   "theorems": [
    "Verif.Pythia.C65_refuted",
    "Verif.Pythia.C65_partial"
   ],
   "note": "False: 0 stands for the first algorithm and for none. C65_partial is exact."
  },
  {
   "property": "C66",
   "status": "partial",
   "theorems": [
    "Verif.Pythia.C66_refuted",
    "Verif.Pythia.C66_partial"
   ],
   "note": "False: pythia passes the accuracies where _generate_summary expects the precisions. C66_partial says what every column shows."
  },
  {
   "property": "C67",
   "status": "partial",
   "theorems": [
    "Verif.Pythia.C67_refuted",
    "Verif.Pythia.C67_partial",
    "Verif.Pythia.C67_measures_partial"
   ],
   "note": "False: selections are counted from 0, the comparison counts from 1. C67_partial is exact for the mean performance and the probability of good, C67_measures_partial for precision and recall."
  },
  {
   "property": "C68",
   "status": "partial",
   "theorems": [
    "Verif.Pythia.C68_refuted",
    "Verif.Pythia.C68_partial"
   ],
   "note": "False: mu and sigma are taken from the normalised data, hence always 0 and 1 (C68_partial, over the reals, columns with variation)."
  },
  {
   "property": "C69",
   "status": "proved",
   "theorems": [
    "Verif.Sifted.C69_aligned"
   ],
   "note": "For every correlation, clustering and search result."
  },
  {
   "property": "C70",
   "status": "partial",
   "theorems": [
    "Verif.Sifted.C70_refuted",
    "Verif.Sifted.C70_negative_refuted",
    "Verif.Sifted.C70_top_partial",
    "Verif.Sifted.C70_exact_partial",
    "Verif.Sifted.C70_significant_partial"
   ],
   "note": "False: the threshold is compared with the signed, unsorted coefficients while the ranking is sorted, so correlated features are dropped and uncorrelated ones kept. Proved: the exact selection, and that each algorithm's most correlated feature is kept (from the data: C70_significant_partial)."
  },
  {
   "property": "C71",
   "status": "partial",
   "theorems": [
    "Verif.Sifted.C71_refuted",
    "Verif.Sifted.C71_features_partial",
    "Verif.Sifted.C71_worst_refuted",
    "Verif.Sifted.C71_worst_partial",
    "Verif.Sifted.C71_cost_partial"
   ],
   "note": "False twice: the cost uses positions among the clustered features as feature indices, and pygad maximises the mean squared error, so the worst compared candidate is returned. Both the exact relation and the maximality are proved, and that the cost is the largest error over the algorithms."
  },
  {
   "property": "C72",
   "status": "partial",
   "theorems": [
    "Verif.Sifted.C72_refuted",
    "Verif.Sifted.C72_exact_partial"
   ],
   "note": "False: IndexError when the best count is one of the last two and not K. Exact characterisation proved."
  },
  {
   "property": "C73",
   "status": "proved",
   "theorems": [
    "Verif.Sifted.C73_one_per_cluster",
    "Verif.Sifted.C73_succeeds"
   ],
   "note": "One feature per cluster, K features; succeeds iff no cluster is empty."
  },
  {
   "property": "C74",
   "status": "partial",
   "theorems": [
    "Verif.Pilot.C74_refuted",
    "Verif.Pilot.C74_partial",
    "Verif.Pilot.C74_no_tries_partial"
   ],
   "note": "False when a try has no defined correlation (NaN wins np.argmax). Proved for defined performances; without tries the mode fails."
  },
  {
   "property": "C75",
   "status": "partial",
   "theorems": [
    "Verif.Pilot.C75_refuted",
    "Verif.Pilot.C75_partial"
   ],
   "note": "False: idx is unbound on that path, for every input."
  },
  {
   "property": "C76",
   "status": "proved",
   "theorems": [
    "Verif.Pilot.C76_analytic",
    "Verif.Pilot.C76_numerical"
   ],
   "note": "Both modes, over any ordered field; the error is stated with the outputs alone (in numerical mode with the coefficients missing from c)."
  },
  {
   "property": "C77",
   "status": "partial",
   "theorems": [
    "Verif.Pilot.C77_refuted",
    "Verif.Pilot.C77_partial"
   ],
   "note": "False in numerical mode (slice starts at n+1)."
  },
  {
   "property": "C78",
   "status": "proved",
   "theorems": [
    "Verif.Pilot.C78_least_squares",
    "Verif.Pilot.C78_directions",
    "Verif.Pilot.C78_succeeds"
   ],
   "note": "Normal equations, least squares, leading eigen-directions under the contract of la.eig and np.argsort, and success for independent features."
  },
  {
   "property": "C79",
   "status": "partial",
   "theorems": [
    "Verif.Pilot.C79_refuted",
    "Verif.Pilot.C79_partial",
    "Verif.Pilot.C79_explained_partial"
   ],
   "note": "False in numerical mode: r2 is the diagonal of a correlation matrix. Exact in analytic mode, and characterised as the variation explained by the best line (C79_explained_partial)."
  },
  {
   "property": "C80",
   "status": "partial",
   "theorems": [
    "Verif.Export.C80_refuted",
    "Verif.Export.C80_polygon_partial",
    "Verif.Export.C80_exteriors_partial"
   ],
   "note": "False because holes are lost (C80_refuted). All exterior rings of polygons and multi-polygons can be restored by a reader."
  },
  {
   "property": "C81",
   "status": "partial",
   "theorems": [
    "Verif.Export.C81_refuted",
    "Verif.Export.C81_columns_partial",
    "Verif.Export.C81_global_partial",
    "Verif.Export.C81_missing_partial",
    "Verif.Export.C81_constant_partial"
   ],
   "note": "Proved for finite data, both scales, including half-to-even rounding. False with a missing value in the column (matrix for the global scale); constant columns are undefined too."
  },
  {
   "property": "C82",
   "status": "partial",
   "theorems": [
    "Verif.Export.C82_refuted",
    "Verif.Export.C82_exact_partial",
    "Verif.Export.C82_partial",
    "Verif.Export.C82_sifted_partial",
    "Verif.Export.C82_boundary_partial",
    "Verif.Export.C82_subset_partial",
    "Verif.Export.C82_directory_partial"
   ],
   "note": "False whenever SIFTED drops a feature (general theorem over SIFTED's model), CLOISTER finds no hull (C82_boundary_partial) or a subset is used. Exact success condition and all files proved otherwise."
  },
  {
   "property": "C83",
   "status": "partial",
   "theorems": [
    "Verif.Export.C83_refuted",
    "Verif.Export.C83_partial",
    "Verif.Export.C83_contents_partial"
   ],
   "note": "False with equal base names in different directories. Proved for distinct names; nothing else is ever in the archive."
  },
  {
   "property": "C84",
   "status": "partial",
   "theorems": [
    "Verif.Runner.C84_refuted",
    "Verif.Runner.C84_partial"
   ],
   "note": "False of the code: flags of the first element survive a restart. Proved for all other elements."
  },
  {
   "property": "C85",
   "status": "proved",
   "theorems": [
    "Verif.Runner.C85_no_internal_error"
   ],
   "note": ""
  },
  {
   "property": "C86",
   "status": "partial",
   "theorems": [
    "Verif.Prelim.C86_refuted",
    "Verif.Prelim.C86_partial"
   ],
   "note": "False (C86_refuted): found while checking an example of C36."
  },
  {
   "property": "C87",
   "status": "partial",
   "theorems": [
    "Verif.Prelim.C87_wiped_partial",
    "Verif.Prelim.C87_refuted",
    "Verif.Prelim.C87_partial"
   ],
   "note": "False (C87_refuted); C87_wiped_partial gives the exact effect."
  },
  {
   "property": "C88",
   "status": "partial",
   "theorems": [
    "Verif.Prelim.C88_refuted",
    "Verif.Prelim.C88_partial",
    "Verif.Prelim.C88_measure_partial"
   ],
   "note": "False (C88_refuted); true with AbsPerf (C88_partial); C88_measure_partial gives the measure returned without normalisation."
  },
  {
   "property": "C89",
   "status": "proved",
   "theorems": [
    "Verif.Prelim.C89_x",
    "Verif.Prelim.C89_y"
   ],
   "note": "Box-Cox itself is a parameter."
  },
  {
   "property": "C90",
   "status": "partial",
   "theorems": [
    "Verif.Metadata.C90_absent",
    "Verif.Metadata.C90_refuted",
    "Verif.Metadata.C90_exact_partial"
   ],
   "note": "False for one-row tables (C90_refuted); C90_exact_partial is an iff."
  },
  {
   "property": "C91",
   "status": "partial",
   "theorems": [
    "Verif.Metadata.C91_refuted",
    "Verif.Metadata.C91_partial"
   ],
   "note": "False for undecodable files (C91_refuted)."
  },
  {
   "property": "C92",
   "status": "proved",
   "theorems": [
    "Verif.Cloister.C92_inside"
   ],
   "note": "Same assumption about ConvexHull as C56."
  },
  {
   "property": "C93",
   "status": "partial",
   "theorems": [
    "Verif.Cloister.C93_refuted",
    "Verif.Cloister.C93_partial"
   ],
   "note": "Refuted by a concrete data set with Pearson coefficient 0.8 and the default threshold 0.7, for every correct hull computation. C93_partial: no pair of features correlates beyond the threshold."
  },
  {
   "property": "C94",
   "status": "proved",
   "theorems": [
    "Verif.Trace.C94_completes"
   ],
   "note": "Abstract geometry with the stated laws."
  },
  {
   "property": "C95",
   "status": "proved",
   "theorems": [
    "Verif.Trace.C95_pure_triangles"
   ],
   "note": "Abstract geometry; assumed: a point in a difference is in the first and not in the second geometry, pieces of a triangulation are convex."
  },
  {
   "property": "C96",
   "status": "proved",
   "theorems": [
    "Verif.Trace.C96_missing"
   ],
   "note": "np.unique is a parameter."
  },
  {
   "property": "C97",
   "status": "partial",
   "theorems": [
    "Verif.Pythia.C97_refuted",
    "Verif.Pythia.C97_partial"
   ],
   "note": "False for one algorithm, whatever the data; exact for two or more."
  },
  {
   "property": "C98",
   "status": "proved",
   "theorems": [
    "Verif.Pythia.C98_outputs",
    "Verif.Pythia.C98_confusion"
   ],
   "note": ""
  },
  {
   "property": "C99",
   "status": "partial",
   "theorems": [
    "Verif.Pythia.C99_refuted",
    "Verif.Pythia.C99_partial"
   ],
   "note": "False: the recorded measures use Yhat; shown for the recall column, the other two are also swapped (C66)."
  },
  {
   "property": "C100",
   "status": "partial",
   "theorems": [
    "Verif.Pythia.C100_positive",
    "Verif.Pythia.C100_refuted",
    "Verif.Pythia.C100_partial",
    "Verif.Pythia.C100_matrix"
   ],
   "note": "Monotonicity false with missing performances; proved for finite ones, together with the exact condition for a ValueError."
  },
  {
   "property": "C101",
   "status": "partial",
   "theorems": [
    "Verif.Pythia.C101_refuted",
    "Verif.Pythia.C101_partial"
   ],
   "note": "False for direct calls; within a runner the stage gets a deep copy (C19)."
  },
  {
   "property": "C102",
   "status": "partial",
   "theorems": [
    "Verif.Pythia.C102_refuted",
    "Verif.Pythia.C102_stage_refuted",
    "Verif.Pythia.C102_partial"
   ],
   "note": "False: scikit-learn and scikit-optimize reject a single number as search space (part of the model of _fitmatsvm)."
  },
  {
   "property": "C103",
   "status": "proved",
   "theorems": [
    "Verif.Pythia.C103_range"
   ],
   "note": "The latin hypercube sample is a parameter with values in [0,1)."
  },
  {
   "property": "C104",
   "status": "partial",
   "theorems": [
    "Verif.Sifted.C104_refuted",
    "Verif.Sifted.C104_partial"
   ],
   "note": "False whenever the clustering step is reached; elsewhere the option has no effect."
  },
  {
   "property": "C105",
   "status": "partial",
   "theorems": [
    "Verif.Sifted.C105_refuted",
    "Verif.Sifted.C105_partial"
   ],
   "note": "False: idx is always range(number of input features)."
  },
  {
   "property": "C106",
   "status": "proved",
   "theorems": [
    "Verif.Sifted.C106_small",
    "Verif.Sifted.C106_count"
   ],
   "note": "Uses the contracts that k-means labels every feature and that the search returns K genes."
  },
  {
   "property": "C107",
   "status": "partial",
   "theorems": [
    "Verif.Pilot.C107_refuted",
    "Verif.Pilot.C107_partial"
   ],
   "note": "False for every rounding with eleven significant bits."
  },
  {
   "property": "C108",
   "status": "partial",
   "theorems": [
    "Verif.Pilot.C108_refuted",
    "Verif.Pilot.C108_partial",
    "Verif.Pilot.C108_orthogonal_partial",
    "Verif.Pilot.C108_floor_partial",
    "Verif.Pilot.C108_twice_partial",
    "Verif.Pilot.C108_linear_partial"
   ],
   "note": "False (concrete data, 20 against 16). Optimal in a for the returned b and c when the directions are orthonormal, which follows for distinct eigenvalues. With orthonormal eigenvectors: within a factor of two of every other a, b and c; globally optimal when the performances are linear in the features; the part of the error no choice can avoid is the sum of all eigenvalues but the two largest."
  },
  {
   "property": "C109",
   "status": "proved",
   "theorems": [
    "Verif.Pilot.C109_summary"
   ],
   "note": ""
  },
  {
   "property": "C110",
   "status": "partial",
   "theorems": [
    "Verif.Export.C110_refuted",
    "Verif.Export.C110_partial",
    "Verif.Export.C110_again_partial"
   ],
   "note": "False for two summaries, renamed in place; everything else unchanged, second export identical."
  },
  {
   "property": "C111",
   "status": "proved",
   "theorems": [
    "Verif.Export.C111_matrices",
    "Verif.Export.C111_raw_features",
    "Verif.Export.C111_columns",
    "Verif.Export.C111_footprints",
    "Verif.Export.C111_points",
    "Verif.Export.C111_summaries"
   ],
   "note": "All 16 files and the footprint files."
  },
  {
   "property": "C112",
   "status": "partial",
   "theorems": [
    "Verif.Export.C112_refuted",
    "Verif.Export.C112_exact_partial",
    "Verif.Export.C112_directory_partial",
    "Verif.Export.C112_sifted_partial",
    "Verif.Export.C112_partial"
   ],
   "note": "False whenever SIFTED drops a feature. Exact condition and contents proved otherwise."
  },
  {
   "property": "C113",
   "status": "partial",
   "theorems": [
    "Verif.Export.C113_features_partial",
    "Verif.Export.C113_individual_refuted",
    "Verif.Export.C113_global_refuted",
    "Verif.Export.C113_individual_partial",
    "Verif.Export.C113_global_partial"
   ],
   "note": "True of the feature plots, false of both performance plots; what the two plots show instead is proved (C113_individual_partial, C113_global_partial: the global values are in [0, 1] iff the least logarithm of all is attained by the algorithm itself)."
  },
  {
   "property": "C114",
   "status": "partial",
   "theorems": [
    "Verif.Export.C114_refuted",
    "Verif.Export.C114_property_refuted",
    "Verif.Export.C114_partial",
    "Verif.Export.C114_predicted_refuted"
   ],
   "note": "False for the last algorithm and for predictions; true for all other algorithms."
  },
  {
   "property": "C115",
   "status": "partial",
   "theorems": [
    "Verif.Export.C115_refuted",
    "Verif.Export.C115_property_refuted",
    "Verif.Export.C115_partial",
    "Verif.Export.C115_drawn_partial"
   ],
   "note": "False for actual performance for every instance, true for predictions."
  },
  {
   "property": "C116",
   "status": "proved",
   "theorems": [
    "Verif.Builder.C116_as_early_as_possible"
   ],
   "note": ""
  },
  {
   "property": "C117",
   "status": "partial",
   "theorems": [
    "Verif.Builder.C117_refuted",
    "Verif.Builder.C117_partial"
   ],
   "note": "false of the code: circular mutations deadlock the resolver and are reported as missing inputs; proved for non-circular mutations"
  },
  {
   "property": "C118",
   "status": "proved",
   "theorems": [
    "Verif.Filter.C118_value",
    "Verif.Filter.C118_at_most_one",
    "Verif.Filter.C118_defined",
    "Verif.Filter.C118_order",
    "Verif.Filter.C118_units"
   ],
   "note": ""
  },
  {
   "property": "C119",
   "status": "proved",
   "theorems": [
    "Verif.Dbscan.C119_expected"
   ],
   "note": ""
  },
  {
   "property": "C120",
   "status": "partial",
   "theorems": [
    "Verif.Dbscan.C120_partial",
    "Verif.Dbscan.C120_flat_partial",
    "Verif.Dbscan.C120_refuted"
   ],
   "note": "False: the radius depends on the bounding box. Proved for shifts, scaling, axis reflections and exchanges."
  },
  {
   "property": "C121",
   "status": "partial",
   "theorems": [
    "Verif.Trace.C121_refuted",
    "Verif.Trace.C121_too_few_partial",
    "Verif.Trace.C121_enough_partial"
   ],
   "note": "False with exactly three distinct instances (or at most nn): the polygon is empty. Both cases are characterised."
  },
  {
   "property": "C122",
   "status": "proved",
   "theorems": [
    "Verif.Prelim.C122_features",
    "Verif.Prelim.C122_performances"
   ],
   "note": ""
  },
  {
   "property": "C123",
   "status": "partial",
   "theorems": [
    "Verif.Prelim.C123_exact_partial",
    "Verif.Prelim.C123_refuted"
   ],
   "note": "False: exactly the constant features become NaN."
  },
  {
   "property": "C124",
   "status": "proved",
   "theorems": [
    "Verif.Trace.C124_cluster",
    "Verif.Trace.C124_union"
   ],
   "note": "The geometry library (alpha shapes, unions, triangulation) is a parameter."
  },
  {
   "property": "C125",
   "status": "proved",
   "theorems": [
    "Verif.Options.C125_undefined",
    "Verif.Options.C125_conflict",
    "Verif.Options.C125_groups"
   ],
   "note": ""
  },
  {
   "property": "C126",
   "status": "partial",
   "theorems": [
    "Verif.InstanceSpace.C126_refuted",
    "Verif.InstanceSpace.C126_success_partial",
    "Verif.InstanceSpace.C126_partial",
    "Verif.InstanceSpace.C126_directory"
   ],
   "note": "False; success, failure and None are characterised exactly. Reading the files is a parameter."
  },
  {
   "property": "C127",
   "status": "partial",
   "theorems": [
    "Verif.Export.C127_refuted",
    "Verif.Export.C127_partial",
    "Verif.Export.C127_loaded_partial"
   ],
   "note": "False for an algorithm named portfolio; proved otherwise."
  },
  {
   "property": "C128",
   "status": "proved",
   "theorems": [
    "Verif.Export.C128_binary",
    "Verif.Export.C128_footprint",
    "Verif.Export.C128_sources",
    "Verif.Export.C128_values"
   ],
   "note": "Colours, sizes and positions on the canvas are not modelled."
  },
  {
   "property": "C129",
   "status": "partial",
   "theorems": [
    "Verif.Export.C129_refuted",
    "Verif.Export.C129_partial"
   ],
   "note": "False: holes are not drawn."
  },
  {
   "property": "C130",
   "status": "partial",
   "theorems": [
    "Verif.Export.C130_refuted",
    "Verif.Export.C130_partial"
   ],
   "note": "False: fixed axes."
  },
  {
   "property": "C131",
   "status": "partial",
   "theorems": [
    "Verif.Pipeline.C131_model",
    "Verif.Pipeline.C131_refuted",
    "Verif.Pipeline.C131_dense_partial"
   ],
   "note": "False of data_dense only."
  },
  {
   "property": "C132",
   "status": "proved",
   "theorems": [
    "Verif.Pipeline.C132_metadata",
    "Verif.Pipeline.C132_options",
    "Verif.Pipeline.C132_prelim"
   ],
   "note": "Values of stages are abstract; option files are dictionaries."
  },
  {
   "property": "C133",
   "status": "partial",
   "theorems": [
    "Verif.Sifted.C133_refuted",
    "Verif.Sifted.C133_partial"
   ],
   "note": "False: insignificant coefficients are overwritten with 0 through an alias. Everything else about the two tables is proved."
  },
  {
   "property": "C134",
   "status": "partial",
   "theorems": [
    "Verif.Sifted.C134_refuted",
    "Verif.Sifted.C134_partial"
   ],
   "note": "False for exactly one common instance; proved to be the only failure."
  },
  {
   "property": "C135",
   "status": "proved",
   "theorems": [
    "Verif.Pilot.C135_space",
    "Verif.Pilot.C135_objective",
    "Verif.Pilot.C135_result"
   ],
   "note": "Layout, objective and result."
  },
  {
   "property": "C136",
   "status": "proved",
   "theorems": [
    "Verif.Pythia.C136_rows",
    "Verif.Pythia.C136_average",
    "Verif.Pythia.C136_good",
    "Verif.Pythia.C136_selected",
    "Verif.Pythia.C136_deviations",
    "Verif.Pythia.C136_parameters"
   ],
   "note": "All descriptive columns; the square root in the deviations is a parameter."
  },
  {
   "property": "C137",
   "status": "proved",
   "theorems": [
    "Verif.Builder.C137_schedule",
    "Verif.Builder.C137_outputs_must_be_new",
    "Verif.Pipeline.C137_default",
    "Verif.Runner.C137_results"
   ],
   "note": "C137_schedule (any pipeline), C137_results (runs, under the conditions of C18), C137_default (the seven stages with any plugin such as example_plugin.py). C137_outputs_must_be_new is a counterexample without the condition."
  },
  {
   "property": "C138",
   "status": "proved",
   "theorems": [
    "Verif.Pipeline.C138_default",
    "Verif.Runner.C138_inputs",
    "Verif.Runner.C138_result"
   ],
   "note": "C138_inputs and C138_result for every runner with a proper schedule; C138_default for the seven stages."
  },
  {
   "property": "C139",
   "status": "partial",
   "theorems": [
    "Verif.Prelim.C139_refuted",
    "Verif.Prelim.C139_absolute",
    "Verif.Prelim.C139_partial"
   ],
   "note": "false at zero and negative best values (witness improves -1 to 0); proved for absolute performances and for positive relative ones"
  },
  {
   "property": "C140",
   "status": "partial",
   "theorems": [
    "Verif.Prelim.C140_refuted",
    "Verif.Prelim.C140_partial",
    "Verif.Prelim.C140_absolute_partial"
   ],
   "note": "false when the best performance is 0 (replaced by the machine epsilon); proved for every other best value, and for absolute performances with converted threshold"
  },
  {
   "property": "C141",
   "status": "proved",
   "theorems": [
    "Verif.Prelim.C141_algorithms"
   ],
   "note": "verdicts, relative performances, best value, counts and beta under any permutation of the algorithms; p for a unique best"
  },
  {
   "property": "C142",
   "status": "proved",
   "theorems": [
    "Verif.Prelim.C142_rows",
    "Verif.Prelim.C142_features",
    "Verif.Prelim.C142_performances"
   ],
   "note": "verdicts for any selection of instances; bounded and normalised columns for any permutation, with Box-Cox/z-score assumed order blind"
  },
  {
   "property": "C143",
   "status": "partial",
   "theorems": [
    "Verif.Wiring.C143_calls",
    "Verif.Wiring.C143_preprocessing",
    "Verif.Wiring.C143_filter",
    "Verif.Wiring.C143_dense",
    "Verif.Wiring.C143_sifted_density",
    "Verif.Wiring.C143_sifted_filter",
    "Verif.Wiring.C143_prelim",
    "Verif.Wiring.C143_sifted_given",
    "Verif.Wiring.C143_sifted",
    "Verif.Wiring.C143_sifted_selected",
    "Verif.Wiring.C143_pilot",
    "Verif.Wiring.C143_solvers",
    "Verif.Wiring.C143_pythia",
    "Verif.Wiring.C143_pythia_steps",
    "Verif.Wiring.C143_summary_partial",
    "Verif.Wiring.C143_summary_swapped",
    "Verif.Wiring.C143_refuted",
    "Verif.Wiring.C143_cloister",
    "Verif.Wiring.C143_trace",
    "Verif.Wiring.C143_best"
   ],
   "note": "False of one call (the summary of PYTHIA gets accuracies and precisions swapped, cf. C66). Proved for all other hand-overs of the seven stages, for all values and all behaviours of the computing functions. Rebinding and in-place updates are read off the syntax; a change made through another name for the same array is not seen here (see C19, C46, C101)."
  },
  {
   "property": "C144",
   "status": "partial",
   "theorems": [
    "Verif.Filter.C144_partial",
    "Verif.Filter.C144_refuted"
   ],
   "note": "Refuted by a four-point configuration; proved for thresholds that at least double (all types, any reordering). Missing: nothing is claimed between d and 2d."
  },
  {
   "property": "C145",
   "status": "partial",
   "theorems": [
    "Verif.Filter.C145_classes_partial",
    "Verif.Filter.C145_duplicates_partial",
    "Verif.Filter.C145_partial",
    "Verif.Filter.C145_refuted"
   ],
   "note": "Refuted by three points in a row; proved when covering is transitive (in particular threshold 0), and within a factor two of the threshold in general."
  },
  {
   "property": "C146",
   "status": "proved",
   "theorems": [
    "Verif.Prelim.C146_bounds",
    "Verif.Prelim.C146_idempotent"
   ],
   "note": "Exact arithmetic; columns with an infinity but no NaN are not modelled."
  },
  {
   "property": "C147",
   "status": "partial",
   "theorems": [
    "Verif.Prelim.C147_exact_partial",
    "Verif.Prelim.C147_partial",
    "Verif.Prelim.C147_two_refuted",
    "Verif.Prelim.C147_refuted"
   ],
   "note": "Refuted (sparse features, two instances); proved exactly when: the interquartile range is not 0."
  },
  {
   "property": "C148",
   "status": "proved",
   "theorems": [
    "Verif.Cloister.C148_shadow",
    "Verif.Cloister.C148_monotone"
   ],
   "note": "Assumes the hull computation returns points with the same hull (HullCorrect)."
  },
  {
   "property": "C149",
   "status": "partial",
   "theorems": [
    "Verif.Cloister.C149_partial",
    "Verif.Cloister.C149_pvalue_partial",
    "Verif.Cloister.C149_refuted",
    "Verif.Cloister.C149_both_partial",
    "Verif.EndToEnd.C149_build_partial"
   ],
   "note": "Refuted through the fallback; proved when the corners left span an area. C149_both_partial and C149_build_partial (whole builds) assume only HullCorrect of the hull computation, and that z_edge was found and z_ecorr is not z_edge with the laxer options; the builds are both complete, with equally many stage calls before."
  },
  {
   "property": "C150",
   "status": "partial",
   "theorems": [
    "Verif.Prelim.C150_refuted",
    "Verif.Prelim.C150_verdicts",
    "Verif.Prelim.C150_partial"
   ],
   "note": "Verdicts, best performance and transformed performances in full; p except for a best performance 0, minimised relatively, with two performances equal to the machine epsilon (concrete counterexample)."
  },
  {
   "property": "C151",
   "status": "proved",
   "theorems": [
    "Verif.Pilot.C151_determined"
   ],
   "note": "Hypotheses: both libraries keep their contracts and the eigenvalues are distinct. r2 compared when both round alike."
  },
  {
   "property": "C152",
   "status": "proved",
   "theorems": [
    "Verif.Pilot.C152_instances"
   ],
   "note": "Both modes, exceptions included. In numerical mode r2 is per instance (see C79) and not compared."
  },
  {
   "property": "C153",
   "status": "partial",
   "theorems": [
    "Verif.Preprocessing.C153_refuted",
    "Verif.Preprocessing.C153_partial",
    "Verif.Preprocessing.C153_settles_partial"
   ],
   "note": "True part: exact condition, and repeated runs settle. The stage is modelled completely (numbers opaque, only isnan)."
  },
  {
   "property": "C154",
   "status": "proved",
   "theorems": [
    "Verif.Preprocessing.C154_instances"
   ],
   "note": "The stage is modelled completely (numbers opaque, only isnan)."
  },
  {
   "property": "C155",
   "status": "proved",
   "theorems": [
    "Verif.Trace.C155_about",
    "Verif.Trace.C155_own_column"
   ],
   "note": "Positions of instances in place of masks; the geometry and DBSCAN are as in C59-C63."
  },
  {
   "property": "C156",
   "status": "proved",
   "theorems": [
    "Verif.Trace.C156_rows",
    "Verif.Trace.C156_labels",
    "Verif.Trace.C156_everywhere"
   ],
   "note": "Areas, densities and purities are rational numbers; printing of the table is not modelled."
  },
  {
   "property": "C157",
   "status": "partial",
   "theorems": [
    "Verif.Pythia.C157_refuted",
    "Verif.Pythia.C157_partial"
   ],
   "note": "The training results are moved with the algorithms; that training itself does not depend on the order (shared random generator) is not part of the model."
  },
  {
   "property": "C158",
   "status": "partial",
   "theorems": [
    "Verif.Sifted.C158_instances_partial",
    "Verif.Sifted.C158_algorithms_partial",
    "Verif.Sifted.C158_refuted"
   ],
   "note": "Pearson's correlation and argsort are parameters."
  },
  {
   "property": "C159",
   "status": "proved",
   "theorems": [
    "Verif.Sifted.C159_threshold"
   ],
   "note": "Selection by correlation only; the clustering afterwards keeps one feature per cluster."
  },
  {
   "property": "C160",
   "status": "proved",
   "theorems": [
    "Verif.Cloister.C160_instances",
    "Verif.Cloister.C160_features"
   ],
   "note": "Pearson's coefficients and qhull are parameters: the coefficients are assumed equal after the reordering (C158 shows when they are) and symmetric, qhull to be correct and to fail exactly on collinear points."
  },
  {
   "property": "C161",
   "status": "partial",
   "theorems": [
    "Verif.Export.C161_titles",
    "Verif.Export.C161_refuted",
    "Verif.Export.C161_partial"
   ],
   "note": "The title is the text handed to suptitle. Refuted for names that differ only in an underscore against a blank; what holds is for names without blanks."
  },
  {
   "property": "C162",
   "status": "partial",
   "theorems": [
    "Verif.EndToEnd.C162_refuted",
    "Verif.EndToEnd.C162_labels_partial",
    "Verif.EndToEnd.C162_names_partial",
    "Verif.EndToEnd.C162_absolute_partial",
    "Verif.EndToEnd.C162_relative_partial",
    "Verif.EndToEnd.C162_best_partial",
    "Verif.EndToEnd.C162_raw_partial",
    "Verif.EndToEnd.C162_features_partial",
    "Verif.EndToEnd.C162_measure_partial",
    "Verif.EndToEnd.C162_counts_partial",
    "Verif.EndToEnd.C162_subset_partial",
    "Verif.EndToEnd.C162_subset_file_partial",
    "Verif.EndToEnd.C162_subset_fraction_partial",
    "Verif.EndToEnd.C162_subset_labels_partial"
   ],
   "note": "The theorems compose the models of from_data_frame, Preprocessing, PRELIM, SIFTED, the builder and the runner and speak about cells of the table only; refuted for subsets of the instances because the labels are not reduced (C26). C162_subset_*: with a subset all other arrays are still about one common sublist of the kept rows, which is the listed one for an index file or a split. One-row tables and repeated column names are excluded."
  },
  {
   "property": "C163",
   "status": "proved",
   "theorems": [
    "Verif.EndToEnd.C163_local"
   ],
   "note": ""
  },
  {
   "property": "C164",
   "status": "partial",
   "theorems": [
    "Verif.Pilot.C164_refuted",
    "Verif.Pilot.C164_numerical_partial",
    "Verif.Pilot.C164_analytic_partial",
    "Verif.Pilot.C164_degenerate_partial"
   ],
   "note": ""
  },
  {
   "property": "C165",
   "status": "partial",
   "theorems": [
    "Verif.EndToEnd.C165_refuted",
    "Verif.EndToEnd.C165_rows_partial"
   ],
   "note": "Missing: subsets of the instances, for which it is false (density filter)."
  },
  {
   "property": "C166",
   "status": "partial",
   "theorems": [
    "Verif.EndToEnd.C166_raw_partial",
    "Verif.EndToEnd.C166_verdicts_partial",
    "Verif.EndToEnd.C166_portfolio_partial",
    "Verif.EndToEnd.C166_counts_partial",
    "Verif.EndToEnd.C166_processed_partial",
    "Verif.EndToEnd.C166_refuted"
   ],
   "note": "Missing: performances 0 in the relative case (refuted), subsets of the instances, normalised performances in algorithm_process.csv, best values 0 or infinite in portfolio.csv as in C162. What the export reads of the last four stages is arbitrary."
  },
  {
   "property": "C167",
   "status": "proved",
   "theorems": [
    "Verif.EndToEnd.C167_projection"
   ],
   "note": ""
  },
  {
   "property": "C168",
   "status": "proved",
   "theorems": [
    "Verif.EndToEnd.C168_boundaries"
   ],
   "note": ""
  },
  {
   "property": "C169",
   "status": "partial",
   "theorems": [
    "Verif.EndToEnd.C169_partial",
    "Verif.EndToEnd.C169_refuted"
   ],
   "note": "Missing: 0 does not tell the first algorithm from no advice, and the numbers are one less than in portfolio.csv (refuted)."
  },
  {
   "property": "C170",
   "status": "partial",
   "theorems": [
    "Verif.EndToEnd.C170_partial",
    "Verif.EndToEnd.C170_parameters",
    "Verif.EndToEnd.C170_refuted"
   ],
   "note": "Missing: accuracy and precision are exchanged (refuted)."
  },
  {
   "property": "C171",
   "status": "partial",
   "theorems": [
    "Verif.EndToEnd.C171_partial",
    "Verif.EndToEnd.C171_refuted"
   ],
   "note": "FALSE for the best footprints from portfolio.csv: the numbers start at 1 and TRACE compares them with positions from 0, so the best footprint of the first algorithm goes to the second one (C171_refuted). Everything else proved (C171_partial)."
  },
  {
   "property": "C172",
   "status": "proved",
   "theorems": [
    "Verif.Double.C172_untouched",
    "Verif.Double.C172_best",
    "Verif.Double.C172_order",
    "Verif.Double.C172_epsilon",
    "Verif.Double.C172_improve",
    "Verif.Double.C172_unit"
   ],
   "note": "binary64 with rounding modelled; sign of zero not"
  },
  {
   "property": "C173",
   "status": "partial",
   "theorems": [
    "Verif.Double.C173_refuted",
    "Verif.Double.C173_partial"
   ],
   "note": "refuted next to the threshold; true if loss and epsilon differ by more than 2^-51"
  },
  {
   "property": "C174",
   "status": "partial",
   "theorems": [
    "Verif.Double.C174_refuted",
    "Verif.Double.C174_partial",
    "Verif.Double.C174_monotone"
   ],
   "note": "refuted next to the threshold; true if share and threshold differ by more than 2^-52"
  },
  {
   "property": "C175",
   "status": "partial",
   "theorems": [
    "Verif.Double.C175_refuted",
    "Verif.Double.C175_clamp_partial",
    "Verif.Double.C175_partial",
    "Verif.Double.C175_error_partial"
   ],
   "note": "refuted by overflow; true for magnitudes up to 2^999"
  },
  {
   "property": "C176",
   "status": "partial",
   "theorems": [
    "Verif.Double.C176_refuted",
    "Verif.Double.C176_partial",
    "Verif.Double.C176_y_partial",
    "Verif.Double.C176_apart_partial",
    "Verif.Double.C176_order_partial"
   ],
   "note": "refuted for tiny differences; order and positivity hold without bound"
  },
  {
   "property": "C177",
   "status": "partial",
   "theorems": [
    "Verif.Double.C177_refuted",
    "Verif.Double.C177_partial"
   ],
   "note": "refuted by overflow; true for magnitudes up to 2^999"
  },
  {
   "property": "C178",
   "status": "proved",
   "theorems": [
    "Verif.Double.C178_features",
    "Verif.Double.C178_repeated",
    "Verif.Double.C178_purity",
    "Verif.Double.C178_preprocessing",
    "Verif.Double.C178_trace"
   ],
   "note": ""
  },
  {
   "property": "C179",
   "status": "proved",
   "theorems": [
    "Verif.Double.C179_selections",
    "Verif.Double.C179_recommended"
   ],
   "note": ""
  },
  {
   "property": "C180",
   "status": "partial",
   "theorems": [
    "Verif.Double.C180_symmetric",
    "Verif.Double.C180_repetitions",
    "Verif.Double.C180_refuted",
    "Verif.Double.C180_removed_partial",
    "Verif.Double.C180_kept_partial",
    "Verif.Double.C180_partial"
   ],
   "note": "refuted by underflow; symmetry and repetitions hold without bound, the other parts for moderate features with a relative error bound"
  },
  {
   "property": "C181",
   "status": "partial",
   "theorems": [
    "Verif.Double.C181_groups",
    "Verif.Double.C181_partial",
    "Verif.Double.C181_converse_partial",
    "Verif.Double.C181_refuted"
   ],
   "note": "refuted exactly (rounding at the radius); groups are proper for all finite coordinates, sandwiched between slightly different radii"
  },
  {
   "property": "C182",
   "status": "partial",
   "theorems": [
    "Verif.Double.C182_order",
    "Verif.Double.C182_error",
    "Verif.Double.C182_twice",
    "Verif.Double.C182_refuted",
    "Verif.Double.C182_percent",
    "Verif.Double.C182_distinct",
    "Verif.Double.C182_table"
   ],
   "note": "refuted for numbers next to a half; order, error, idempotence and distinctness proved"
  },
  {
   "property": "C183",
   "status": "proved",
   "theorems": [
    "Verif.Trace.C183_instances"
   ],
   "note": ""
  },
  {
   "property": "C184",
   "status": "partial",
   "theorems": [
    "Verif.Trace.C184_refuted",
    "Verif.Trace.C184_good_partial",
    "Verif.Trace.C184_sim_partial"
   ],
   "note": "FALSE for experimental data: p counts from one, the analysis from zero (C61), so the last algorithm in the list has no best footprint of its own. Proved: the other footprints (good_partial) and everything for PYTHIA's recommendations (sim_partial)."
  },
  {
   "property": "C185",
   "status": "proved",
   "theorems": [
    "Verif.Export.C185_colours"
   ],
   "note": ""
  },
  {
   "property": "C186",
   "status": "partial",
   "theorems": [
    "Verif.Double.C186_partial",
    "Verif.Double.C186_recomputed_partial",
    "Verif.Double.C186_order_partial",
    "Verif.Double.C186_refuted"
   ],
   "note": "False as stated: where the products cancel no digit is correct. The partial theorems bound the error relative to the sum of the sizes of the products, for any tree of additions and fused multiply-adds."
  },
  {
   "property": "C187",
   "status": "proved",
   "theorems": [
    "Verif.EndToEnd.C187_space"
   ],
   "note": ""
  },
  {
   "property": "C188",
   "status": "partial",
   "theorems": [
    "Verif.Export.C188_rows_partial",
    "Verif.Export.C188_recover_partial",
    "Verif.Export.C188_refuted"
   ],
   "note": "False for labels that end with a space; proved for all others."
  },
  {
   "property": "C189",
   "status": "partial",
   "theorems": [
    "Verif.Pythia.C189_axes_partial",
    "Verif.Pythia.C189_refuted"
   ],
   "note": "missing: rotations (false)"
  },
  {
   "property": "C190",
   "status": "proved",
   "theorems": [
    "Verif.EndToEnd.C190_files"
   ],
   "note": "conditions of C187; PYTHIA's own results only if its predictions agree"
  },
  {
   "property": "C191",
   "status": "partial",
   "theorems": [
    "Verif.EndToEnd.C191_build_partial",
    "Verif.Trace.C191_smaller_partial",
    "Verif.Trace.C191_refuted",
    "Verif.Trace.C191_purity_refuted"
   ],
   "note": "Inclusion of geometries is abstract (laws in the structure Inclusion, including that the smoothing is monotone). Completion with a stricter purity and rising purity are refuted. C191_build_partial is about two whole builds whose options differ only in the purity: it assumes that both complete and that the stages have been called equally often before."
  },
  {
   "property": "C192",
   "status": "partial",
   "theorems": [
    "Verif.EndToEnd.C192_outcome_partial",
    "Verif.EndToEnd.C192_threshold_partial",
    "Verif.EndToEnd.C192_winner_partial",
    "Verif.EndToEnd.C192_refuted",
    "Verif.EndToEnd.C192_clash_refuted"
   ],
   "note": "False of the code (C192_refuted: an algorithm good on every instance stops PYTHIA; C192_clash_refuted: uneven overlap stops TRACE). Proved: on clean data only SIFTED with more than three features, PYTHIA with an untrainable algorithm, or TRACE with a clash can raise; sufficient conditions for completion."
  },
  {
   "property": "C193",
   "status": "proved",
   "theorems": [
    "Verif.EndToEnd.C193_labels",
    "Verif.EndToEnd.C193_other_columns"
   ],
   "note": "Relabelling commutes with every stage; both runs are images of one run on row numbers."
  },
  {
   "property": "C194",
   "status": "partial",
   "theorems": [
    "Verif.Double.C194_partial",
    "Verif.Double.C194_tight_partial",
    "Verif.Double.C194_axis_partial",
    "Verif.Double.C194_refuted"
   ],
   "note": "False to the last bit: rounded corners may cut off an instance. True up to twice the rounding error, and exactly along the axes when all rows are added in the same order. qhull is assumed to find the hull of the rounded points."
  },
  {
   "property": "C195",
   "status": "partial",
   "theorems": [
    "Verif.Pythia.C195_partial",
    "Verif.Pythia.C195_weights_partial",
    "Verif.Pythia.C195_refuted",
    "Verif.Pythia.C195_weights_refuted",
    "Verif.Pythia.C195_added_partial"
   ],
   "note": "False: candidates are drawn from one generator algorithm after algorithm, and weights use the mean over all algorithms. True without weights for an algorithm with the same position in both runs; training is a parameter."
  },
  {
   "property": "C196",
   "status": "partial",
   "theorems": [
    "Verif.EndToEnd.C196_build_partial",
    "Verif.Pilot.C196_partial",
    "Verif.Pilot.C196_given_partial",
    "Verif.Pilot.C196_disjoint_partial",
    "Verif.Pilot.C196_refuted"
   ],
   "note": "False for random starting points: all of them change with n_tries. True for starting points given by the user, or whenever the shorter run's starting points are kept. Optimiser and quality measure are parameters. C196_build_partial is about whole builds with the same given starting points, both complete, with equally many stage calls before."
  },
  {
   "property": "C197",
   "status": "partial",
   "theorems": [
    "Verif.EndToEnd.C197_run_partial",
    "Verif.Prelim.C197_zero_partial",
    "Verif.Prelim.C197_bound_partial",
    "Verif.Prelim.C197_fit_partial",
    "Verif.Prelim.C197_linear_partial",
    "Verif.Prelim.C197_two_partial",
    "Verif.Prelim.C197_refuted"
   ],
   "note": "False for the unit (power taken after adding 1), proved for the zero point through all stages; the unit is proved irrelevant to bounding, for exponent 1 and for features with two values."
  },
  {
   "property": "C198",
   "status": "proved",
   "theorems": [
    "Verif.EndToEnd.C198_run",
    "Verif.Preprocessing.C198_stage"
   ],
   "note": "Proved for the stage and for the whole run."
  },
  {
   "property": "C199",
   "status": "partial",
   "theorems": [
    "Verif.EndToEnd.C199_run_partial",
    "Verif.Preprocessing.C199_partial",
    "Verif.Preprocessing.C199_refuted"
   ],
   "note": "False when an instance has its only values in a removed feature (instances are removed first); proved otherwise."
  },
  {
   "property": "C200",
   "status": "proved",
   "theorems": [
    "Verif.EndToEnd.C200_recomputed"
   ],
   "note": "exact arithmetic; the optimiser, Box-Cox and PILOT's libraries are arbitrary"
  },
  {
   "property": "C201",
   "status": "partial",
   "theorems": [
    "Verif.EndToEnd.C201_partial",
    "Verif.EndToEnd.C201_refuted"
   ],
   "note": "false when SIFTED drops a feature; true through selvars"
  },
  {
   "property": "C202",
   "status": "proved",
   "theorems": [
    "Verif.EndToEnd.C202_rescored"
   ],
   "note": "End-to-end over the runner model with Preprocessing, PRELIM and SIFTED plugged in; the Box-Cox transformation is a parameter (`power`), tied to the transformation used by `FitsBy`. The other stages are arbitrary."
  },
  {
   "property": "C203",
   "status": "partial",
   "theorems": [
    "Verif.EndToEnd.C203_analytic_partial",
    "Verif.EndToEnd.C203_numerical_partial",
    "Verif.EndToEnd.C203_refuted"
   ],
   "note": "End-to-end: what PILOT returns is tracked through the runner (`pilotOut`). Exact arithmetic. The numerical part is for Models without missing performances; with one the error is NaN (C215_error_partial)."
  },
  {
   "property": "C204",
   "status": "proved",
   "theorems": [
    "Verif.EndToEnd.C204_read_from_the_best"
   ],
   "note": "End-to-end; idempotence of the rounding to half precision is a hypothesis. A NaN among the qualities is covered by C74."
  },
  {
   "property": "C205",
   "status": "proved",
   "theorems": [
    "Verif.EndToEnd.C205_correlated"
   ],
   "note": "pearsonr is a parameter; Correlates in SpecGrounds.lean states the claim on the arrays at the end of the run."
  },
  {
   "property": "C206",
   "status": "partial",
   "theorems": [
    "Verif.EndToEnd.C206_partial",
    "Verif.EndToEnd.C206_refuted",
    "Verif.EndToEnd.C206_row_refuted"
   ],
   "note": "False; partial: no feature dropped."
  },
  {
   "property": "C207",
   "status": "partial",
   "theorems": [
    "Verif.EndToEnd.C207_partial",
    "Verif.EndToEnd.C207_rows_partial",
    "Verif.EndToEnd.C207_refuted"
   ],
   "note": "False whenever features are clustered; partial: one selected feature in each cluster, under the contracts of k-means (one label per feature) and pygad (num_genes entries)."
  },
  {
   "property": "C208",
   "status": "partial",
   "theorems": [
    "Verif.EndToEnd.C208_partial",
    "Verif.EndToEnd.C208_refuted",
    "Verif.EndToEnd.C208_models_partial"
   ],
   "note": "The trainings of the support vector machines are arbitrary functions of coordinates, performances and verdicts that return one prediction per instance. Refuted because counts and measures are about different predictions."
  },
  {
   "property": "C209",
   "status": "partial",
   "theorems": [
    "Verif.EndToEnd.C209_partial",
    "Verif.EndToEnd.C209_labels_partial",
    "Verif.EndToEnd.C209_matrix_partial",
    "Verif.EndToEnd.C209_labels_refuted",
    "Verif.EndToEnd.C209_matrix_refuted"
   ],
   "note": "Holds for all arrays but two; both exceptions have concrete witnesses. The trainings return one prediction per instance; PILOT and CLOISTER are modelled on finite data."
  },
  {
   "property": "C210",
   "status": "partial",
   "theorems": [
    "Verif.EndToEnd.C210_partial",
    "Verif.EndToEnd.C210_refuted"
   ],
   "note": "Everything but the best algorithm is proved by name; the best algorithm is refuted with a tie and proved for instances with one best algorithm. Density filter excluded."
  },
  {
   "property": "C211",
   "status": "proved",
   "theorems": [
    "Verif.EndToEnd.C211_unit",
    "Verif.EndToEnd.C211_zero"
   ],
   "note": "Both cases proved for the whole pipeline, exact arithmetic; the classifiers are assumed to see only coordinates and verdicts (no weights)."
  },
  {
   "property": "C212",
   "status": "partial",
   "theorems": [
    "Verif.Pilot.C212_gap_partial",
    "Verif.Pilot.C212_gap_runs_partial",
    "Verif.Pilot.C212_modes_partial",
    "Verif.Pilot.C212_same_error_partial",
    "Verif.Pilot.C212_linear_partial",
    "Verif.Pilot.C212_never_partial",
    "Verif.Pilot.C212_refuted"
   ],
   "note": "False of the code: the objective is invariant under all invertible linear changes of the plane, so the proportions of the picture are never determined. Proved: invariance of the error, pictures with equal reconstructions differ by a linear map, no picture with three instances off a line is the only best one, and with a spectral gap the best pictures are exactly the linear changes of one of them."
  },
  {
   "property": "C213",
   "status": "partial",
   "theorems": [
    "Verif.EndToEnd.C213_build_partial",
    "Verif.EndToEnd.C213_build_refuted",
    "Verif.Sifted.C213_exact_partial",
    "Verif.Sifted.C213_favourites_partial",
    "Verif.Sifted.C213_uncorrelated_refuted",
    "Verif.Sifted.C213_refuted"
   ],
   "note": "Exact condition for SIFTED to return. Refuted as stated: with more than three features and no significant correlation every algorithm falls back on the same first feature of argsort, so one feature passes and the stage raises NotEnoughFeatureError. Also stops if the best number of clusters is not K and is within two of the number of passing features."
  },
  {
   "property": "C214",
   "status": "proved",
   "theorems": [
    "Verif.EndToEnd.C214_place",
    "Verif.EndToEnd.C214_predictions",
    "Verif.EndToEnd.C214_rows"
   ],
   "note": "Places (a trained model is a function of the coordinates) and FitsBy (the transformation is a Box-Cox transformation) are hypotheses about scikit-learn and scipy. pr0_hat is the probability; pr0_sub and y_sub come from cross-validation, where the fold of the instance matters, and nothing is claimed about them."
  },
  {
   "property": "C215",
   "status": "partial",
   "theorems": [
    "Verif.EndToEnd.C215_fitted_partial",
    "Verif.EndToEnd.C215_plain_partial",
    "Verif.EndToEnd.C215_wiped_partial",
    "Verif.EndToEnd.C215_error_partial",
    "Verif.EndToEnd.C215_analytic_partial",
    "Verif.EndToEnd.C215_refuted",
    "Verif.EndToEnd.C215_error_refuted"
   ],
   "note": "False of the code in four ways. With auto.norm a single missing performance makes `min_y` NaN and with it every processed performance (C215_wiped_partial, C215_refuted), so that the projection ignores all performances; the error is NaN (C215_error_partial, C215_error_refuted); in analytic mode scipy's eig raises a ValueError for NaN, so no Model is built (C215_analytic_partial). Proved: in numerical mode every try fits exactly the numbers in the Model's x and y (C215_fitted_partial), and without normalisation these are the present performances (C215_plain_partial)."
  },
  {
   "property": "C216",
   "status": "partial",
   "theorems": [
    "Verif.EndToEnd.C216_outcome_partial",
    "Verif.EndToEnd.C216_threshold_partial",
    "Verif.EndToEnd.C216_winner_partial",
    "Verif.EndToEnd.C216_normalised_refuted",
    "Verif.EndToEnd.C216_analytic_refuted"
   ],
   "note": "False in the analytic mode: scipy's eig raises a ValueError on NaN (C216_analytic_refuted). False with normalisation and more than three features: one gap wipes out all performances in PRELIM and SIFTED raises NotEnoughFeatureError on every such table (C216_normalised_refuted). Proved in the numerical mode: Preprocessing, PRELIM, PILOT, CLOISTER and the weights of PYTHIA never raise because of a gap (C216_outcome_partial); with an absolute threshold a missing performance counts as a miss (C216_threshold_partial, C216_winner_partial). SIFTED with more than three features: C213_build_partial gives the exact condition, gaps included."
  },
  {
   "property": "C217",
   "status": "partial",
   "theorems": [
    "Verif.EndToEnd.C217_performances",
    "Verif.EndToEnd.C217_correlations",
    "Verif.EndToEnd.C217_models_partial",
    "Verif.EndToEnd.C217_footprints_partial",
    "Verif.EndToEnd.C217_models_refuted",
    "Verif.EndToEnd.C217_candidates_partial",
    "Verif.EndToEnd.C217_best_refuted"
   ],
   "note": "refuted for PYTHIA: candidates for the hyper-parameters are drawn anew for each algorithm, so two equal algorithms get different models (C217_models_refuted); and for TRACE with the experimental data: the later twin, never best, gets a best footprint over all instances on which its predecessor is best, which itself gets none (C217_best_refuted). Proved: performances, verdicts, best algorithm, correlations; models, measures, selections and good footprints if training depends on the column alone; PYTHIA itself if the candidates are the same."
  },
  {
   "property": "C218",
   "status": "proved",
   "theorems": [
    "Verif.EndToEnd.C218_finite",
    "Verif.EndToEnd.C218_raw",
    "Verif.EndToEnd.C218_few",
    "Verif.EndToEnd.C218_cells",
    "Verif.EndToEnd.C218_same"
   ],
   "note": "Assumes that scikit-learn raises on coordinates that are not finite; what PILOT and CLOISTER make of features that are not finite is arbitrary, except that PILOT multiplies them with its matrix. The exact arithmetic of the model stands for floating point."
  },
  {
   "property": "C219",
   "status": "partial",
   "theorems": [
    "Verif.EndToEnd.C219_analytic_partial",
    "Verif.EndToEnd.C219_numerical_partial",
    "Verif.EndToEnd.C219_refuted"
   ],
   "note": "False in numerical mode, the default; partial: analytic mode, and what the entries are in numerical mode."
  },
  {
   "property": "C220",
   "status": "partial",
   "theorems": [
    "Verif.EndToEnd.C220_partial",
    "Verif.EndToEnd.C220_clustered_partial",
    "Verif.EndToEnd.C220_refuted"
   ],
   "note": "False with clusters; partial: without clusters, and with clusters for the cluster of the feature."
  },
  {
   "property": "C221",
   "status": "partial",
   "theorems": [
    "Verif.Trace.C221_axes_partial",
    "Verif.Trace.C221_refuted"
   ],
   "note": "False for rotations, because the radius of the clustering is taken from the bounding box. Proved for shifts, mirror images and exchanged axes, for a geometry library that follows the motion and compares geometries as sets of points."
  },
  {
   "property": "C222",
   "status": "partial",
   "theorems": [
    "Verif.EndToEnd.C222_algorithms_partial",
    "Verif.EndToEnd.C222_selector_partial",
    "Verif.EndToEnd.C222_good_partial",
    "Verif.EndToEnd.C222_selector_refuted",
    "Verif.EndToEnd.C222_missing_refuted",
    "Verif.EndToEnd.C222_good_refuted"
   ],
   "note": "Proved when all performances are known (algorithms; selector when the first algorithm is never recommended; probabilities). Refuted: the selector can show a better average than the oracle, an algorithm with missing performances can, and the oracle probability of good is 1 even when no algorithm is good on some instance."
  },
  {
   "property": "C223",
   "status": "proved",
   "theorems": [
    "Verif.EndToEnd.C223_boundary",
    "Verif.EndToEnd.C223_instances"
   ],
   "note": "Proved with laws for the regions of the geometry library; the hull library is correct when it succeeds."
  },
  {
   "property": "C224",
   "status": "partial",
   "theorems": [
    "Verif.EndToEnd.C224_partial",
    "Verif.EndToEnd.C224_refuted"
   ],
   "note": "Part: both builds complete, no sampling by density, no genetic search. Refuted with a search: the cost function reads the verdicts, and the coordinates change with the threshold."
  },
  {
   "property": "C225",
   "status": "proved",
   "theorems": [
    "Verif.EndToEnd.C225_late",
    "Verif.EndToEnd.C225_pythia",
    "Verif.EndToEnd.C225_sifted",
    "Verif.Runner.C225_influence"
   ],
   "note": "For every built pipeline, with the exceptions; in the default pipeline for the last four stages, for PYTHIA without use_sim, and for SIFTED."
  },
  {
   "property": "C226",
   "status": "partial",
   "theorems": [
    "Verif.EndToEnd.C226_good",
    "Verif.EndToEnd.C226_hard",
    "Verif.EndToEnd.C226_best_partial",
    "Verif.EndToEnd.C226_refuted"
   ],
   "note": "Both modes of TRACE (useSim). The mixed-up position of the best footprints is the same bug as C61, here in the Model a build returns."
  },
  {
   "property": "C227",
   "status": "partial",
   "theorems": [
    "Verif.EndToEnd.C227_file_partial",
    "Verif.EndToEnd.C227_fraction_partial",
    "Verif.EndToEnd.C227_refuted"
   ],
   "note": "Proved for index files and fractions when the features are neither bounded nor normalised, no value is missing and the density option is off, for all names but the metadata, the labels and the recorded column quantities; both runs are assumed to complete. Refuted with normalisation: the features are shifted by minima over instances outside the subset."
  },
  {
   "property": "C228",
   "status": "partial",
   "theorems": [
    "Verif.EndToEnd.C228_kept_partial",
    "Verif.EndToEnd.C228_few_partial",
    "Verif.EndToEnd.C228_refuted"
   ],
   "note": "False in full: SIFTED's selection by correlation compares the feature in position i with the feature of rank i, so its result depends on the features that are dropped and a second selection may drop more. True whenever at most three features were selected or the second build selects as many."
  },
  {
   "property": "C229",
   "status": "partial",
   "theorems": [
    "Verif.EndToEnd.C229_verdicts_partial",
    "Verif.EndToEnd.C229_best_partial",
    "Verif.EndToEnd.C229_refuted"
   ],
   "note": "Both parts assume that no value is missing, every algorithm is used, the density subset is off, the late stages return the outputs they declare and both builds complete. Under these the verdicts and best performances are proved. The best algorithm is proved when performances are maximised, compared absolutely, or never 0 at best; it is refuted for best performances 0 minimised relatively, which are replaced by the machine epsilon before ties are looked for."
  },
  {
   "property": "C230",
   "status": "partial",
   "theorems": [
    "Verif.EndToEnd.C230_partial",
    "Verif.EndToEnd.C230_refuted"
   ],
   "note": "False of the code: the scores are about the features before the last selection, of which there are always more than in the Model (C207_rows_partial). Proved instead: their order and number for those features, assuming that k-means returns a label for each feature and the search a gene for each cluster."
  },
  {
   "property": "C231",
   "status": "partial",
   "theorems": [
    "Verif.EndToEnd.C231_build_partial",
    "Verif.Prelim.C231_finite_partial",
    "Verif.Prelim.C231_finite_performances_partial",
    "Verif.Prelim.C231_lost_partial",
    "Verif.Prelim.C231_erased_partial",
    "Verif.Prelim.C231_performances_partial",
    "Verif.Prelim.C231_refuted"
   ],
   "note": "False: a smallest value of -inf becomes missing and makes all other values +inf, for performances those of all algorithms, also in the output of a build; if all values are +inf, all become missing. Without infinite values none is lost, under the contract that the transformation returns a number for each finite number; the z-score breaks it on constant columns (C123). That different finite values can be told apart is C122. Nothing is proved with bounding and infinities together."
  },
  {
   "property": "C232",
   "status": "proved",
   "theorems": [
    "Verif.EndToEnd.C232_looser"
   ],
   "note": "Proved for builds that both complete, with the density subset off. Exact arithmetic stands for floating point."
  },
  {
   "property": "C233",
   "status": "partial",
   "theorems": [
    "Verif.EndToEnd.C233_absolute_partial",
    "Verif.EndToEnd.C233_relative_partial",
    "Verif.EndToEnd.C233_refuted"
   ],
   "note": "Proved for absolute performances and for positive relative ones, without missing values, with every algorithm used and the density subset off, for builds that both complete; refuted for relative performances that are zero or negative (witness improves -1 to 0)."
  },
  {
   "property": "C234",
   "status": "partial",
   "theorems": [
    "Verif.EndToEnd.C234_build_partial",
    "Verif.EndToEnd.C234_build_refuted",
    "Verif.Sifted.C234_refuted",
    "Verif.Sifted.C234_partial"
   ],
   "note": "Proved where the build with the lower threshold does not cluster, for builds that both complete; refuted in general for the stage and for builds (the witness for the stage clusters six features into three with one threshold and keeps three of them with the other)."
  },
  {
   "property": "C235",
   "status": "proved",
   "theorems": [
    "Verif.EndToEnd.C235_clusters"
   ],
   "note": "For run_all on a fresh InstanceSpace; the whole output is the same."
  }
 ]
}
