{"id": "C01", "title": "Every built schedule is complete and executable", "statement": "If StageBuilder.build returns a runner, then its schedule contains every added stage exactly once, contains nothing else, and every argument a stage declares as input is an initial input or an output of a stage in a strictly earlier schedule element.", "quantifier": "every finite set of added stages with arbitrary declared inputs and outputs, every set of initial inputs, every order in which Python iterates the sets involved", "why_tests_cant": "the space of stage graphs is infinite and set iteration order depends on hash seeds, so tests only visit a few graphs and one order each", "anchors": ["instancespace/stage_builder.py:StageBuilder.build", "instancespace/stage_builder.py:StageBuilder._resolve_stages", "instancespace/stage_builder.py:StageBuilder._stage_resolves"]}
{"id": "C02", "title": "The schedule does not depend on insertion or hash order", "statement": "Two builders given the same stages in different orders, run with different set iteration orders, either both raise StageResolutionError or both return schedules with the same number of elements whose corresponding elements contain the same stages.", "quantifier": "every stage set, every permutation of the add_stage calls, every pair of set iteration orders", "why_tests_cant": "a test runs under one hash order per process", "anchors": ["instancespace/stage_builder.py:StageBuilder._resolve_stages", "instancespace/stage_builder.py:StageBuilder._mutating_stages_check"]}
{"id": "C03", "title": "A resolvable plain pipeline is always accepted, an unresolvable one never", "statement": "For stages that have at least one output, never output an argument they also take as input, and never share an output, build succeeds exactly when the stages can be listed in some order such that each one's inputs are initial inputs or outputs of stages listed before it.", "quantifier": "every finite set of such stages and every set of initial inputs", "why_tests_cant": "completeness of the resolution is a statement about all graphs and all candidate orders", "anchors": ["instancespace/stage_builder.py:StageBuilder._resolve_stages"]}
{"id": "C04", "title": "No write conflicts inside a schedule element", "statement": "In a schedule returned by build, two different stages of the same element never declare the same output argument, and a stage never takes as input an argument that another stage of the same element both takes as input and outputs.", "quantifier": "every stage set, every initial input set, every iteration order for which build succeeds", "why_tests_cant": "conflict freedom must hold for all graphs", "anchors": ["instancespace/stage_builder.py:StageBuilder._resolve_stages", "instancespace/stage_builder.py:StageBuilder._mutating_stages_check"]}
{"id": "C05", "title": "Readers of an argument run after the stages that mutate it", "statement": "If a stage both takes and outputs an argument, every other stage that takes this argument as input is scheduled after it (documented for mutating stages).", "quantifier": "every stage set for which build succeeds", "why_tests_cant": "needs all relative timings of argument availability", "anchors": ["instancespace/stage_builder.py:StageBuilder.add_stage", "instancespace/stage_builder.py:StageBuilder._mutating_stages_check", "instancespace/stage_builder.py:StageBuilder._resolve_stages"]}
{"id": "C06", "title": "RunBefore and RunAfter restrictions are honoured", "statement": "A pipeline whose stages declare RunBefore[S] / RunAfter[S] inputs is scheduled with the declared relative order.", "quantifier": "every stage set with ordering restrictions, every initial input set", "why_tests_cant": "no test exercises all restriction shapes; the failure is in how the declaration is recognised", "anchors": ["instancespace/stage_builder.py:StageBuilder._strip_run_restriction_arguments", "instancespace/stage_builder.py:StageBuilder._get_restrictions_for_stage", "instancespace/stage_builder.py:StageBuilder._get_ordering_restrictions", "instancespace/stages/stage.py:RunBefore", "instancespace/stages/stage.py:RunAfter"]}
{"id": "C07", "title": "A stage without outputs can never be scheduled", "statement": "If any added stage declares no output, build raises and never returns a runner, whatever the other stages and the initial inputs are.", "quantifier": "every stage set containing a stage with an empty output declaration", "why_tests_cant": "universally quantified over the rest of the pipeline", "anchors": ["instancespace/stage_builder.py:StageBuilder._resolve_stages"]}
{"id": "C08", "title": "Building twice from the same arguments gives the same schedule", "statement": "Calling build a second time with the same argument object yields the same schedule as the first call.", "quantifier": "every builder and every form of the argument (a NamedTuple class or a set of annotations)", "why_tests_cant": "requires tracking mutation of the caller's set through all graphs", "anchors": ["instancespace/stage_builder.py:StageBuilder.build", "instancespace/stage_builder.py:StageBuilder._resolve_stages"]}
{"id": "C09", "title": "add_stage is all or nothing and rejects duplicates", "statement": "Any sequence of add_stage calls leaves the builder holding exactly the stages whose call returned normally, each with the inputs and outputs declared in that call; a call with an already present stage raises ValueError and changes nothing; a call that raises TypeError changes nothing.", "quantifier": "every finite sequence of add_stage calls", "why_tests_cant": "ranges over all call histories", "anchors": ["instancespace/stage_builder.py:StageBuilder.add_stage"]}
{"id": "C10", "title": "The default pipeline has one schedule", "statement": "With the seven stages shipped and the initial inputs InstanceSpace provides, build succeeds for every order of adding the stages and every set iteration order, and the schedule is Preprocessing; Prelim; Sifted; Pilot; Pythia and Cloister together; Trace.", "quantifier": "all 5040 insertion orders and all set iteration orders", "why_tests_cant": "the integration test sees one insertion order and one hash order", "anchors": ["instancespace/instance_space.py:InstanceSpace.__init__", "instancespace/instance_space.py:_InstanceSpaceInputs", "instancespace/stage_builder.py:StageBuilder._resolve_stages", "instancespace/stages/preprocessing.py:PreprocessingInput", "instancespace/stages/prelim.py:PrelimOutput", "instancespace/stages/sifted.py:SiftedInput", "instancespace/stages/pilot.py:PilotInput", "instancespace/stages/cloister.py:CloisterInput", "instancespace/stages/pythia.py:PythiaInput", "instancespace/stages/trace.py:TraceInputs"]}
{"id": "C11", "title": "Inputs are never missing at run time and carry the declared type", "statement": "On a runner returned by build, run_all with values for all initial inputs never raises for a missing argument, and each stage receives for every input a value that was produced under the declared type.", "quantifier": "every built runner, every stage implementation returning its declared outputs, every assignment of initial values of the declared types", "why_tests_cant": "needs every pipeline, including ones where one argument name is declared with two types", "anchors": ["instancespace/stage_runner.py:StageRunner.run_stage", "instancespace/stage_runner.py:StageRunner.run_all", "instancespace/stage_builder.py:StageBuilder._resolve_stages"]}
{"id": "C12", "title": "run_all gives the same result from every history", "statement": "After any sequence of run_stage, run_all, run_until_stage and partially consumed run_iter calls, including calls that raised, run_all(inputs) returns exactly what it returns on a fresh runner: the fold of the stages in schedule order over the given inputs.", "quantifier": "every finite history of runner calls, every input, every deterministic stage implementation that may raise", "why_tests_cant": "histories are unbounded", "anchors": ["instancespace/stage_runner.py:StageRunner.run_all", "instancespace/stage_runner.py:StageRunner._rollback_to_schedule_index", "instancespace/stage_runner.py:StageRunner._progress_schedule"]}
{"id": "C13", "title": "A stage runs only after all earlier stages have run", "statement": "After any history, a run_stage call that returns normally is only possible when every stage in earlier schedule elements has been run successfully before; a call for a stage beyond the current element raises StageRunningError and leaves everything unchanged.", "quantifier": "every history of runner calls", "why_tests_cant": "histories are unbounded", "anchors": ["instancespace/stage_runner.py:StageRunner.run_stage", "instancespace/stage_runner.py:StageRunner._progress_schedule", "instancespace/stage_runner.py:StageRunner._rollback_to_schedule_index"]}
{"id": "C14", "title": "Re-running an earlier stage discards what later stages wrote", "statement": "When run_stage is called for a stage of an earlier schedule element, the values it receives are those available when that element was first reached, unaffected by outputs of later elements (documented as rolling back any changes made after that stage's schedule).", "quantifier": "every history, every pipeline with stages that overwrite arguments", "why_tests_cant": "depends on aliasing of the snapshots over arbitrary histories", "anchors": ["instancespace/stage_runner.py:StageRunner.run_stage", "instancespace/stage_runner.py:StageRunner._rollback_to_schedule_index", "instancespace/stage_runner.py:StageRunner._progress_schedule"]}
{"id": "C15", "title": "run_until_stage runs up to and including the given stage", "statement": "run_until_stage(S, inputs) runs every stage scheduled before S and S itself, and returns the arguments available after S has run.", "quantifier": "every pipeline and every stage S", "why_tests_cant": "ranges over all pipelines and positions", "anchors": ["instancespace/stage_runner.py:StageRunner.run_until_stage"]}
{"id": "C16", "title": "A fully consumed run_iter equals run_all", "statement": "Iterating run_iter(inputs) to the end leaves the runner with the same available arguments and the same position as run_all(inputs), yields one output per stage in schedule order, and raises at the same stage if a stage raises.", "quantifier": "every pipeline, every prior history, every input", "why_tests_cant": "quantifies over pipelines, histories and implementations", "anchors": ["instancespace/stage_runner.py:StageRunner.run_iter", "instancespace/stage_runner.py:StageRunner.run_all"]}
{"id": "C17", "title": "A stage that raises leaves the available arguments untouched", "statement": "If the stage being run raises, no argument available to other stages changes and the stage is not counted as run by this call; calling run_all afterwards behaves as on a fresh runner.", "quantifier": "every stage, every point of failure, every history", "why_tests_cant": "every crash point in every pipeline", "anchors": ["instancespace/stage_runner.py:StageRunner.run_stage"]}
{"id": "C18", "title": "Results do not depend on the order inside a schedule element", "statement": "For a runner returned by build, run_all returns the same arguments whichever order the stages inside each schedule element are executed in.", "quantifier": "every built pipeline, every permutation of every schedule element", "why_tests_cant": "order inside an element comes from set iteration and hash values", "anchors": ["instancespace/stage_runner.py:StageRunner.run_all", "instancespace/stage_builder.py:StageBuilder._resolve_stages"]}
{"id": "C19", "title": "A stage cannot corrupt stored data through its inputs", "statement": "Whatever a stage writes in place into the objects it receives, the values stored for other stages and the caller's own objects passed as inputs keep their contents.", "quantifier": "every stage implementation that writes only objects reachable from its inputs, every heap and aliasing pattern", "why_tests_cant": "quantifies over arbitrary stage code and aliasing", "anchors": ["instancespace/stage_runner.py:StageRunner.run_stage"]}
{"id": "C20", "title": "The dictionary returned by run_all is a snapshot", "statement": "The dictionary returned by run_all is not changed by later calls on the same runner.", "quantifier": "every history after the run_all call", "why_tests_cant": "aliasing across histories", "anchors": ["instancespace/stage_runner.py:StageRunner.run_all", "instancespace/stage_runner.py:StageRunner.run_stage"]}
{"id": "C21", "title": "Arguments given to run_stage apply to that call only", "statement": "Keyword arguments passed to run_stage override stored arguments for this call and are not visible to later calls, unless the stage itself outputs them.", "quantifier": "every history and every override", "why_tests_cant": "ranges over histories", "anchors": ["instancespace/stage_runner.py:StageRunner.run_stage"]}
{"id": "C22", "title": "The model is available exactly after a successful build", "statement": "Reading InstanceSpace.model raises StageRunningError until a build call has finished running all stages; after all stages have been run through run_iter, run_stage or run_until_stage it is available too.", "quantifier": "every sequence of InstanceSpace calls", "why_tests_cant": "ranges over call histories", "anchors": ["instancespace/instance_space.py:InstanceSpace.model", "instancespace/instance_space.py:InstanceSpace.build", "instancespace/instance_space.py:InstanceSpace.run_iter"]}
{"id": "C23", "title": "build returns the model of the run it just made", "statement": "Each call of InstanceSpace.build returns a model computed from the outputs of that very call.", "quantifier": "every number of build calls, every stage implementation (including ones whose result changes between calls)", "why_tests_cant": "ranges over histories of calls", "anchors": ["instancespace/instance_space.py:InstanceSpace.build", "instancespace/instance_space.py:InstanceSpace.model"]}
{"id": "C24", "title": "Additional initial inputs reach the stages", "statement": "A plugin stage that takes an argument declared through additional_initial_inputs_type receives it when InstanceSpace.build runs.", "quantifier": "every pipeline with additional initial inputs", "why_tests_cant": "must hold for every plugin", "anchors": ["instancespace/instance_space.py:InstanceSpace.__init__", "instancespace/instance_space.py:InstanceSpace.build", "instancespace/instance_space.py:InstanceSpace.run_stage"]}
{"id": "C25", "title": "The default pipeline produces everything the Model needs", "statement": "After run_all of the default pipeline, every key the Model reads is present, so building the Model never fails for a missing key, whatever values the stages return and for every insertion order.", "quantifier": "every implementation of the seven stages returning its declared output fields", "why_tests_cant": "universal over stage behaviour", "anchors": ["instancespace/model.py:Model.from_stage_runner_output", "instancespace/data/model.py:Data.from_stage_runner_output", "instancespace/data/model.py:TraceOut.from_stage_runner_output"]}
{"id": "C26", "title": "Instance labels stay aligned with the instances through the pipeline", "statement": "In the Model of the default pipeline, data.inst_labels has one label per row of data.x, and label i belongs to the instance of row i.", "quantifier": "every data set and every subsetting option of PRELIM", "why_tests_cant": "depends on name based dataflow between stages for all data", "anchors": ["instancespace/stages/prelim.py:PrelimOutput", "instancespace/stages/prelim.py:PrelimStage._filter", "instancespace/stages/sifted.py:SiftedInput", "instancespace/data/model.py:Data.from_stage_runner_output"]}
{"id": "C27", "title": "Column selection keeps labels and columns together in original order", "statement": "select_features_and_algorithms returns exactly the features (algorithms) named in the options, in their original order, each label paired with its own column; if the list is absent or names nothing that exists, everything is kept.", "quantifier": "all matrices, label lists and option lists", "why_tests_cant": "unbounded data; duplicates and missing names", "anchors": ["instancespace/stages/preprocessing.py:PreprocessingStage.select_features_and_algorithms"]}
{"id": "C28", "title": "Row removal keeps features, performances, labels and sources aligned", "statement": "remove_instances_with_many_missing_values removes exactly the instances whose features are all missing or whose performances are all missing, keeps the others in order, and applies the same removal to x, y, inst_labels and s.", "quantifier": "all matrices with any pattern of missing values", "why_tests_cant": "exponentially many missing-value patterns", "anchors": ["instancespace/stages/preprocessing.py:PreprocessingStage.remove_instances_with_many_missing_values"]}
{"id": "C29", "title": "A feature is dropped exactly when at least 20% of its remaining values are missing", "statement": "After removing instances, a feature column is kept exactly when fewer than one fifth of the remaining instances miss it; kept columns keep their order and their label.", "quantifier": "all matrices with any pattern of missing values", "why_tests_cant": "boundary case at exactly 20% for all sizes", "anchors": ["instancespace/stages/preprocessing.py:PreprocessingStage.remove_instances_with_many_missing_values"]}
{"id": "C30", "title": "No instance without any feature value survives preprocessing", "statement": "In the output of preprocessing every instance has at least one feature value and at least one performance value that is not missing.", "quantifier": "all matrices with any pattern of missing values", "why_tests_cant": "interaction of row removal and column removal over all patterns", "anchors": ["instancespace/stages/preprocessing.py:PreprocessingStage.remove_instances_with_many_missing_values"]}
{"id": "C31", "title": "The instance filter removes only instances covered by a kept one", "statement": "For every filter type, each instance marked for removal has an earlier, kept instance within the distance threshold in feature space that also satisfies the extra condition of the type (performance distance within the scaled threshold, all algorithms good on both instances, or both of these); the first instance is never removed.", "quantifier": "all data sets, thresholds, distance functions and the four filter types", "why_tests_cant": "the greedy scan must be right for all inputs", "anchors": ["instancespace/utils/filter.py:filter_instance"]}
{"id": "C32", "title": "Kept instances never cover each other", "statement": "No kept instance satisfies the removal condition with respect to an earlier kept instance; for type Ftr any two kept instances are more than the threshold apart.", "quantifier": "all data sets, thresholds, distance functions and the four filter types", "why_tests_cant": "the greedy scan must be right for all inputs", "anchors": ["instancespace/utils/filter.py:filter_instance"]}
{"id": "C33", "title": "The dissimilar and visa flags have their documented meaning", "statement": "An instance is flagged dissimilar exactly when no earlier kept instance lies within the threshold in feature space; it is flagged visa exactly when it is kept, not dissimilar, and the type is not Ftr.", "quantifier": "all data sets, thresholds, distance functions and the four filter types", "why_tests_cant": "flags are overwritten during a quadratic scan", "anchors": ["instancespace/utils/filter.py:filter_instance"]}
{"id": "C34", "title": "Filtering is idempotent", "statement": "Running the filter again, with the same type and threshold, on the kept instances only removes nothing.", "quantifier": "all data sets and the four filter types", "why_tests_cant": "second-order statement about all inputs", "anchors": ["instancespace/utils/filter.py:filter_instance", "instancespace/utils/filter.py:do_filter"]}
{"id": "C35", "title": "Absolute goodness is a plain threshold", "statement": "With AbsPerf, an algorithm is good on an instance exactly when its performance is present and at least epsilon (maximising) or at most epsilon (minimising).", "quantifier": "all performance matrices including missing and infinite entries, all thresholds", "why_tests_cant": "missing values are replaced by infinities before comparing; all inputs", "anchors": ["instancespace/stages/prelim.py:PrelimStage._prelim", "instancespace/stages/prelim.py:PrelimStage._select_best_algorithms"]}
{"id": "C36", "title": "Relative goodness means within a fraction epsilon of the best", "statement": "Without AbsPerf, an algorithm is good on an instance exactly when its performance is within a fraction epsilon of the best on that instance: at least (1-epsilon) times the best when maximising, at most best/(1-epsilon) when minimising.", "quantifier": "all performance matrices, all epsilon below 1", "why_tests_cant": "signs, zeros and missing values matter over all inputs", "anchors": ["instancespace/stages/prelim.py:PrelimStage._prelim"]}
{"id": "C37", "title": "The best algorithm of an instance is always good", "statement": "Under the relative definition with epsilon at least 0, the algorithm with the best performance on an instance is good on it.", "quantifier": "all performance matrices with at least one value present per instance", "why_tests_cant": "zero and negative performances are corner cases of an infinite space", "anchors": ["instancespace/stages/prelim.py:PrelimStage._prelim"]}
{"id": "C38", "title": "p names the first best algorithm, counted from one", "statement": "p[i] is the one-based index of the first algorithm attaining the best performance on instance i (missing performances lose), so 1 <= p[i] <= number of algorithms and y_best[i] is its performance.", "quantifier": "all performance matrices", "why_tests_cant": "ties, missing values and the zero replacement interact", "anchors": ["instancespace/stages/prelim.py:PrelimStage._prelim", "instancespace/stages/prelim.py:PrelimStage._select_best_algorithms"]}
{"id": "C39", "title": "num_good_algos and beta count good algorithms", "statement": "num_good_algos[i] is the number of algorithms good on instance i and beta[i] is true exactly when that number exceeds beta_threshold times the number of algorithms.", "quantifier": "all performance matrices and thresholds", "why_tests_cant": "all inputs", "anchors": ["instancespace/stages/prelim.py:PrelimStage._prelim"]}
{"id": "C40", "title": "Loosening epsilon never turns a good algorithm bad", "statement": "If epsilon grows (when maximising relatively or minimising, absolutely or relatively) every algorithm that was good on an instance stays good; when maximising absolutely the same holds if epsilon shrinks.", "quantifier": "all performance matrices and pairs of thresholds", "why_tests_cant": "relational property over two runs", "anchors": ["instancespace/stages/prelim.py:PrelimStage._prelim"]}
{"id": "C41", "title": "Bounding clamps each feature to median plus or minus five interquartile ranges", "statement": "After bounding, every finite feature value equals the original value clamped to the interval; values inside are unchanged and no value leaves the interval.", "quantifier": "all finite feature columns and all bounds", "why_tests_cant": "all inputs", "anchors": ["instancespace/stages/prelim.py:PrelimStage._bound"]}
{"id": "C42", "title": "Missing values survive normalisation locally", "statement": "Normalisation leaves missing entries missing and turns present entries into numbers: a missing entry does not affect the other entries.", "quantifier": "all matrices with missing entries", "why_tests_cant": "all missing-value patterns", "anchors": ["instancespace/stages/prelim.py:PrelimStage._normalise"]}
{"id": "C43", "title": "Subsetting applies one selection to every per-instance output", "statement": "Whatever subsetting option is active, PRELIM keeps the same instances in the same order in x, y, x_raw, y_raw, y_bin, beta, num_good_algos, y_best, p, s and its instance labels.", "quantifier": "all data sets and all option combinations", "why_tests_cant": "all inputs and option combinations", "anchors": ["instancespace/stages/prelim.py:PrelimStage._filter"]}
{"id": "C44", "title": "The subset options have a fixed precedence", "statement": "A random fraction is used when requested with a fractional size; otherwise the index file if requested and present; otherwise the density filter if requested; otherwise all instances are kept. data_dense is returned exactly when the density flag is set.", "quantifier": "all option combinations", "why_tests_cant": "combinatorial options", "anchors": ["instancespace/stages/prelim.py:PrelimStage._filter"]}
{"id": "C45", "title": "An index file selects exactly the instances it lists", "statement": "With an index file, the kept instances are exactly those whose one-based number is listed in the file.", "quantifier": "all index files and all data sizes", "why_tests_cant": "boundary indices for all sizes", "anchors": ["instancespace/stages/prelim.py:PrelimStage._filter"]}
{"id": "C46", "title": "y_raw keeps the raw performances", "statement": "The y_raw output of PRELIM equals the performances handed to it.", "quantifier": "all performance matrices and options, with the aliasing produced by preprocessing", "why_tests_cant": "depends on object aliasing between inputs", "anchors": ["instancespace/stages/prelim.py:PrelimStage._prelim", "instancespace/stages/preprocessing.py:PreprocessingStage._run", "instancespace/stage_runner.py:StageRunner.run_stage"]}
{"id": "C47", "title": "Metadata columns are classified by name and keep order", "statement": "from_data_frame returns as features (algorithms) exactly the columns whose lower-cased name starts with feature_ (algo_), in file order, each name paired with its own column; other columns are ignored.", "quantifier": "all tables with distinct or repeated column names", "why_tests_cant": "all tables", "anchors": ["instancespace/data/metadata.py:Metadata.from_data_frame"]}
{"id": "C48", "title": "Instance labels are one string per row", "statement": "from_data_frame returns as instance labels a sequence with one label per table row, in row order.", "quantifier": "all tables with an instances column", "why_tests_cant": "includes one-row tables and repeated columns", "anchors": ["instancespace/data/metadata.py:Metadata.from_data_frame"]}
{"id": "C49", "title": "An options group is accepted exactly when its keys are known and not repeated", "statement": "A group of options is accepted exactly when every key, ignoring case, is a field name or alias of the group (or the placeholder), and no two keys denote the same field; otherwise ValueError is raised. Unknown group names raise ValueError.", "quantifier": "all dictionaries of any size", "why_tests_cant": "all key sets", "anchors": ["instancespace/data/options.py:InstanceSpaceOptions.from_dict", "instancespace/data/options.py:InstanceSpaceOptions._validate_fields", "instancespace/data/options.py:InstanceSpaceOptions._load_dataclass"]}
{"id": "C50", "title": "Each option takes the given value or its default", "statement": "In an accepted group, each field has the value given for it under its name or its alias, in any letter case, and its default if no key denotes it.", "quantifier": "all accepted dictionaries", "why_tests_cant": "all key sets and values", "anchors": ["instancespace/data/options.py:InstanceSpaceOptions._load_dataclass", "instancespace/data/default_options.py"]}
{"id": "C51", "title": "Key order and letter case of options do not matter", "statement": "Permuting the entries of an options group or changing the case of its keys changes neither acceptance nor the resulting options.", "quantifier": "all dictionaries and permutations", "why_tests_cant": "relational over all inputs", "anchors": ["instancespace/data/options.py:InstanceSpaceOptions._load_dataclass", "instancespace/data/options.py:InstanceSpaceOptions._validate_fields"]}
{"id": "C52", "title": "Options survive a round trip through a dictionary", "statement": "Converting an options object to a dictionary of dictionaries by field name and loading it back with from_dict gives the same options; from_dict of the empty dictionary gives the defaults.", "quantifier": "all options objects", "why_tests_cant": "all values", "anchors": ["instancespace/data/options.py:InstanceSpaceOptions.from_dict", "instancespace/data/options.py:InstanceSpaceOptions.default"]}
{"id": "C53", "title": "Loading options from a file never raises", "statement": "from_json_file returns either options or None for every file content.", "quantifier": "all file contents", "why_tests_cant": "all JSON values", "anchors": ["instancespace/data/options.py:from_json_file"]}
{"id": "C54", "title": "The candidate boundary consists of all corners of the feature box", "statement": "CLOISTER's candidate boundary points are the corners of the bounding box of the features: row i takes the maximum of feature j when bit j of i is set and the minimum otherwise, so every corner occurs exactly once.", "quantifier": "all feature matrices with any positive number of features", "why_tests_cant": "2^n corners for every n", "anchors": ["instancespace/stages/cloister.py:CloisterStage._generate_boundaries", "instancespace/stages/cloister.py:CloisterStage._decimal_to_binary_matrix"]}
{"id": "C55", "title": "Corners are discarded exactly when they contradict a strong correlation", "statement": "A corner is discarded exactly when two of its coordinates have different signs although the features correlate above the threshold, or equal signs although they correlate below minus the threshold.", "quantifier": "all matrices, correlations and thresholds", "why_tests_cant": "nested loops with early exit for all sizes", "anchors": ["instancespace/stages/cloister.py:CloisterStage._generate_boundaries"]}
{"id": "C56", "title": "The estimated boundary encloses every projected instance", "statement": "Every instance projected to the plane lies in the convex hull of CLOISTER's z_edge points whenever the hull computation succeeds.", "quantifier": "all feature matrices and projection matrices", "why_tests_cant": "geometric statement over the reals", "anchors": ["instancespace/stages/cloister.py:CloisterStage.cloister", "instancespace/stages/cloister.py:CloisterStage._compute_convex_hull", "instancespace/stages/pilot.py:PilotStage.pilot"]}
{"id": "C57", "title": "Only significant correlations constrain the boundary", "statement": "A correlation used by CLOISTER is zero on the diagonal and whenever its p-value exceeds the option, and otherwise equals the Pearson coefficient; z_ecorr falls back to z_edge when no correlated boundary could be built.", "quantifier": "all feature matrices and thresholds", "why_tests_cant": "all inputs", "anchors": ["instancespace/stages/cloister.py:CloisterStage._compute_correlation", "instancespace/stages/cloister.py:CloisterStage.cloister"]}
{"id": "C58", "title": "The clustering used by footprints returns connected groups", "statement": "Two points get the same positive label exactly when they are linked by a chain of steps of length at most eps and some point of the chain's group has at least k+1 points within eps (itself included); all other points get -1, and positive labels are numbered from 1 without gaps.", "quantifier": "all point sets, radii and k", "why_tests_cant": "graph reachability over all inputs", "anchors": ["instancespace/stages/trace.py:TraceStage.dbscan"]}
{"id": "C59", "title": "Footprint measures are consistent", "statement": "Every footprint has 0 <= good elements <= elements, purity between 0 and 1 with purity times elements equal to good elements, nonnegative density with density times area equal to elements, and the missing footprint has all measures zero.", "quantifier": "all polygons, point sets and labels", "why_tests_cant": "all geometries", "anchors": ["instancespace/data/model.py:Footprint.from_polygon", "instancespace/stages/trace.py:TraceStage.throw"]}
{"id": "C60", "title": "Parallel evaluation of algorithms does not affect the footprints", "statement": "The good and best footprint lists have one entry per algorithm, entry i computed for algorithm i, for every order in which worker threads finish.", "quantifier": "every completion order and number of workers", "why_tests_cant": "schedules are not controllable in tests", "anchors": ["instancespace/stages/trace.py:TraceStage.compute_algorithm_qualities", "instancespace/stages/trace.py:TraceStage.process_algorithm"]}
{"id": "C61", "title": "Best footprints use the instances on which the algorithm is best", "statement": "With UseSim off, the best-performance footprint of algorithm i is built from the instances whose best algorithm (PRELIM's p) is algorithm i; with UseSim on, from the instances for which PYTHIA selects algorithm i.", "quantifier": "all data sets and numbers of algorithms", "why_tests_cant": "index conventions across stages for all data", "anchors": ["instancespace/stages/trace.py:TraceStage._run", "instancespace/stages/trace.py:TraceStage.process_algorithm", "instancespace/stages/trace.py:TraceStage._trace", "instancespace/stages/prelim.py:PrelimStage._prelim", "instancespace/stages/pythia.py:PythiaStage._determine_selections"]}
{"id": "C62", "title": "Contradicting footprints are resolved without error", "statement": "When the footprints of two algorithms overlap, TRACE removes the overlap from the less pure one and continues.", "quantifier": "all pairs of overlapping footprints", "why_tests_cant": "all geometries", "anchors": ["instancespace/stages/trace.py:TraceStage.contra", "instancespace/stages/trace.py:TraceStage.tight"]}
{"id": "C63", "title": "The footprint summary contains no missing numbers", "statement": "Every number in the TRACE summary of an algorithm is present: undefined ratios are reported as 0.", "quantifier": "all footprints and space measures", "why_tests_cant": "all inputs", "anchors": ["instancespace/stages/trace.py:TraceStage.summary"]}
{"id": "C64", "title": "PYTHIA recommends a predicted-good algorithm of highest precision", "statement": "When at least one algorithm is predicted good on an instance with positive precision, the recommended algorithm is predicted good and no predicted-good algorithm has higher precision; otherwise the fallback recommendation is the algorithm good on most instances.", "quantifier": "all predictions and precisions", "why_tests_cant": "all inputs", "anchors": ["instancespace/stages/pythia.py:PythiaStage._determine_selections"]}
{"id": "C65", "title": "The selector distinguishes no recommendation from the first algorithm", "statement": "From selection0 one can tell the instances for which no algorithm is recommended from those for which the first algorithm is recommended.", "quantifier": "all predictions and precisions", "why_tests_cant": "information-theoretic statement over all inputs", "anchors": ["instancespace/stages/pythia.py:PythiaStage._determine_selections", "instancespace/_serialisers.py:_draw_portfolio_selections"]}
{"id": "C66", "title": "The PYTHIA summary reports each measure under its own name", "statement": "In the summary table, the accuracy, precision and recall columns contain the accuracies, precisions and recalls of the models.", "quantifier": "all measures and numbers of algorithms", "why_tests_cant": "argument order over all values", "anchors": ["instancespace/stages/pythia.py:PythiaStage.pythia", "instancespace/stages/pythia.py:PythiaStage._generate_summary"]}
{"id": "C67", "title": "The selector rows of the summary aggregate the recommended algorithm", "statement": "In the selector row of the summary, an instance contributes exactly the performance of its recommended algorithm.", "quantifier": "all recommendations and numbers of algorithms", "why_tests_cant": "index conventions for all sizes", "anchors": ["instancespace/stages/pythia.py:PythiaStage._generate_summary", "instancespace/stages/pythia.py:PythiaStage._determine_selections"]}
{"id": "C68", "title": "The reported mu and sigma undo the z-score", "statement": "PYTHIA's mu and sigma are those with which z was normalised, so z_norm * sigma + mu restores the coordinates.", "quantifier": "all coordinate matrices", "why_tests_cant": "all inputs", "anchors": ["instancespace/stages/pythia.py:PythiaStage._compute_znorm", "instancespace/stages/pythia.py:PythiaStage.pythia"]}
{"id": "C69", "title": "SIFTED keeps feature labels aligned with the selected columns", "statement": "Whenever SIFTED returns, feat_labels[j] is the label of column j of its x output and every selected column is one of the input columns, without repetition.", "quantifier": "all data sets and options", "why_tests_cant": "three code paths and stochastic search results", "anchors": ["instancespace/stages/sifted.py:SiftedStage._sifted", "instancespace/stages/sifted.py:SiftedStage.select_features_by_performance", "instancespace/stages/sifted.py:SiftedStage._find_best_combination"]}
{"id": "C70", "title": "Every feature correlated with performance above the threshold is selected", "statement": "The performance step keeps each feature whose absolute significant correlation with some algorithm is at least rho, and for each algorithm its most correlated feature.", "quantifier": "all correlation matrices and thresholds", "why_tests_cant": "all matrices", "anchors": ["instancespace/stages/sifted.py:SiftedStage.select_features_by_performance"]}
{"id": "C71", "title": "The search scores the features it will return", "statement": "The cost of a candidate in the genetic search is computed from the same features that the decoded candidate returns, and the returned candidate has the lowest cost among those compared.", "quantifier": "all candidates and cluster assignments", "why_tests_cant": "index spaces differ for all inputs", "anchors": ["instancespace/stages/sifted.py:SiftedStage.cost_fcn", "instancespace/stages/sifted.py:SiftedStage._find_best_combination", "instancespace/stages/sifted.py:SiftedStage.select_features_by_performance"]}
{"id": "C72", "title": "Choosing the number of clusters never fails", "statement": "With K at least 2 and more features than K, the evaluation of cluster counts returns the clustering for K.", "quantifier": "all silhouette scores, K and numbers of features", "why_tests_cant": "all score sequences", "anchors": ["instancespace/stages/sifted.py:SiftedStage.evaluate_cluster"]}
{"id": "C73", "title": "Clustering selection returns one feature per cluster", "statement": "The features returned by the genetic search contain exactly one feature of each of the clusters, hence exactly K features.", "quantifier": "all cluster assignments with K nonempty clusters, all candidate solutions", "why_tests_cant": "all assignments", "anchors": ["instancespace/stages/sifted.py:SiftedStage._find_best_combination", "instancespace/stages/sifted.py:SiftedStage.select_features_by_clustering"]}
{"id": "C74", "title": "PILOT returns the best of its tries", "statement": "In numerical mode the returned projection comes from the try with the largest performance among all tries.", "quantifier": "all numbers of tries and all performance values", "why_tests_cant": "all sequences", "anchors": ["instancespace/stages/pilot.py:PilotStage.numerical_solve", "instancespace/stages/pilot.py:PilotStage.pilot"]}
{"id": "C75", "title": "A pre-calculated alpha is accepted", "statement": "If a pre-calculated alpha of the right length is given in the options, PILOT uses it and returns a result.", "quantifier": "all data sets and alphas", "why_tests_cant": "all inputs", "anchors": ["instancespace/stages/pilot.py:PilotStage.pilot"]}
{"id": "C76", "title": "The PILOT projection equals z = x a^T with a consistent error", "statement": "In both modes z equals x times the transpose of a, and the reported error is the sum of squared differences between the standardised data and its reconstruction, which is nonnegative.", "quantifier": "all data matrices", "why_tests_cant": "linear algebra over all matrices", "anchors": ["instancespace/stages/pilot.py:PilotStage.pilot", "instancespace/stages/pilot.py:PilotStage.analytic_solve", "instancespace/stages/pilot.py:PilotStage.error_function"]}
{"id": "C77", "title": "PILOT's c has one column per algorithm", "statement": "The matrix c relates the plane to every algorithm: it has as many columns as there are algorithms in both modes.", "quantifier": "all numbers of features and algorithms", "why_tests_cant": "all sizes", "anchors": ["instancespace/stages/pilot.py:PilotStage.pilot", "instancespace/stages/pilot.py:PilotStage.analytic_solve"]}
{"id": "C78", "title": "The analytic projection is a least squares fit", "statement": "In analytic mode a solves the normal equations: among all matrices, x a^T is the closest to the leading eigen-directions of the data.", "quantifier": "all data matrices of full column rank", "why_tests_cant": "linear algebra over all matrices", "anchors": ["instancespace/stages/pilot.py:PilotStage.analytic_solve"]}
{"id": "C79", "title": "r2 measures the quality of the PILOT fit", "statement": "The r2 output depends on the reconstruction: it is the squared correlation between each variable and its reconstruction.", "quantifier": "all data matrices", "why_tests_cant": "all matrices", "anchors": ["instancespace/stages/pilot.py:PilotStage.pilot"]}
{"id": "C80", "title": "Footprint boundaries are written completely", "statement": "The CSV file of a footprint lists the vertices of its polygon, from which the closed boundary can be restored.", "quantifier": "all polygons and multi-polygons", "why_tests_cant": "all geometries", "anchors": ["instancespace/_serialisers.py:save_instance_space_to_csv"]}
{"id": "C81", "title": "Colour scaling maps onto 0 to 255 preserving order", "statement": "Scaled colour values are integers from 0 to 255, preserve the order of the data within a column (globally for the global scale), and map the minimum to 0 and the maximum to 255.", "quantifier": "all matrices with nonconstant columns", "why_tests_cant": "all inputs", "anchors": ["instancespace/_serialisers.py:_colour_scale", "instancespace/_serialisers.py:_colour_scale_g"]}
{"id": "C82", "title": "CSV export succeeds for every model the pipeline produces", "statement": "save_to_csv writes all files for every Model returned by the default pipeline.", "quantifier": "all data sets and selections of features", "why_tests_cant": "depends on what SIFTED dropped", "anchors": ["instancespace/_serialisers.py:save_instance_space_to_csv", "instancespace/stages/sifted.py:SiftedStage._sifted", "instancespace/model.py:Model.save_to_csv"]}
{"id": "C83", "title": "The zip archive contains every file", "statement": "save_zip stores every output file that is not ignored under its own name, so that unpacking restores the files.", "quantifier": "all directory trees and ignore lists", "why_tests_cant": "all trees", "anchors": ["instancespace/model.py:Model.save_zip"]}
{"id": "C84", "title": "Prerequisites hold for the current run, not only for an earlier one", "statement": "After a run has been started anew with run_all, run_stage succeeds for a stage only if every stage of every earlier schedule element has been run successfully since that start.", "quantifier": "every history, every pipeline, every sequence of run_stage calls after the restart", "why_tests_cant": "the failure needs a particular interleaving of a failed restart and single stage calls; tests use fresh runners", "anchors": ["instancespace/stage_runner.py:StageRunner._rollback_to_schedule_index", "instancespace/stage_runner.py:StageRunner._progress_schedule"]}
{"id": "C85", "title": "The runner's bookkeeping never goes out of range", "statement": "No call of run_stage, run_all or run_until_stage on a runner returned by build raises IndexError, and run_all and run_until_stage raise only a missing argument or what a stage raised, never StageRunningError.", "quantifier": "every history of runner calls including failed ones and interleaved generators", "why_tests_cant": "it is an invariant over all call sequences", "anchors": ["instancespace/stage_runner.py:StageRunner.run_stage", "instancespace/stage_runner.py:StageRunner._progress_schedule"]}
{"id": "C86", "title": "A missing performance is never good", "statement": "Whatever the goodness criterion, an algorithm whose performance on an instance is missing is not marked good on that instance.", "quantifier": "all performance matrices with at least one value present per instance, all options, all epsilon from 0 to below 1", "why_tests_cant": "missing values become infinities that go through arithmetic with the best value; sign of the best matters", "anchors": ["instancespace/stages/prelim.py:PrelimStage._prelim"]}
{"id": "C87", "title": "Bounding keeps the present values of a feature with missing entries", "statement": "When outlier bounding is on, a feature value that is present is still a number afterwards, whether or not other entries of that feature are missing.", "quantifier": "all feature columns", "why_tests_cant": "all missing-value patterns; NaN propagation through median and through multiplication by masks", "anchors": ["instancespace/stages/prelim.py:PrelimStage._bound"]}
{"id": "C88", "title": "Normalisation applies to the performance measure PRELIM computes", "statement": "With normalisation on, the y that PRELIM returns is the normalised version of the y it returns with normalisation off and otherwise equal options.", "quantifier": "all performance matrices and options", "why_tests_cant": "relational property over two option settings", "anchors": ["instancespace/stages/prelim.py:PrelimStage.prelim", "instancespace/stages/prelim.py:PrelimStage._normalise"]}
{"id": "C89", "title": "The power transformation only sees positive numbers", "statement": "When no entry is missing or infinite, normalisation shifts each feature so that its smallest value is 1, and all performances by one common amount so that the smallest is the machine epsilon, before calling the Box-Cox transformation; all numbers given to it are positive.", "quantifier": "all finite matrices, every transformation", "why_tests_cant": "all inputs", "anchors": ["instancespace/stages/prelim.py:PrelimStage._normalise"]}
{"id": "C90", "title": "Instance sources are one per row or absent", "statement": "from_data_frame returns no sources exactly when the table has no source column, and otherwise one source per table row, in row order.", "quantifier": "all tables", "why_tests_cant": "includes one-row tables and repeated columns", "anchors": ["instancespace/data/metadata.py:Metadata.from_data_frame"]}
{"id": "C91", "title": "Reading metadata from a file never raises", "statement": "from_csv_file returns the metadata of the table in the file, or None when the file cannot be read or parsed; it raises nothing.", "quantifier": "all outcomes of reading the file", "why_tests_cant": "all failure modes", "anchors": ["instancespace/data/metadata.py:from_csv_file"]}
{"id": "C92", "title": "The correlated boundary lies inside the plain boundary", "statement": "The convex hull of CLOISTER's z_ecorr points is contained in the convex hull of its z_edge points whenever the computation of the latter succeeds.", "quantifier": "all feature matrices, projection matrices, correlations and thresholds", "why_tests_cant": "geometric statement over the reals", "anchors": ["instancespace/stages/cloister.py:CloisterStage.cloister"]}
{"id": "C93", "title": "The correlated boundary encloses every projected instance", "statement": "Every instance projected to the plane lies in the convex hull of CLOISTER's z_ecorr points whenever the hull computation succeeds.", "quantifier": "all feature matrices, projection matrices, correlations and thresholds", "why_tests_cant": "geometric statement over the reals", "anchors": ["instancespace/stages/cloister.py:CloisterStage.cloister", "instancespace/stages/cloister.py:CloisterStage._generate_boundaries"]}
{"id": "C94", "title": "When the footprint analysis completes", "statement": "TRACE completes exactly when no two best-performance footprints overlap in a region that contains more instances of one algorithm than of the other, and then returns the footprints as they were built, for every order in which worker threads finish.", "quantifier": "all data sets, geometries and completion orders", "why_tests_cant": "all geometries and schedules", "anchors": ["instancespace/stages/trace.py:TraceStage._trace", "instancespace/stages/trace.py:TraceStage.contra", "instancespace/stages/trace.py:TraceStage.tight"]}
{"id": "C95", "title": "Impure triangles are cut out of footprints", "statement": "A point of the polygon fitted to a cluster lies in the cluster's alpha shape and in no triangle whose share of good instances is below the purity option, unless every instance is good.", "quantifier": "all clusters, data sets, purities and triangulations", "why_tests_cant": "all geometries", "anchors": ["instancespace/stages/trace.py:TraceStage.fit_poly"]}
{"id": "C96", "title": "A footprint is missing exactly when too few distinct instances are selected", "statement": "A footprint has no polygon exactly when fewer than three distinct instances belong to the selection it is built from.", "quantifier": "all data sets and selections", "why_tests_cant": "all inputs", "anchors": ["instancespace/stages/trace.py:TraceStage.build", "instancespace/stages/trace.py:TraceStage.throw"]}
{"id": "C97", "title": "PYTHIA handles every portfolio size", "statement": "PYTHIA completes for every portfolio with at least one algorithm, provided that every training succeeds and that each algorithm is good on some instances and bad on others.", "quantifier": "all portfolio sizes, data sets and predictions", "why_tests_cant": "all sizes and predictions", "anchors": ["instancespace/stages/pythia.py:PythiaStage.pythia", "instancespace/stages/pythia.py:PythiaStage._determine_selections", "instancespace/stages/pythia.py:PythiaStage._generate_summary"]}
{"id": "C98", "title": "PYTHIA's outputs belong to the algorithm at the same position", "statement": "Column i of each per-instance output and entry i of each list returned by PYTHIA come from the model of algorithm i; row i of cvcmat counts its cross-validated predictions by outcome and adds up to the number of instances.", "quantifier": "all numbers of algorithms and instances, all predictions", "why_tests_cant": "loop over arbitrarily many algorithms", "anchors": ["instancespace/stages/pythia.py:PythiaStage.pythia"]}
{"id": "C99", "title": "The measures reported as cross-validated are cross-validated", "statement": "The columns CV_model_accuracy, CV_model_precision and CV_model_recall of the PYTHIA summary are computed from cross-validated predictions.", "quantifier": "all predictions", "why_tests_cant": "all predictions", "anchors": ["instancespace/stages/pythia.py:PythiaStage.pythia", "instancespace/stages/pythia.py:PythiaStage._generate_summary"]}
{"id": "C100", "title": "Cost-sensitive weights are positive and grow with the distance to the mean", "statement": "With UseWeights every weight is a positive number, and a performance that is nearer to the average never gets a larger weight than one further away.", "quantifier": "all performance matrices", "why_tests_cant": "all inputs", "anchors": ["instancespace/stages/pythia.py:PythiaStage.pythia"]}
{"id": "C101", "title": "PYTHIA leaves the caller's performances unchanged", "statement": "Calling PythiaStage.pythia does not change the performance array passed in.", "quantifier": "all data sets", "why_tests_cant": "all inputs", "anchors": ["instancespace/stages/pythia.py:PythiaStage._generate_summary"]}
{"id": "C102", "title": "Pre-calculated hyper-parameters are used", "statement": "When a matrix of hyper-parameters with one row per algorithm and two columns is given, PYTHIA trains the models with these values.", "quantifier": "all matrices, libraries and data sets", "why_tests_cant": "all inputs", "anchors": ["instancespace/stages/pythia.py:PythiaStage._check_precalcparams", "instancespace/stages/pythia.py:PythiaStage.pythia", "instancespace/stages/pythia.py:PythiaStage._fitmatsvm"]}
{"id": "C103", "title": "Hyper-parameter candidates lie between 2^-10 and 2^4", "statement": "Every generated candidate for C and gamma lies in [2^-10, 2^4), there is one per sample, and their order is the order of the samples.", "quantifier": "all samples in [0,1)", "why_tests_cant": "all reals", "anchors": ["instancespace/stages/pythia.py:PythiaStage._generate_params"]}
{"id": "C104", "title": "SIFTED works with the density filter", "statement": "With the density option and dense data, SIFTED returns the filtered data for every data set it can handle without the option.", "quantifier": "all libraries, data sets and options", "why_tests_cant": "all inputs", "anchors": ["instancespace/stages/sifted.py:SiftedStage._sifted"]}
{"id": "C105", "title": "featsel.idx lists the selected features", "statement": "The output idx, documented as the indices of the feature selection, lists the input columns that x contains.", "quantifier": "all data sets and options", "why_tests_cant": "all inputs", "anchors": ["instancespace/stages/sifted.py:SiftedStage._sifted", "instancespace/data/model.py:FeatSel"]}
{"id": "C106", "title": "SIFTED keeps at least two features", "statement": "With at most one feature SIFTED raises NotEnoughFeatureError, two or three features pass unchanged, and in every case where it returns there are at least two features and no more than in the input.", "quantifier": "all libraries, data sets and options", "why_tests_cant": "all inputs, stochastic search", "anchors": ["instancespace/stages/sifted.py:SiftedStage._sifted", "instancespace/stages/sifted.py:SiftedStage._find_best_combination"]}
{"id": "C107", "title": "The reported error and performance belong to the returned projection", "statement": "In numerical mode the error output equals the optimiser's mean squared error of the chosen try times the number of values, and the chosen try's performance is that of the returned z.", "quantifier": "all data sets, tries and optimiser results", "why_tests_cant": "all real parameter vectors", "anchors": ["instancespace/stages/pilot.py:PilotStage.numerical_solve", "instancespace/stages/pilot.py:PilotStage.pilot", "instancespace/stages/pilot.py:PilotStage.error_function"]}
{"id": "C108", "title": "The analytic solution minimises the projection error", "statement": "In analytic mode no other matrices a, b and c have a smaller sum of squared reconstruction errors.", "quantifier": "all data matrices of full column rank", "why_tests_cant": "optimality over all matrices", "anchors": ["instancespace/stages/pilot.py:PilotStage.analytic_solve"]}
{"id": "C109", "title": "PILOT's summary shows the projection matrix", "statement": "The summary has the rows Z_{1} and Z_{2} and one column per feature, in order, with its label and its two coefficients of a.", "quantifier": "all data sets and both modes", "why_tests_cant": "all inputs", "anchors": ["instancespace/stages/pilot.py:PilotStage.pilot"]}
{"id": "C110", "title": "Saving does not change the model", "statement": "save_to_csv leaves the Model as it was, so that it can be inspected or saved again afterwards.", "quantifier": "all models", "why_tests_cant": "aliasing of data frames inside a frozen dataclass is not visible in the written files", "anchors": ["instancespace/_serialisers.py:save_instance_space_to_csv", "instancespace/model.py:Model.save_to_csv"]}
{"id": "C111", "title": "Every exported CSV file holds the data of its name", "statement": "After a successful save_to_csv each file contains, cell by cell, the matrix it is named after, rows named by the instance labels and columns by the feature or algorithm labels; a footprint file exists exactly for the footprints with a polygon.", "quantifier": "all models whose arrays fit their labels; for footprints, distinct algorithm names", "why_tests_cant": "all shapes and values", "anchors": ["instancespace/_serialisers.py:save_instance_space_to_csv", "instancespace/_serialisers.py:_write_array_to_csv"]}
{"id": "C112", "title": "The web export succeeds for every model the pipeline produces", "statement": "save_for_web writes the colour table and the seven colour files for every Model.", "quantifier": "all models", "why_tests_cant": "depends on what SIFTED dropped", "anchors": ["instancespace/_serialisers.py:save_instance_space_for_web", "instancespace/model.py:Model.save_for_web"]}
{"id": "C113", "title": "Plotted values are normalised to the unit interval", "statement": "The values drawn in the feature plots and in the individually and globally normalised performance plots lie between 0 and 1.", "quantifier": "all finite columns that are not constant", "why_tests_cant": "all data; only the picture is visible", "anchors": ["instancespace/_serialisers.py:save_instance_space_graphs"]}
{"id": "C114", "title": "The portfolio plot shows every instance under its best algorithm", "statement": "In the portfolio plots every instance is drawn once, under the name of its best (or predicted best) algorithm, or as None if there is none.", "quantifier": "all portfolios", "why_tests_cant": "all portfolios; only the picture is visible", "anchors": ["instancespace/_serialisers.py:_draw_portfolio_selections"]}
{"id": "C115", "title": "The portfolio footprint plot draws each algorithm's footprint with its instances", "statement": "The footprint drawn together with the instances of an algorithm is the best footprint of that algorithm.", "quantifier": "all portfolios", "why_tests_cant": "all portfolios; only the picture is visible", "anchors": ["instancespace/_serialisers.py:_draw_portfolio_footprint"]}
{"id": "C116", "title": "Stages are scheduled as early as possible", "statement": "In every schedule returned by build, a stage that is not in element j or an earlier element was held back for a reason: at j one of its inputs was not yet available, or one of its inputs is mutated by another pending stage that was itself ready at j. No stage is delayed without such a reason.", "quantifier": "all builders without duplicate stages, all initial inputs, all enumeration orders of sets, all stages and elements", "why_tests_cant": "A test compares one pipeline's schedule; maximality of every element is a statement about all pipelines and all mutation patterns.", "anchors": ["instancespace/stage_builder.py:185-230", "instancespace/stage_builder.py:350-394"]}
{"id": "C117", "title": "A missing-inputs error is genuine", "statement": "If build raises the StageResolutionError about missing inputs (and every stage has an output) then no order of the stages would find all its inputs.", "quantifier": "all builders, initial inputs and enumeration orders", "why_tests_cant": "It quantifies over all orders of all pipelines; the failing pipelines need two stages that each mutate what the other reads.", "anchors": ["instancespace/stage_builder.py:232-259", "instancespace/stage_builder.py:350-394"]}
{"id": "C118", "title": "The uniformity score of a subset means what it says", "statement": "For every kept subset of instances the uniformity reported by the filter is at most 1, and it is 1 exactly when every instance is equally far from its nearest neighbour; it does not depend on the order of the instances nor on a common scale of the features; it is a number exactly when at least two instances are kept and one of them is no duplicate of another.", "quantifier": "all matrices of real features, all numbers of instances and features, all reorderings and scale factors", "why_tests_cant": "a test computes the score of a few subsets; the bound, the case of equality and the invariances quantify over all of them", "anchors": ["instancespace/utils/filter.py:99-119"]}
{"id": "C119", "title": "The neighbourhood radius encloses the wanted number of instances on average", "statement": "For every set of m instances the radius computed by epsilon(x, k) is such that, if the instances were spread evenly over their bounding box, a ball of that radius would contain k of them: m times the volume of the ball equals k times the volume of the box.", "quantifier": "all numbers of instances, all dimensions, all real coordinates, all k", "why_tests_cant": "a test compares the formula with itself on a few points; the meaning of the Gamma function factor for every dimension needs the volume of the ball", "anchors": ["instancespace/stages/trace.py:837-857"]}
{"id": "C120", "title": "The clusters depend only on the distances between the instances", "statement": "If two projections of the instances have the same pairwise distances, run_dbscan gives the same labels for both; so rotating, reflecting, shifting or uniformly scaling the instance space does not change the footprints' clusters.", "quantifier": "all numbers of instances, all pairs of isometric real data sets, all selections", "why_tests_cant": "it compares the labels of all pairs of isometric data sets", "anchors": ["instancespace/stages/trace.py:813-834", "instancespace/stages/trace.py:837-857"]}
{"id": "C121", "title": "Three distinct instances close together are enough for a footprint", "statement": "A selection of at least three distinct instances (the minimum build asks for) that all lie within the radius of each other and have a non-empty alpha shape gets a footprint with a non-empty polygon.", "quantifier": "all instances and selections, all geometries, all purity options", "why_tests_cant": "it depends on the interplay of two thresholds in different functions for all selections", "anchors": ["instancespace/stages/trace.py:520-562", "instancespace/stages/trace.py:831", "instancespace/stages/trace.py:926"]}
{"id": "C122", "title": "Normalised columns are standardised, keep the order of values and record how they were made", "statement": "Whatever exponents the optimiser finds, every feature and performance column that is not constant (and has no missing entries) is turned into numbers with mean 0 and sample standard deviation 1, a larger value stays larger, and the recorded minimum, exponent, mean and standard deviation reproduce the result.", "quantifier": "all numbers of instances and columns, all real values, all exponents", "why_tests_cant": "tests check a few columns up to a tolerance; order preservation for every exponent and column is a statement about all of them", "anchors": ["instancespace/stages/prelim.py:470-581"]}
{"id": "C123", "title": "Normalisation turns numbers into numbers", "statement": "If no feature value is missing before normalisation, none is missing afterwards.", "quantifier": "all numbers of instances and columns, all real values, all exponents", "why_tests_cant": "the failing inputs are constant features, which test data avoid", "anchors": ["instancespace/stages/prelim.py:544-551"]}
{"id": "C124", "title": "What a footprint is made of", "statement": "The polygon of a footprint is the (smoothed) union of the polygons of the clusters that DBSCAN found among the distinct selected instances, noise excluded; the polygon of a cluster is the alpha shape of its points without the triangles whose share of good instances is below the purity threshold; the neighbour number asked of DBSCAN is one per twenty selected instances rounded up, at least 3 and at most 50.", "quantifier": "all instance coordinates, all performance columns, all thresholds, all numbers of clusters", "why_tests_cant": "tests compare areas of a few footprints; which clusters and triangles enter is a statement about all of them", "anchors": ["instancespace/stages/trace.py:520-562", "instancespace/stages/trace.py:707-755", "instancespace/stages/trace.py:813-835"]}
{"id": "C125", "title": "A rejected options file is told exactly what is wrong", "statement": "When a group of options is rejected, the error lists exactly the unknown keys (in lower case, in file order) or names the first key that repeats a field; unknown group names are all listed.", "quantifier": "all dictionaries, all twelve groups", "why_tests_cant": "tests look at one wrong key at a time; the claim is about any number and order of wrong keys", "anchors": ["instancespace/data/options.py:584-644", "instancespace/data/options.py:398-433"]}
{"id": "C126", "title": "Loading files gives an instance space or None", "statement": "instance_space_from_files and instance_space_from_directory return an InstanceSpace holding the metadata of the table and the options of the file, or None if one of them cannot be loaded; they never raise.", "quantifier": "all contents of the two files", "why_tests_cant": "the space of malformed files is unbounded", "anchors": ["instancespace/instance_space.py:314-380"]}
{"id": "C127", "title": "No plot overwrites another", "statement": "The plots saved for a model with different feature names and different algorithm names all have different file names, and there is one per feature, five per algorithm and six for the whole.", "quantifier": "all numbers and names of features and algorithms", "why_tests_cant": "a clash needs a particular name, tests use a few fixed names", "anchors": ["instancespace/_serialisers.py:266-394"]}
{"id": "C128", "title": "The good/bad and source plots show every instance once, under the right label", "statement": "In the binary performance, SVM, beta and footprint plots every instance appears exactly once, as GOOD exactly when it is good; the footprint plot of an algorithm shows as GOOD exactly the instances the footprint was built from, with the outlines of that footprint; the source plot shows every instance under its source.", "quantifier": "all models", "why_tests_cant": "pictures are not compared by tests", "anchors": ["instancespace/_serialisers.py:449-484", "instancespace/_serialisers.py:625-718", "instancespace/stages/trace.py:270-311"]}
{"id": "C129", "title": "The drawn outline determines the footprint", "statement": "A reader of the plot can tell which region is the footprint: two footprints with the same drawing are equal.", "quantifier": "all footprints", "why_tests_cant": "pictures are not compared by tests", "anchors": ["instancespace/_serialisers.py:662-678"]}
{"id": "C130", "title": "Every instance is visible in the plots", "statement": "All instances lie within the axes of the plots.", "quantifier": "all coordinates", "why_tests_cant": "pictures are not compared by tests; the failing coordinates are outside the usual range", "anchors": ["instancespace/_serialisers.py:449-718"]}
{"id": "C131", "title": "The Model holds what the stages returned", "statement": "After a successful build every field of the Model has the value that the responsible stage (the last one that returns it) returned in that run under the corresponding name: the three summaries are not mixed up, the data are those after feature selection, the algorithm names those of preprocessing, and data_dense is the dense data of PRELIM.", "quantifier": "all stage implementations, all orders of adding the stages, all set enumerations, all histories of the runner", "why_tests_cant": "tests run one configuration and compare some fields", "anchors": ["instancespace/model.py:48-78", "instancespace/data/model.py:39-493"]}
{"id": "C132", "title": "The stages receive the metadata and the options of the user", "statement": "In every run preprocessing receives the names, labels, sources and tables of the metadata, and every stage with options receives its group with every field as given in the options file (under its name or alias, in any case) or its default; PRELIM receives the fields of perf, bound and norm.", "quantifier": "all option files, all metadata, all stage implementations, all orders of adding stages, all histories of the runner", "why_tests_cant": "tests use one options file; the claim is about every file and every intermediate history", "anchors": ["instancespace/instance_space.py:75-101", "instancespace/data/options.py:715-741"]}
{"id": "C133", "title": "SIFTED reports the correlations it computed", "statement": "The outputs rho and pval hold, for every feature and algorithm, the Pearson coefficient and the p-value over exactly the instances for which both are known.", "quantifier": "all feature and performance matrices, with missing values anywhere", "why_tests_cant": "all patterns of missing values; the array is changed through an alias", "anchors": ["instancespace/stages/sifted.py:SiftedStage._compute_correlation", "instancespace/stages/sifted.py:SiftedStage.select_features_by_performance"]}
{"id": "C134", "title": "Missing values do not stop the correlations", "statement": "SIFTED computes its correlations whatever values are missing.", "quantifier": "all patterns of missing values", "why_tests_cant": "all patterns of missing values", "anchors": ["instancespace/stages/sifted.py:SiftedStage._compute_correlation"]}
{"id": "C135", "title": "PILOT's optimiser minimises the mean reconstruction error", "statement": "The vector searched by the numerical solver stands for the coefficients of the axes, the features and the algorithms, every choice of coefficients being one vector; the objective is the mean squared difference between the data and its reconstruction; the returned coefficients are those of a vector the optimiser reached.", "quantifier": "all data without missing values, all coefficients", "why_tests_cant": "all matrices; a wrong layout still converges", "anchors": ["instancespace/stages/pilot.py:PilotStage.error_function", "instancespace/stages/pilot.py:PilotStage.numerical_solve", "instancespace/stages/pilot.py:PilotStage.pilot"]}
{"id": "C136", "title": "The PYTHIA summary describes each algorithm in its row", "statement": "The rows of the summary are the algorithms in order, Oracle and Selector; an algorithm's row shows its average performance, the share of instances on which it is good, its average performance where it is predicted good and its hyper-parameters; the oracle's row shows the average of the best performances and probability 1.", "quantifier": "all portfolios of two or more algorithms, all data", "why_tests_cant": "all data", "anchors": ["instancespace/stages/pythia.py:PythiaStage._generate_summary"]}
{"id": "C137", "title": "A plugin that only observes disturbs nothing", "statement": "After adding a stage that reads arguments the pipeline provides and writes only arguments with new names, the pipeline can still be built, the other stages run in the same order and every other value of the result is the same, unless the added stage raises.", "quantifier": "all pipelines that can be built, all such stages, all stage implementations and enumeration orders", "why_tests_cant": "all pipelines and plugins; set enumeration orders", "anchors": ["instancespace/stage_builder.py:StageBuilder.build", "instancespace/stage_builder.py:StageBuilder.add_stage", "instancespace/stage_runner.py:StageRunner.run_all", "example_plugin.py:ExamplePlugin"]}
{"id": "C138", "title": "A stage receives the most recent values", "statement": "In every run_all each stage receives, for each of its inputs, the value returned last under that name earlier in the same run, or the initial value if none was; the result holds the most recent value of every name. In the default pipeline PRELIM works on the preprocessed data, SIFTED on PRELIM's, PILOT on the features SIFTED selected, CLOISTER and PYTHIA on PILOT's projection, TRACE on PYTHIA's selection.", "quantifier": "all pipelines, histories, stage implementations and initial values, also for runs that fail", "why_tests_cant": "all histories and implementations; a stale value looks plausible", "anchors": ["instancespace/stage_runner.py:StageRunner.run_stage", "instancespace/stage_runner.py:StageRunner.run_all"]}
{"id": "C139", "title": "Improving a performance never hurts", "statement": "When one performance of an instance improves and everything else stays as it is, that algorithm does not stop being good on the instance, and no other algorithm becomes good on it.", "quantifier": "all rows of performances, algorithms, improvements, options and thresholds between 0 and 1", "why_tests_cant": "relates two runs over all inputs; fails only where the best value changes sign or reaches zero", "anchors": ["instancespace/stages/prelim.py:PrelimStage._prelim"]}
{"id": "C140", "title": "Verdicts do not depend on the unit", "statement": "Multiplying all performances by one positive factor (seconds to milliseconds) changes no relative verdict: the same algorithms are good, the same one is best, and beta and the relative performances are the same.", "quantifier": "all rows of performances, positive factors and options", "why_tests_cant": "relates two runs over all inputs and factors", "anchors": ["instancespace/stages/prelim.py:PrelimStage._prelim", "instancespace/stages/prelim.py:PrelimStage._select_best_algorithms"]}
{"id": "C141", "title": "The order of the algorithms is irrelevant", "statement": "Listing the algorithms in another order reorders the columns of the verdicts and relative performances in the same way and changes neither the best performance nor the number of good algorithms nor beta; if a single algorithm is best on an instance, p still names it (outside the exception of C38).", "quantifier": "all rows, permutations and options", "why_tests_cant": "all permutations of all inputs", "anchors": ["instancespace/stages/prelim.py:PrelimStage._prelim", "instancespace/stages/prelim.py:PrelimStage._select_best_algorithms"]}
{"id": "C142", "title": "The order of the instances is irrelevant to PRELIM", "statement": "Listing the instances in another order reorders all rows of PRELIM's results in the same way: verdicts, processed features and processed performances. The verdicts on an instance do not depend on which other instances are present at all.", "quantifier": "all matrices, permutations, options, and all normalisations that do not look at the order", "why_tests_cant": "all permutations of all inputs", "anchors": ["instancespace/stages/prelim.py:PrelimStage._prelim", "instancespace/stages/prelim.py:PrelimStage._bound", "instancespace/stages/prelim.py:PrelimStage._normalise"]}
{"id": "C143", "title": "Values keep their names on the way through the stages", "statement": "Every value a stage is given reaches the function that computes with it under its own name (or a documented renaming), also through wrappers, constructors and tuple unpackings, and every field of a stage's output is filled from the variable of its name; no two arguments or results are ever swapped.", "quantifier": "all values of all inputs and all behaviours of the computing functions", "why_tests_cant": "Many of the values handed over have the same type and shape, so that a swap of two positional arguments is invisible to a type checker and to tests that do not compare every field.", "anchors": ["instancespace/stages/preprocessing.py:139-188", "instancespace/stages/prelim.py:216-377", "instancespace/stages/sifted.py:356-485", "instancespace/stages/sifted.py:567-711", "instancespace/stages/pilot.py:125-318", "instancespace/stages/pythia.py:272-281", "instancespace/stages/pythia.py:412-511", "instancespace/stages/cloister.py:143-199", "instancespace/stages/trace.py:270-350", "instancespace/stages/trace.py:512-518"]}
{"id": "C144", "title": "A coarser filter keeps fewer instances", "statement": "Raising min_distance never raises the number of instances which the instance filter leaves, for each of the four filter types.", "quantifier": "all instance matrices, all filter types, all pairs of thresholds d <= d'", "why_tests_cant": "The filter is greedy, so monotonicity fails only for particular geometric configurations and orders; a test tries a few thresholds on one data set.", "anchors": ["instancespace/utils/filter.py:filter_instance", "instancespace/stages/preprocessing.py:PreprocessingStage"]}
{"id": "C145", "title": "The number of instances left does not depend on their order", "statement": "Permuting the instances does not change how many of them the instance filter leaves.", "quantifier": "all instance matrices, permutations, filter types and thresholds", "why_tests_cant": "all permutations of all inputs", "anchors": ["instancespace/utils/filter.py:filter_instance"]}
{"id": "C146", "title": "Bounding twice is bounding once", "statement": "Applying the outlier bounding to already bounded features changes nothing, and the bounds it reports the second time are those of the first.", "quantifier": "all feature columns, of any length, with or without missing entries", "why_tests_cant": "The bounds are computed from the data they change; that clamping never moves the median and the quartiles is a fact about all columns.", "anchors": ["instancespace/stages/prelim.py:PrelimStage._bound"]}
{"id": "C147", "title": "A feature that varies still varies after bounding", "statement": "If two instances differ in a feature, then after removing extreme outliers some two instances still differ in it.", "quantifier": "all feature columns of numbers", "why_tests_cant": "holds for well spread test data and fails for sparse features", "anchors": ["instancespace/stages/prelim.py:PrelimStage._bound"]}
{"id": "C148", "title": "The plain boundary is the shadow of the feature box", "statement": "The area inside z_edge consists exactly of the projections of all feature vectors whose entries lie between the smallest and the largest observed value; hence more instances never shrink it and neither the order nor repetitions of instances matter.", "quantifier": "all feature matrices, projections, options, and all hull computations that return the vertices of the hull", "why_tests_cant": "an equality of sets of points for all inputs", "anchors": ["instancespace/stages/cloister.py:CloisterStage._generate_boundaries", "instancespace/stages/cloister.py:CloisterStage.cloister"]}
{"id": "C149", "title": "A higher correlation threshold never shrinks the boundary with correlations", "statement": "Raising the correlation threshold, or lowering the significance level, so that fewer correlations constrain the boundary, never makes the area inside z_ecorr smaller.", "quantifier": "all feature matrices, correlations, projections and thresholds", "why_tests_cant": "relates two runs for all inputs; fails only where the fallback sets in", "anchors": ["instancespace/stages/cloister.py:CloisterStage._compute_correlation", "instancespace/stages/cloister.py:CloisterStage._generate_boundaries", "instancespace/stages/cloister.py:CloisterStage.cloister"]}
{"id": "C150", "title": "An algorithm that is not the best does not affect the verdicts on the others", "statement": "Adding to the portfolio an algorithm whose performance on an instance is missing or no better than another one's leaves the best performance, the verdicts on the other algorithms and their transformed performances unchanged, and p names the same algorithm.", "quantifier": "all rows of performances, all options, all positions of the new algorithm", "why_tests_cant": "quantifies over all portfolios and all additions; the exception needs a best performance of exactly 0 and two performances equal to the machine epsilon", "anchors": ["instancespace/stages/prelim.py:PrelimStage._prelim", "instancespace/stages/prelim.py:PrelimStage._select_best_algorithms"]}
{"id": "C151", "title": "The analytic projection is determined by the data", "statement": "In analytic mode, with distinct eigenvalues, any libraries that keep their contracts give the same projection for the same data, in whatever order instances, features and algorithms are listed, except that each axis may be mirrored.", "quantifier": "all data with distinct eigenvalues, all permutations, all libraries that keep their contracts", "why_tests_cant": "quantifies over all conforming eigen-decompositions (signs and order are up to the library) and all reorderings", "anchors": ["instancespace/stages/pilot.py:PilotStage.analytic_solve"]}
{"id": "C152", "title": "The order of the instances is irrelevant to PILOT", "statement": "Listing the instances in another order gives the same projection, errors and correlations and the same point for each instance, in both modes; and the same exception if there is one.", "quantifier": "all data, all permutations of the instances, all options, all libraries", "why_tests_cant": "quantifies over all permutations and all behaviours of the optimiser", "anchors": ["instancespace/stages/pilot.py:PilotStage.pilot", "instancespace/stages/pilot.py:PilotStage.numerical_solve", "instancespace/stages/pilot.py:PilotStage.analytic_solve"]}
{"id": "C153", "title": "Preprocessing twice is preprocessing once", "statement": "Giving the output of the preprocessing stage back to the stage with the same options changes nothing.", "quantifier": "for all data with matching shapes and distinct labels, and all selections of features and algorithms", "why_tests_cant": "Whether removing features creates new empty instances, and whether removing these makes further features sparse, depends on the pattern of missing values; a test fixes one pattern.", "anchors": ["instancespace/stages/preprocessing.py:231-275", "instancespace/stages/preprocessing.py:329-354"]}
{"id": "C154", "title": "The order of the instances is irrelevant to preprocessing", "statement": "With the rows of the metadata in another order, preprocessing keeps the same features and algorithms and the same instances with the same values, labels and sources, in another order, and it fails in the same cases.", "quantifier": "for all data with matching shapes, all selections and all orders of the instances", "why_tests_cant": "The claim compares runs on all n! orders of every data set.", "anchors": ["instancespace/stages/preprocessing.py:139-188", "instancespace/stages/preprocessing.py:279-365"]}
{"id": "C155", "title": "Each footprint is about the right instances", "statement": "The space footprint is about all instances, the hard one about the instances with beta false, the good footprint of an algorithm about the instances whose row of y_bin marks it, and the best footprint about the instances whose p names it: a footprint is missing exactly if its instances have fewer than three different points, its elements are the instances in its polygon, its good elements those of them it is about. The good footprint of an algorithm depends on no other column of y_bin.", "quantifier": "for all coordinates, performances, numbers of algorithms, geometries with the stated laws, and orders in which the workers finish", "why_tests_cant": "Quantifies over all data, all columns and all completion orders; a test fixes one data set and sees one interleaving.", "anchors": ["instancespace/stages/trace.py:TraceStage.process_algorithm", "instancespace/stages/trace.py:TraceStage.build", "instancespace/stages/trace.py:TraceStage.trace"]}
{"id": "C156", "title": "The footprint summary shows each algorithm's own footprints under their names", "statement": "The summary table of TRACE has one row per algorithm, in order, with its label; under each column name is the measure of that name of the algorithm's own good or best footprint, the normalised ones divided by those of the whole space. An algorithm that is good on every instance has normalised area, normalised density and purity 1. Fewer footprints than labels are an IndexError.", "quantifier": "for all data, geometries with the stated laws, labels and completion orders", "why_tests_cant": "Quantifies over all portfolios and all data; a test with one algorithm or symmetric data cannot tell rows, columns or normalisations apart.", "anchors": ["instancespace/stages/trace.py:TraceStage._trace", "instancespace/stages/trace.py:TraceStage.summary"]}
{"id": "C157", "title": "The order of the algorithms is irrelevant to PYTHIA's recommendations", "statement": "Listing the same algorithms, with the same trained models, in another order recommends the same algorithm for every instance.", "quantifier": "for all data, all numbers and orders of algorithms, all training results", "why_tests_cant": "The claim compares runs on all orders of all portfolios.", "anchors": ["instancespace/stages/pythia.py:PythiaStage._determine_selections", "instancespace/stages/pythia.py:PythiaStage.pythia"]}
{"id": "C158", "title": "Orders are irrelevant to the selection by correlation", "statement": "Which features SIFTED selects by correlation does not depend on the order in which the instances, the algorithms or the features are listed.", "quantifier": "for all data, all thresholds, all permutations", "why_tests_cant": "The claim compares runs on all permutations of all data sets.", "anchors": ["instancespace/stages/sifted.py:SiftedStage.select_features_by_performance", "instancespace/stages/sifted.py:SiftedStage._compute_correlation"]}
{"id": "C159", "title": "A higher correlation threshold never selects more features", "statement": "Raising the threshold on the correlations with performance leaves the correlations as they are and never adds a feature to those selected by correlation.", "quantifier": "for all data and all pairs of thresholds", "why_tests_cant": "Monotonicity is a relation between all pairs of thresholds on all data.", "anchors": ["instancespace/stages/sifted.py:SiftedStage.select_features_by_performance"]}
{"id": "C160", "title": "The order of instances and features is irrelevant to CLOISTER", "statement": "Giving CLOISTER the same instances in another order (or some of them twice, with the same correlations) returns exactly the same boundaries, and reordering the features everywhere returns boundaries that enclose the same areas.", "quantifier": "all orders, all numbers of instances and features, all projections and correlations", "why_tests_cant": "tests compare with one recorded result in one order", "anchors": ["instancespace/stages/cloister.py:161-199", "instancespace/stages/cloister.py:288-348"]}
{"id": "C161", "title": "The title of a plot names what it shows", "statement": "Every saved plot carries the name of its feature or algorithm, with underscores printed as blanks, or the fixed title of its file; and plots of different algorithms have different titles.", "quantifier": "all models and all names", "why_tests_cant": "pictures are not compared by tests", "anchors": ["instancespace/_serialisers.py:297-394"]}
{"id": "C162", "title": "The data of the Model are about the right cells of the metadata table", "statement": "After a successful run on a metadata table, row k of every array of the Model's data belongs to one and the same row of the table: label k is that row's entry in the instances column, y_bin[k][j], p[k], y_best[k] and y_raw[k][j] are what the options say about the cells of that row in the columns named by the algorithm labels, and x[k][j] is made from the cells in the column named by feature label j.", "quantifier": "all tables with distinct column names, all lists of wanted features and algorithms, all PRELIM options, all results of the library calls, all orders of adding the stages and all histories of the runner", "why_tests_cant": "the claim crosses four components that each drop or reorder rows and columns; a test compares a few arrays with stored ones and cannot see that the pairing of names and columns holds for every combination of missing values, lists and selected features", "anchors": ["instancespace/data/metadata.py:Metadata.from_data_frame", "instancespace/instance_space.py:InstanceSpace.build", "instancespace/stages/preprocessing.py:PreprocessingStage._run", "instancespace/stages/prelim.py:PrelimStage._prelim", "instancespace/stages/sifted.py:SiftedStage._sifted", "instancespace/model.py:Model.from_stage_runner_output"]}
{"id": "C163", "title": "What the Model says about an instance's performance depends on that instance only", "statement": "In runs without a subset of the instances, the verdicts y_bin, the best algorithm p, y_best, num_good_algos, beta and y_raw of an instance depend only on its own performances, the columns of the table, the PRELIM options and the list of wanted algorithms: other rows of the table, the features, the other options, the order of the stages and the random choices of the libraries do not matter.", "quantifier": "all pairs of tables with the same columns, all pairs of rows with the same performances, all other options and library results", "why_tests_cant": "a two-run property over all tables: tests rerun fixed tables and never change the rows of other instances", "anchors": ["instancespace/stages/prelim.py:PrelimStage._prelim", "instancespace/stages/preprocessing.py:PreprocessingStage._run", "instancespace/instance_space.py:InstanceSpace.build"]}
{"id": "C164", "title": "PILOT returns a result", "statement": "For every data set with at least one instance and independent features, PILOT returns a projection: in numerical mode with at least one try, in analytic mode always.", "quantifier": "all data sets, all options, all libraries that keep their contracts", "why_tests_cant": "all data sets of all sizes", "anchors": ["instancespace/stages/pilot.py:PilotStage.pilot", "instancespace/stages/pilot.py:PilotStage.numerical_solve", "instancespace/stages/pilot.py:PilotStage.analytic_solve"]}
{"id": "C165", "title": "The order of the rows of the metadata table is irrelevant", "statement": "If the rows of the metadata table are listed in another order and the pipeline is run again with the same options, the Model holds the same instances with the same labels, sources, raw and processed data, verdicts, best algorithms, counts and flags, only listed in another order, one order for all of them; the algorithms are the same, and if the feature selection picks the same features, the features are the same as well.", "quantifier": "all metadata tables, all orders of their rows, all options without a subset of the instances, all schedules of the stages, all histories of the runner", "why_tests_cant": "The claim compares two runs for every table and every permutation of its rows; a test compares a few permutations of one table, and a single array that is not reordered along with the others goes unnoticed unless the test looks at it.", "anchors": ["instancespace/data/metadata.py:Metadata.from_data_frame", "instancespace/stages/preprocessing.py:PreprocessingStage._run", "instancespace/stages/prelim.py:PrelimStage._run", "instancespace/stages/sifted.py:SiftedStage._run", "instancespace/utils/filter.py:filter_instance"]}
{"id": "C166", "title": "The exported CSV files show the cells of the metadata table", "statement": "After a successful run and a successful export, each line of algorithm_raw.csv, feature_raw.csv, algorithm_bin.csv, portfolio.csv, good_algos.csv, beta_easy.csv, feature_process.csv and algorithm_process.csv is about one kept row of the metadata table, in the order of the table, begins with the label of that row, and under the name of an algorithm or feature it shows what belongs to the cell of the table in that row and in the column of that name: its value, whether it is good, the first best algorithm of the row, the number of good ones, and the processed value.", "quantifier": "all metadata tables, all options without a subset of the instances, all schedules, all histories of the runner, all results of the last four stages with which the export succeeds", "why_tests_cant": "The statement joins a cell of the input file with a cell of an output file through six stages, the Model and the export, for every table; a test compares the files of one data set with files made by an earlier run of the same code.", "anchors": ["instancespace/model.py:Model.save_to_csv", "instancespace/_serialisers.py:save_instance_space_to_csv", "instancespace/data/model.py:Data.from_stage_runner_output", "instancespace/data/metadata.py:Metadata.from_data_frame", "instancespace/stages/prelim.py:PrelimStage._run", "instancespace/stages/sifted.py:SiftedStage._run"]}
{"id": "C167", "title": "The exported files about the projection agree with each other", "statement": "After a successful run and export, coordinates.csv has the same row names as feature_process.csv, in the same order, the columns of projection_matrix.csv are named like those of feature_process.csv, in the same order, and each coordinate of an instance is the sum of the entries of its row of projection_matrix.csv times the entries of its row of feature_process.csv: a reader can project the processed features themself and gets the exported coordinates.", "quantifier": "all metadata tables, options, schedules and histories of the runner with which the run and the export succeed, all results of the optimiser", "why_tests_cant": "The claim ties three output files together for every data set; a test compares the files of one data set with recorded files, and would accept a matrix in another order of the features if the record has it too.", "anchors": ["instancespace/stages/pilot.py:PilotStage.pilot", "instancespace/stages/pilot.py:PilotStage._run", "instancespace/_serialisers.py:save_instance_space_to_csv"]}
{"id": "C168", "title": "The exported boundary encloses exactly what the features can reach", "statement": "After a successful run and export, the outline of bounds.csv contains every instance of coordinates.csv; it consists of exactly those points of the plane onto which projection_matrix.csv maps some choice of feature values, each between the least and the greatest value of its column of feature_process.csv; and the outline of bounds_prunned.csv lies inside it.", "quantifier": "all metadata tables, options, schedules and histories of the runner with which the run and the export succeed, all correct convex hull routines", "why_tests_cant": "The set of choices of feature values is infinite and the claim is an equality of sets in the plane, made on four exported files at once; a test checks a few points.", "anchors": ["instancespace/stages/cloister.py:CloisterStage.cloister", "instancespace/stages/cloister.py:CloisterStage._generate_boundaries", "instancespace/stages/pilot.py:PilotStage.pilot", "instancespace/_serialisers.py:save_instance_space_to_csv"]}
{"id": "C169", "title": "The exported selections can be read and recomputed", "statement": "After a successful run and export, the number of an instance in portfolio_svm.csv can be recomputed from algorithm_bin.csv and algorithm_svm.csv alone: it is the number, counted from 1 as in portfolio.csv, of the first algorithm with the highest precision among those predicted good on the instance, and 0 if none is predicted good with a positive precision.", "quantifier": "all metadata tables, options, schedules and histories of the runner with which the run and the export succeed, all models that the training can return", "why_tests_cant": "The claim relates three files for every data set and every trained model; the numbering of the selections is only wrong in relation to another file, which no test of one file shows.", "anchors": ["instancespace/stages/pythia.py:PythiaStage.pythia", "instancespace/stages/pythia.py:PythiaStage._determine_selections", "instancespace/_serialisers.py:save_instance_space_to_csv"]}
{"id": "C170", "title": "The exported table of the models agrees with the other files", "statement": "After a successful run and export, svm_table.csv has one line for each algorithm, in the order of the columns of the other files, and under the headings of average performance, probability of good, average performance on the selected instances, accuracy, precision and recall it shows what is computed under these names from the columns of the algorithm in algorithm_raw.csv, algorithm_bin.csv and algorithm_svm.csv, rounded.", "quantifier": "all metadata tables, options, schedules and histories of the runner with which the run and the export succeed, all models that the training can return", "why_tests_cant": "The claim joins four files cell by cell for every data set; a test compares the table with a recorded one made by the same code, headings included.", "anchors": ["instancespace/stages/pythia.py:PythiaStage._generate_summary", "instancespace/stages/pythia.py:PythiaStage.pythia", "instancespace/_serialisers.py:save_instance_space_to_csv"]}
{"id": "C171", "title": "The exported footprints agree with the other files", "statement": "After a successful run and export, footprint_performance.csv has one line for each algorithm, and its areas, densities and purities are those of the regions in the footprint files: the good footprint of an algorithm is about the instances marked good in algorithm_bin.csv (algorithm_svm.csv if PYTHIA's results are used), the best footprint about the instances that portfolio.csv (portfolio_svm.csv) assigns to the algorithm, at the places in coordinates.csv.", "quantifier": "all metadata tables, options, schedules and histories of the runner with which the run and the export succeed, all geometries with the usual laws, all orders in which the threads finish", "why_tests_cant": "The claim joins seven kinds of files for every data set; a test of TRACE passes the portfolio in itself and so cannot notice that the pipeline numbers the algorithms from one.", "anchors": ["instancespace/stages/trace.py:TraceStage.trace", "instancespace/stages/prelim.py:PrelimStage.prelim", "instancespace/_serialisers.py:save_instance_space_to_csv"]}
{"id": "C172", "title": "Rounding never contradicts the verdicts", "statement": "In IEEE double precision, as numpy computes it: the best performance, the best algorithm and the verdicts with AbsPerf are the exact ones; the best algorithm of an instance is good; an algorithm at least as good as a good one is good; loosening epsilon or improving the own performance never turns a good algorithm bad; and the unit of the performances does not matter if the conversion is exact.", "quantifier": "all options, all rows of performances with a positive finite best performance, all doubles", "why_tests_cant": "Rounding errors depend on every bit of the operands; the claim is about all pairs of doubles.", "anchors": ["instancespace/stages/prelim.py:PrelimStage._prelim"]}
{"id": "C173", "title": "In double precision an algorithm is good exactly if it is within the fraction epsilon of the best", "statement": "With relative performances, computed in double precision, an algorithm is marked good if and only if the fraction by which it falls behind the best one is at most epsilon.", "quantifier": "all rows of doubles with a positive best performance, all epsilon in [0, 1)", "why_tests_cant": "Only inputs whose loss lies within a few rounding errors of epsilon behave differently, and which those are depends on the bits.", "anchors": ["instancespace/stages/prelim.py:PrelimStage._prelim"]}
{"id": "C174", "title": "In double precision an instance is easy exactly if the share of good algorithms exceeds the threshold", "statement": "beta is set for an instance if and only if the share of the algorithms marked good is more than beta_threshold, in double precision; more good algorithms or a lower threshold never clear it.", "quantifier": "all rows, all thresholds in [0, 1] that are doubles", "why_tests_cant": "The product threshold * nalgos is rounded; whether it is rounded across the integer count depends on the bits of the threshold.", "anchors": ["instancespace/stages/prelim.py:PrelimStage._select_best_algorithms"]}
{"id": "C175", "title": "In double precision bounding outliers loses no value and exchanges none", "statement": "Computed in double precision, bounding turns every column of doubles into a column of doubles in the same (weak) order, each value clamped to the computed bounds.", "quantifier": "all columns of doubles of any length", "why_tests_cant": "Quartiles, median and bounds are rounded several times; the claim is about every column and every rounding.", "anchors": ["instancespace/stages/prelim.py:PrelimStage._bound"]}
{"id": "C176", "title": "In double precision normalisation keeps different values different and in order", "statement": "Shifting a feature to start at 1 (a performance at the machine epsilon) before Box-Cox, and the z-score after it, never exchange two values, keep all values positive, and keep different values different.", "quantifier": "all finite columns, all monotone transformations, all finite means and positive deviations", "why_tests_cant": "Whether x - min + 1 swallows a difference depends on the bits of both values.", "anchors": ["instancespace/stages/prelim.py:PrelimStage._normalise"]}
{"id": "C177", "title": "In double precision the colours run from 0 to 255 in the order of the values", "statement": "Computed in double precision, the colours of a column (and of a matrix on the global scale) of doubles that vary are integers from 0 to 255 in the order of the values, 0 for the least and 255 for the greatest value.", "quantifier": "all lists of doubles with two different values", "why_tests_cant": "Rounding could lift a colour above 255, push the greatest value to 254, or make a tiny range zero; only a proof excludes it for all doubles.", "anchors": ["instancespace/_serialisers.py:_colour_scale", "instancespace/_serialisers.py:_colour_scale_g"]}
{"id": "C178", "title": "Shares are compared with decimal thresholds as if there were no rounding", "statement": "Although 0.2 and a purity such as 0.55 are not doubles and shares are rounded, a feature is dropped exactly if one in five of its values is missing, the warning about repeated instances appears exactly if fewer than half are different, and a triangle is cut out of a footprint exactly if its share of good instances is less than the purity as written.", "quantifier": "all counts up to 2^47 instances; all decimal purities a/b with elements * b at most 2^50", "why_tests_cant": "Equality cases such as 11 of 20 against 0.55 only work if two different roundings agree; this has to hold for all counts.", "anchors": ["instancespace/stages/preprocessing.py:PreprocessingStage.remove_instances_with_many_missing_values", "instancespace/stages/trace.py:TraceStage.fit_poly"]}
{"id": "C179", "title": "PYTHIA's recommendations do not depend on rounding", "statement": "Precisions and average goodness are rounded to doubles, but the recommended algorithm is still the first one with the highest exact precision among those predicted good, and the fallback is still the first of those good on most instances.", "quantifier": "all matrices of predictions and labels with up to 2^25 instances and any number of algorithms", "why_tests_cant": "Two different precisions could be rounded to the same double, or equal ones computed from different counts to different doubles, for some rare pair of counts; no sample of counts excludes this.", "anchors": ["instancespace/stages/pythia.py:PythiaStage._determine_selections", "instancespace/stages/pythia.py:PythiaStage.pythia"]}
{"id": "C180", "title": "The instance filter in double precision", "statement": "With computed distances, too, a removed instance is near an earlier kept one, kept instances are further apart than the given distance, repetitions are always recognised, nearness is symmetric, and with the distance 0 only repetitions are removed.", "quantifier": "all data of finite doubles with up to 2^20 features, all distances and types; all instances", "why_tests_cant": "Concerns rounding, underflow and overflow in sums of arbitrarily many squares; tests use few moderate numbers.", "anchors": ["instancespace/utils/filter.py:filter_instance"]}
{"id": "C181", "title": "The clusters of TRACE in double precision", "statement": "With computed distances the clustering still forms proper groups (two points share a label exactly if a chain of near points connects them and the group has a core point), and these groups are those of the exact distances: points of one cluster are connected by steps of length at most eps, and points connected in this way to a core point are in one cluster.", "quantifier": "all finite coordinates, any number of points, all radii and minimal sizes", "why_tests_cant": "The proof of DBSCAN's grouping needs a symmetric and reflexive relation, which rounding could destroy for rare pairs of points; the comparison with exact distances concerns arbitrarily long chains.", "anchors": ["instancespace/stages/trace.py:TraceStage.dist", "instancespace/stages/trace.py:TraceStage.dbscan"]}
{"id": "C182", "title": "The rounded numbers in PYTHIA's table", "statement": "The numbers that PYTHIA's table shows with three decimals are the nearest ones to the numbers they stand for; larger numbers are never shown as smaller ones, rounding the averages twice does no harm, and for small data sets different measures are shown differently.", "quantifier": "all numbers up to 2^38; all shares; data sets with up to 300 instances for the last part", "why_tests_cant": "np.round multiplies, rounds and divides in double precision; its errors show only at rare numbers next to a half.", "anchors": ["instancespace/stages/pythia.py:PythiaStage._generate_summary"]}
{"id": "C183", "title": "The order of the instances is irrelevant to TRACE", "statement": "If the instances are listed in another order (positions, verdicts, best algorithms and flags alike), TRACE completes for one order exactly if it does for the other and returns the same footprints with the same areas, counts, densities and purities.", "quantifier": "all geometries, numbers of instances and algorithms, permutations, and orders in which the worker threads finish", "why_tests_cant": "DBSCAN as a sequential algorithm depends on the order of its points (border points go to the last cluster that reaches them), so the claim rests on every list reaching it sorted; tests compare a few permutations of one data set.", "anchors": ["instancespace/stages/trace.py:TraceStage._trace", "instancespace/stages/trace.py:TraceStage.build", "instancespace/stages/trace.py:TraceStage.contra"]}
{"id": "C184", "title": "The order of the algorithms is irrelevant to TRACE", "statement": "If the algorithms are listed in another order (the columns of the verdicts and the numbers of the best algorithms alike), TRACE completes for one order exactly if it does for the other, and every algorithm keeps its good and best footprints.", "quantifier": "all geometries in which overlaps are symmetric, all portfolios, permutations, and orders in which the worker threads finish", "why_tests_cant": "The contradictions are resolved in pairs in the order of the columns and update the list of footprints in place, so the outcome could depend on the order in rare configurations of overlapping footprints.", "anchors": ["instancespace/stages/trace.py:TraceStage._trace", "instancespace/stages/trace.py:TraceStage.contra", "instancespace/stages/trace.py:TraceStage.process_algorithm"]}
{"id": "C185", "title": "The colours of the web export agree with the CSV files", "statement": "If a Model is saved both as CSV and for the web, every file of colours has the headings and line names of the CSV file with the same data, and its entry is the position of the number between the least and the greatest one of its column (for the files on a common scale: of the whole file), from 0 to 255, rounded down (to the nearest integer), wherever these numbers are complete and not all equal.", "quantifier": "all Models that both exports accept, all cells of the seven files of colours", "why_tests_cant": "The files are written by separate functions from separate copies of the data with their own column selections; tests check the scaling of one matrix or the existence of the files.", "anchors": ["instancespace/_serialisers.py:save_instance_space_for_web", "instancespace/_serialisers.py:save_instance_space_to_csv", "instancespace/_serialisers.py:_colour_scale", "instancespace/_serialisers.py:_colour_scale_g"]}
{"id": "C186", "title": "In double precision the projected coordinates have about sixteen correct digits", "statement": "The coordinates of the instances, the product of their features with the projection matrix computed in double precision, agree with the exact product to about sixteen digits, in whatever order the linear algebra library adds the products.", "quantifier": "all rows of the projection matrix and all instances with finite double precision entries whose products do not overflow, all numbers of features up to 2^20, all orders of summation with and without fused multiply-add", "why_tests_cant": "The order in which BLAS adds, and whether it fuses, depends on the machine and the shape; a test sees one order on a few matrices, and cancellation shows only for special ones.", "anchors": ["instancespace/stages/pilot.py:PilotStage", "instancespace/stages/cloister.py:CloisterStage"]}
{"id": "C187", "title": "The order of the rows of the metadata table is irrelevant to the instance space", "statement": "If the rows of the metadata table are listed in another order and the whole pipeline is run again with the same options and the same features are selected, the projection matrices, PILOT's summary, the boundaries of CLOISTER, the footprints of TRACE with their areas, densities and purities and its summary are the same, and the coordinates of each instance are the same, in one new order for all data of the instances. Footprints made from PYTHIA's predictions are the same if the predictions are.", "quantifier": "all metadata tables, all orders of their rows, all options without a subset of the instances, all schedules of the stages, all histories of the runner, all libraries whose answers do not depend on the order of the instances", "why_tests_cant": "It relates two runs of the whole pipeline for every table and every permutation; a test compares a few shuffles of one table.", "anchors": ["instancespace/stages/pilot.py:PilotStage", "instancespace/stages/cloister.py:CloisterStage", "instancespace/stages/trace.py:TraceStage", "instancespace/instance_space.py:InstanceSpace"]}
{"id": "C188", "title": "The MATLAB file determines the algorithm labels", "statement": "model.mat, which the offline dashboard reads, holds one row of characters for each algorithm in the order of the algorithms, from which the labels can be recovered.", "quantifier": "all lists of labels", "why_tests_cant": "The padding of shorter labels loses information only for labels that end with a space, a case a test with typical names does not contain; that it loses nothing otherwise is a statement about all labels.", "anchors": ["instancespace/_serialisers.py:save_instance_space_output_mat", "instancespace/model.py:Model.save_to_mat"]}
{"id": "C189", "title": "PYTHIA does not depend on how the instance space is drawn", "statement": "PILOT's coordinates have no natural unit, origin or direction. Shifting, stretching or mirroring an axis, or exchanging the axes, gives the support vector machines the same kernel matrix, hence the same classifiers; and so does any two-dimensional picture with the same distances between the instances (a rotation).", "quantifier": "for all instance spaces with any number of instances and axes, both kernels and all values of gamma", "why_tests_cant": "a test compares fitted classifiers on one instance space, where differences of the kernel disappear in the tolerance or do not change a label; that the kernel is the same for every change of the axes, and which changes it is not the same for, needs the algebra of the z-score", "anchors": ["instancespace/stages/pythia.py:PythiaStage._compute_znorm", "instancespace/stages/pythia.py:PythiaStage._fitmatsvm", "instancespace/stages/pythia.py:PythiaStage.pythia"]}
{"id": "C190", "title": "The order of the rows of the metadata table is irrelevant to the exported files", "statement": "Exporting the result for a metadata table and for the same table with its rows in another order gives the same CSV files: the files with one line per instance have the same lines in another order, one order for all files, and the other files (projection matrix, boundaries, footprints, their table) are identical.", "quantifier": "for all metadata tables without subset selection, all orders of the rows, all options, and libraries that do not look at the order of the instances", "why_tests_cant": "a test compares the files of a few tables; the claim is about every table and every order, goes through all seven stages and the export, and depends on assumptions about libraries that have to be made explicit", "anchors": ["instancespace/_serialisers.py:save_instance_space_to_csv", "instancespace/instance_space.py:InstanceSpace.build", "instancespace/stage_runner.py:StageRunner.run_all"]}
{"id": "C191", "title": "A stricter purity gives smaller, purer footprints", "statement": "Raising TRACE's `purity` option leaves the footprint of the whole space as it is and makes the footprint of every algorithm (good and best) and of the hard instances a part of what it was, with no more area and no more instances, and the same footprints are missing; the analysis still completes if it did, and the footprints that still contain instances are at least as pure.", "quantifier": "For all sets of instances, all numbers of algorithms, all orders in which the threads finish, all pairs of purities, and all geometries obeying the laws of inclusion.", "why_tests_cant": "A test compares two purities on one data set; the claim is about every data set and every pair, and its false part shows only when an overlap between two best footprints turns from balanced to unbalanced.", "anchors": ["instancespace/stages/trace.py:TraceStage.fit_poly", "instancespace/stages/trace.py:TraceStage.build", "instancespace/stages/trace.py:TraceStage.contra", "instancespace/data/model.py:Footprint.from_polygon"]}
{"id": "C192", "title": "On clean data a build completes", "statement": "On a metadata table with at least three instances, two features and two algorithms, without missing values, with spread-out features and varied performances, `build` runs through all seven stages and returns a Model; where it does not, the exception comes from SIFTED (only with more than three features), from PYTHIA (only if an algorithm cannot be trained, e.g. because it is good everywhere or bad everywhere) or from TRACE (only if two best footprints overlap unevenly).", "quantifier": "For all tables of any size that are clean in this sense, all orders of adding the stages, all earlier calls of the runner's methods, all thresholds and options that select nothing, and all behaviours of the numerical libraries.", "why_tests_cant": "A test shows that a build completes on its own data set; the claim is that no clean data set makes any other stage raise, receive an argument of the wrong shape, or miss an argument.", "anchors": ["instancespace/instance_space.py:InstanceSpace.build", "instancespace/stage_runner.py:StageRunner.run_all", "instancespace/stages/preprocessing.py:PreprocessingStage._run", "instancespace/stages/prelim.py:PrelimStage._run", "instancespace/stages/sifted.py:SiftedStage._run", "instancespace/stages/pilot.py:PilotStage._run", "instancespace/stages/cloister.py:CloisterStage._run", "instancespace/stages/pythia.py:PythiaStage._run", "instancespace/stages/trace.py:TraceStage._run"]}
{"id": "C193", "title": "Labels, sources and other columns do not influence the results", "statement": "Take two tables with the same features and the same performances, row by row (same names, same order, same numbers), each with one column of instance labels, and either both with one column of sources or both without. The labels, the sources, columns of other kinds, and the way the columns are interleaved may differ. Then run_all raises the same exception on both, or completes on both, and every value in the output is the same, except that labels and sources are those of the same rows of their own table. If labels and sources agree as well, the outcome is the same altogether. Names, sources and comments of instances can therefore be changed freely: the projection, the footprints, the recommendations and the summaries stay what they are.", "quantifier": "for all pairs of such tables with other than one row, all options and library results, all orders in which the stages are added and all calls made on the runner before", "why_tests_cant": "a test compares a few relabelled tables; independence of the labels is a statement about all tables and all labels, through all seven stages", "anchors": ["instancespace/data/metadata.py:Metadata.from_data_frame", "instancespace/stages/preprocessing.py:PreprocessingStage", "instancespace/stages/prelim.py:PrelimStage", "instancespace/stages/sifted.py:SiftedStage", "instancespace/stage_runner.py:StageRunner"]}
{"id": "C194", "title": "The boundary computed in double precision encloses the instances, up to rounding", "statement": "PILOT and CLOISTER compute coordinates in double precision, CLOISTER those of the corners of the feature box and PILOT those of the instances. A boundary that was found encloses every instance. Up to rounding this holds: every instance lies within about sixteen digits of the largest possible coordinate of the region inside the boundary, every point inside the boundary lies within that error of the place of features between values that occur, and if the linear algebra library adds in the same order for every row, then along each axis every instance lies between two vertices exactly.", "quantifier": "For all numbers of features up to 2^20, all instances, all projection matrices whose coordinates cannot overflow, and all orders in which the products are added, with or without fused multiply-add.", "why_tests_cant": "The errors depend on the data and on the order chosen by the library; a test sees one matrix on one machine, and on ordinary data the violation is far below the precision of a plot.", "anchors": ["instancespace/stages/cloister.py:CloisterStage.cloister", "instancespace/stages/cloister.py:CloisterStage._generate_boundaries", "instancespace/stages/cloister.py:CloisterStage._compute_convex_hull", "instancespace/stages/pilot.py:PilotStage.pilot"]}
{"id": "C195", "title": "The model PYTHIA trains for an algorithm depends on that algorithm only", "statement": "What PYTHIA reports about an algorithm (predictions and probabilities on every instance, the chosen hyper-parameters, accuracy, precision and recall) is determined by the coordinates of the instances, the options, and the labels and performances of that algorithm. Adding, removing, reordering or changing other algorithms does not change it.", "quantifier": "For all numbers of algorithms and instances, all performances and labels, all trained classifiers, all generators of candidates, with and without cost-sensitive weights.", "why_tests_cant": "The candidates for each algorithm come from one shared random generator and the weights from the mean over all algorithms; a test on one data set with fixed reference outputs never compares two portfolios.", "anchors": ["instancespace/stages/pythia.py:PythiaStage.pythia", "instancespace/stages/pythia.py:PythiaStage._generate_params", "instancespace/stages/pythia.py:PythiaStage._fitmatsvm"]}
{"id": "C196", "title": "More tries never give a worse projection", "statement": "In numerical mode PILOT starts an optimiser n_tries times and keeps the try with the best performance. A run with a larger n_tries on the same data has a best performance at least as good as the run with the smaller one.", "quantifier": "For all data, all numbers of tries, all optimisers and quality measures, all sequences of random draws and all starting points given by the user.", "why_tests_cant": "The statement compares runs with different settings; tests fix n_tries and the starting points. Whether the tries of the shorter run are repeated depends on how the draws fill the array of starting points.", "anchors": ["instancespace/stages/pilot.py:PilotStage.pilot", "instancespace/stages/pilot.py:PilotStage.numerical_solve"]}
{"id": "C197", "title": "The unit and the zero point of a feature do not matter", "statement": "With automatic normalisation, a feature may be recorded in any unit and from any zero point (degrees Celsius, Kelvin, Fahrenheit): the normalised features, and so the selected features, the projection, the models and the footprints, are the same.", "quantifier": "For all tables of instances, all constants added to the features, all positive factors, all options with normalisation on, all orders of the stages and all earlier calls.", "why_tests_cant": "The statement compares two runs on different numbers, for every table and every change of unit; a test sees one table. Whether the numbers agree depends on the order of shifting, adding 1, taking the power and standardising, and on every later stage reading only the normalised features.", "anchors": ["instancespace/stages/prelim.py:PrelimStage._normalise", "instancespace/stages/prelim.py:PrelimStage._bound", "instancespace/stages/prelim.py:PrelimStage._run", "instancespace/stages/sifted.py:SiftedStage._run", "instancespace/data/metadata.py:Metadata.from_data_frame"]}
{"id": "C198", "title": "An instance that is removed for missing values leaves no trace", "statement": "Leaving out of the metadata the instances that preprocessing removes (no feature value or no performance value among the selected columns) changes nothing: every later result, including which features survive, is the same, and the same exceptions are raised.", "quantifier": "For all metadata whose parts fit together, all selections of features and algorithms, all sets of removed instances, all options, all orders of the stages and all earlier calls.", "why_tests_cant": "It compares two runs for every set of removed instances; a removed row could still be counted in the share of missing values of a feature, in a threshold, or in an index used by a later stage.", "anchors": ["instancespace/stages/preprocessing.py:PreprocessingStage.remove_instances_with_many_missing_values", "instancespace/stages/preprocessing.py:PreprocessingStage._run", "instancespace/instance_space.py:InstanceSpace.build"]}
{"id": "C199", "title": "A feature that is removed leaves no trace", "statement": "Leaving out of the metadata the features that preprocessing does not return (not selected, or missing in a fifth or more of the instances) changes nothing in the results.", "quantifier": "For all metadata with distinct names whose parts fit together, all selections of features and algorithms, all sets of removed features, all options, all orders of the stages and all earlier calls.", "why_tests_cant": "It compares two runs for every set of removed features. Whether a removed feature still matters depends on the order in which instances and features are removed.", "anchors": ["instancespace/stages/preprocessing.py:PreprocessingStage.remove_instances_with_many_missing_values", "instancespace/stages/preprocessing.py:PreprocessingStage.select_features_and_algorithms", "instancespace/instance_space.py:InstanceSpace.build"]}
{"id": "C200", "title": "Every coordinate can be recomputed from what the Model keeps", "statement": "After a run, the two coordinates of every instance are what one gets from the Model alone: take the raw values of the selected features, bound and normalise each with the bounds, minimum, exponent, mean and standard deviation recorded at that feature's position, and add them up weighted with the rows of the projection matrix.", "quantifier": "all tables, options, subsets of instances, libraries and earlier calls of the runner for which the run succeeds", "why_tests_cant": "the relation runs through five arrays made by three stages; a test compares one run up to a tolerance and does not show that the recorded quantities are the ones used for every feature", "anchors": ["instancespace/stages/prelim.py:PrelimStage._run", "instancespace/stages/prelim.py:PrelimStage._bound", "instancespace/stages/prelim.py:PrelimStage._normalise", "instancespace/stages/sifted.py:SiftedStage._run", "instancespace/stages/pilot.py:PilotStage.pilot"]}
{"id": "C201", "title": "The recorded scaling quantities line up with the feature labels", "statement": "Entry j of med_val, iq_range, hi_bound, lo_bound, min_x, lambda_x, mu_x and sigma_x in the Model belongs to feature label j.", "quantifier": "all tables, options and libraries for which the run succeeds without a subset of the instances", "why_tests_cant": "the arrays agree as long as feature selection drops nothing, which is the case in small tests", "anchors": ["instancespace/stages/prelim.py:PrelimStage._prelim", "instancespace/stages/sifted.py:SiftedStage._run", "instancespace/model.py:Model.from_stage_runner_output"]}
{"id": "C202", "title": "Every processed performance can be recomputed from what the Model keeps", "statement": "After a run, each entry of y that is a number is what one gets from the Model alone: with normalisation, from the entry of y_raw for the same instance and algorithm, measured from min_y, raised to the power lambda_y and standardised with mu_y and sigma_y of that algorithm; without normalisation, the raw performance itself or its relative distance from y_best of the instance.", "quantifier": "all tables, options, subsets of instances, libraries and earlier calls of the runner for which the run succeeds", "why_tests_cant": "the relation ties seven arrays of the Model for every instance, algorithm and combination of options; a test compares one run up to a tolerance and does not show that the recorded quantities are the ones used", "anchors": ["instancespace/stages/prelim.py:PrelimStage._run", "instancespace/stages/prelim.py:PrelimStage._prelim", "instancespace/stages/prelim.py:PrelimStage._normalise", "instancespace/model.py:Model.from_stage_runner_output"]}
{"id": "C203", "title": "The error in the Model is what its coordinates leave unexplained", "statement": "After a run, the error in the Model equals the sum of the squared differences between the features and performances in the Model and their reconstructions from the coordinates in the Model with its matrices b and c.", "quantifier": "all tables, options, subsets of instances, libraries and earlier calls of the runner for which the run succeeds", "why_tests_cant": "the claim relates six arrays of the Model for every data set; a test that compares error with a stored number says nothing about whether the other parts of the Model reproduce it", "anchors": ["instancespace/stages/pilot.py:PilotStage.pilot", "instancespace/stages/pilot.py:PilotStage.analytic_solve", "instancespace/model.py:Model.from_stage_runner_output"]}
{"id": "C204", "title": "The Model's projection is the best of the tries it records", "statement": "In numerical mode the matrices a and b in the Model are read off one column of alpha in the Model: that of the try with the largest entry of perf.", "quantifier": "all tables, options, subsets of instances, libraries and earlier calls of the runner for which the run succeeds in numerical mode and no quality is NaN", "why_tests_cant": "the index of the best try is not part of the Model; that one column agrees with both matrices and is the best one has to hold for every number of tries, features and algorithms", "anchors": ["instancespace/stages/pilot.py:PilotStage.numerical_solve", "instancespace/stages/pilot.py:PilotStage.pilot", "instancespace/model.py:Model.from_stage_runner_output"]}
{"id": "C205", "title": "The correlations in the Model are those of its features and performances", "statement": "For each selected feature, row selvars[j] of pval in the Model is the p-value of Pearson's correlation between column j of x and each column of y in the Model, over the instances that have both values, and the same row of rho is the coefficient, set to 0 when it is missing or its p-value exceeds 0.05.", "quantifier": "all tables, options, subsets of instances, libraries and earlier calls of the runner for which the run succeeds and correlations are computed", "why_tests_cant": "the claim relates five arrays of the Model for every data set and selection; a test compares one matrix with stored numbers and does not show that the features behind its rows are those left in x", "anchors": ["instancespace/stages/sifted.py:SiftedStage._sifted", "instancespace/stages/sifted.py:SiftedStage.select_features_by_performance", "instancespace/stages/sifted.py:SiftedStage._compute_correlation", "instancespace/model.py:Model.from_stage_runner_output"]}
{"id": "C206", "title": "The rows of rho and pval line up with the features of the Model", "statement": "Row j of rho and pval in the Model is about the feature in column j of x, as the documentation of the output says (values for the features after the stage).", "quantifier": "all tables, options and libraries for which the run succeeds and correlations are computed", "why_tests_cant": "the rows agree as long as feature selection drops nothing, which is the case in small tests", "anchors": ["instancespace/stages/sifted.py:SiftedOutput", "instancespace/stages/sifted.py:SiftedStage._sifted", "instancespace/model.py:Model.from_stage_runner_output"]}
{"id": "C207", "title": "The clusters in the Model are about its features", "statement": "If features are clustered, clust in the Model has one row for each feature label, marking the cluster that the feature was chosen from.", "quantifier": "all tables, options and libraries for which the run succeeds and features are clustered", "why_tests_cant": "the clusters come from k-means on features that are then thinned by a genetic search; a test sees one outcome", "anchors": ["instancespace/stages/sifted.py:SiftedOutput", "instancespace/stages/sifted.py:SiftedStage.select_features_by_clustering", "instancespace/stages/sifted.py:SiftedStage._find_best_combination"]}
{"id": "C208", "title": "What PYTHIA reports in the Model follows from its labels", "statement": "In the Model, row j of PYTHIA's confusion table counts the instances by the verdict y_bin and the prediction about algorithm j, the accuracy, precision and recall of algorithm j are those of these counts, and the selections follow from the verdicts and the predictions; column j of every table of predictions or probabilities comes from the one training of algorithm j on the coordinates and verdicts of the Model.", "quantifier": "all metadata tables, options, subsets of the instances, and results of the libraries", "why_tests_cant": "A test compares a few recorded numbers; whether the counts, measures and selections describe the same labels for every table, number of algorithms and prediction is a statement about all runs.", "anchors": ["instancespace/stages/pythia.py:PythiaStage._run", "instancespace/stages/pythia.py:PythiaStage.pythia", "instancespace/data/model.py:PythiaOut"]}
{"id": "C209", "title": "The arrays of the Model have the sizes of its instances, features and algorithms", "statement": "There are numbers n, f and m such that the Model has n instance labels, f feature labels and m algorithm labels, and every array of the Model has n rows or entries if it is about instances, f if it is about features and m if it is about algorithms.", "quantifier": "all metadata tables, options, subsets of the instances, and results of the libraries", "why_tests_cant": "The arrays are cut at different places (preprocessing, subset, feature selection, the loops of PYTHIA and PILOT's slices); a test sees the sizes of one data set only.", "anchors": ["instancespace/model.py:Model.from_stage_runner_output", "instancespace/stages/prelim.py:PrelimStage._filter", "instancespace/stages/sifted.py:SiftedStage._run", "instancespace/stages/pilot.py:PilotStage.pilot", "instancespace/stages/pythia.py:PythiaStage.pythia"]}
{"id": "C210", "title": "The order of the columns of the metadata table does not change the data of the Model", "statement": "When the columns of the metadata table are put in another order (features, algorithms, instances and sources in any places) and both builds succeed, the two Models have the same data: the instance labels, the sources, the best performances, the numbers of good algorithms and the hard instances are the same; the same algorithms are listed, and under every algorithm name the verdicts, the processed performances and the raw performances are the same; a feature that both builds select has the same processed and raw values in both. The algorithm named best for an instance is the same too.", "quantifier": "All tables with distinct column names and any numbers of rows and columns, all orders of the columns, all options of the first three stages, subsets by file or by fraction, all behaviours of the library functions of the selection", "why_tests_cant": "The orders of the columns are factorially many, and one table with one order says nothing about another: a position used where a name is meant shows only for particular orders.", "anchors": ["instancespace/data/metadata.py:Metadata.from_data_frame", "instancespace/stages/preprocessing.py:PreprocessingStage.select_features_and_algorithms", "instancespace/stages/prelim.py:PrelimStage.prelim", "instancespace/stages/sifted.py:SiftedStage.sifted"]}
{"id": "C211", "title": "The unit and the zero point of the performances do not matter", "statement": "With a relative threshold, no normalisation, no weights and no performance that is zero, giving all performances in another unit (multiplying them by a positive number) changes nothing in the result of run_all except the performances themselves: the same exception is raised, or the raw and the best performances are converted, the smallest performance and PYTHIA's table of average performances may differ, and everything else (verdicts, best algorithms, relative performances, selected features, projection, boundary, predictions and scores of the classifiers, selections, footprints and TRACE's summary) is the same. With an absolute threshold and normalisation (the default) and no weights, the same holds when one number is added to all performances and to the threshold.", "quantifier": "All tables with any numbers of instances, features and algorithms, all factors and shifts, all other options, all behaviours of the libraries that do not look at the performances when they train on verdicts, every earlier use of the runner (unit) or a first run (zero point)", "why_tests_cant": "It relates two runs on two tables for every table and every factor; a test compares one pair, with rounding in the way.", "anchors": ["instancespace/stages/prelim.py:PrelimStage._prelim", "instancespace/stages/prelim.py:PrelimStage._normalise", "instancespace/stages/pythia.py:PythiaStage.pythia", "instancespace/instance_space.py:InstanceSpace.build"]}
{"id": "C212", "title": "The best picture of the instance space is unique", "statement": "If PILOT's optimiser reaches coefficients with the smallest possible reconstruction error, the picture of the instance space it draws is determined by the data, up to rotation, reflection, shift and scale: two optimisers that both reach the smallest error draw the same picture.", "quantifier": "For all data, all numbers of instances, features and algorithms, all optimisers that always reach the smallest error.", "why_tests_cant": "Uniqueness of a minimum over all real vectors cannot be seen from finitely many runs.", "anchors": ["instancespace/stages/pilot.py:PilotStage.error_function", "instancespace/stages/pilot.py:PilotStage.numerical_solve"]}
{"id": "C213", "title": "The feature selection returns a selection", "statement": "If the table that reaches SIFTED has two features or more and the libraries do their work (k-means labels every feature and leaves no cluster empty, the genetic search returns a candidate with one gene per cluster), the stage returns a selection of the features.", "quantifier": "For all numbers of features and algorithms, all correlations, all options K and rho, all orders in which argsort may leave ties, all outcomes of the silhouette scores and of the genetic search.", "why_tests_cant": "A test fixes one table of correlations; whether some table makes the stage stop is a question about all tables of correlations and all silhouette scores at once.", "anchors": ["instancespace/stages/sifted.py:SiftedStage._sifted", "instancespace/stages/sifted.py:SiftedStage.select_features_by_performance", "instancespace/stages/sifted.py:SiftedStage.evaluate_cluster", "instancespace/stages/sifted.py:SiftedStage._find_best_combination"]}
{"id": "C214", "title": "Instances with the same features are treated alike", "statement": "Two instances that have the same values of the selected features get the same place in the instance space, whatever the other instances are; two instances with the same values of the features the Model keeps get the same place, and, since a trained model looks at the place only, the same prediction, the same probability for every algorithm and the same recommended algorithms. If they also have the same performances, the Model says the same about these: which algorithms are good, which is the best, the best performance, how many are good, whether enough are good. Which row of the table an instance is in, its label and its source make no difference.", "quantifier": "for all tables, all options, all behaviours of the libraries whose fitted transformation is a Box-Cox transformation and whose trained models are functions of the coordinates, all runs of build that return, and all pairs of instances", "why_tests_cant": "A test compares two given rows of a given table; that no step of the seven stages makes use of the position, the label or the source of an instance is a statement about all tables and all pairs of rows.", "anchors": ["instancespace/stages/prelim.py:PrelimStage._prelim", "instancespace/stages/pilot.py:PilotStage.pilot", "instancespace/stages/pythia.py:PythiaStage.pythia", "instancespace/instance_space.py:InstanceSpace.build"]}
{"id": "C215", "title": "Missing performances are left out of the projection", "statement": "If some performances are missing, a build fits the projection to all selected features and to every performance that is present, no more and no less: each try of the numerical mode minimises the mean, over the instances, of the mean squared difference between the values present and their reconstructions, and the error in the Model is the sum of these squares over the values present.", "quantifier": "all tables with missing performances, options, subsets of instances, libraries and earlier calls of the runner for which the run succeeds", "why_tests_cant": "which entries are missing can vary over all subsets of the performances; a test on a complete table, or on one pattern of gaps, does not show that a gap is left out everywhere and nothing else is", "anchors": ["instancespace/stages/pilot.py:PilotStage.error_function", "instancespace/stages/pilot.py:PilotStage.numerical_solve", "instancespace/stages/prelim.py:PrelimStage._normalise"]}
{"id": "C216", "title": "A missing performance does not stop a build", "statement": "If some performances are missing, but each instance has at least one and each algorithm at least two different ones, a build completes just as it would on a full table: a missing performance counts as not good, and no stage raises because of it.", "quantifier": "all tables of any size with finite, spread-out features and any pattern of missing performances of this kind, all orders of the stages, earlier calls of the runner, thresholds, options that select nothing and behaviours of the numerical libraries", "why_tests_cant": "the pattern of gaps is any subset of the performances of any table; that none of them reaches a stage that cannot cope needs an invariant carried through all seven stages", "anchors": ["instancespace/stages/preprocessing.py:PreprocessingStage._run", "instancespace/stages/prelim.py:PrelimStage._run", "instancespace/stages/pilot.py:PilotStage.analytic_solve", "instancespace/stages/pilot.py:PilotStage.error_function", "instancespace/stages/pythia.py:PythiaStage.pythia"]}
{"id": "C217", "title": "Two algorithms with the same performances are treated alike", "statement": "If the metadata table has the same performances for two algorithms, a build gives them the same raw and processed performances, the same verdicts, the same correlations with the features, the same models, measures and counts, and the same good footprint; ties between them always go to the earlier one, so the later one is never the best algorithm, never selected and has no best footprint.", "quantifier": "for every metadata table, all options (subsets of the instances included), any number of algorithms, any two of them with equal columns, missing performances included", "why_tests_cant": "A test compares the columns of two copies in one table; that no combination of options, ties, missing values and positions separates them is a statement about all builds.", "anchors": ["instancespace/stages/prelim.py:PrelimStage._select_best_algorithms", "instancespace/stages/pythia.py:PythiaStage._generate_params", "instancespace/stages/pythia.py:PythiaStage._determine_selections", "instancespace/stages/trace.py:TraceStage._trace"]}
{"id": "C218", "title": "A build completes only if no selected feature is missing", "statement": "If a build completes, every feature it selects has a value in every instance of the Model, and every feature value it projects is a number; with bounding or normalisation the selected features have a value even in the instances that the options for subsets leave out; with at most three features a single missing feature value stops the build; and a completed build leaves behind exactly what it would if missing feature values were rejected at the start of PILOT.", "quantifier": "for every metadata table, all options (subsets of the instances included), any number of features, whatever PILOT and CLOISTER make of features that are missing or infinite", "why_tests_cant": "A test removes one feature value from one table; that no option, no position of the gap and no matrix that the optimiser might find for it lets a missing value of a selected feature through to the Model is a statement about all builds.", "anchors": ["instancespace/stages/pilot.py:PilotStage.pilot", "instancespace/stages/pythia.py:PythiaStage._fitmatsvm", "instancespace/stages/prelim.py:PrelimStage._bound", "instancespace/stages/prelim.py:PrelimStage._normalise"]}
{"id": "C219", "title": "r2 in the Model tells how well the coordinates explain each feature and algorithm", "statement": "After a run, r2 in the Model has one entry for every selected feature and then one for every algorithm: the part of the variation of that column of x or y that is explained by its reconstruction from the coordinates with b and c, rounded to half precision, and NaN if the column or its reconstruction is constant.", "quantifier": "all tables, options, subsets of instances, libraries and earlier calls of the runner for which the run succeeds", "why_tests_cant": "the claim relates seven arrays of the Model for every data set; comparing r2 with a stored vector does not show what the entries are about", "anchors": ["instancespace/stages/pilot.py:PilotStage.pilot", "instancespace/stages/pilot.py:PilotStage.analytic_solve", "instancespace/model.py:Model.from_stage_runner_output"]}
{"id": "C220", "title": "For every algorithm the Model keeps a feature that correlates most with it", "statement": "If SIFTED looks at correlations, the Model keeps for every algorithm a feature whose correlation with the algorithm, as rho in the Model says, is at least that of every other feature in absolute value.", "quantifier": "all tables with more than three features, all options, subsets of instances, libraries and earlier calls of the runner for which the run succeeds", "why_tests_cant": "which features survive depends on ranking, threshold, clustering and a random search together; a test sees one outcome of these", "anchors": ["instancespace/stages/sifted.py:SiftedStage.select_features_by_performance", "instancespace/stages/sifted.py:SiftedStage._find_best_combination"]}
{"id": "C221", "title": "The footprints follow the picture", "statement": "The orientation of the projected space carries no meaning: if all coordinates undergo a rigid motion, the footprints of TRACE undergo the same motion and their areas, densities and purities stay as they are.", "quantifier": "all pictures, masks, purities, numbers of algorithms, orders in which the threads finish, rigid motions of the plane, geometry libraries that follow the motion", "why_tests_cant": "a test compares finitely many pictures; the claim is about all pictures and all motions, with clusters found in another order and numbered otherwise", "anchors": ["instancespace/stages/trace.py:TraceStage.build", "instancespace/stages/trace.py:TraceStage.run_dbscan", "instancespace/stages/trace.py:TraceStage.epsilon"]}
{"id": "C222", "title": "Nobody beats the oracle in PYTHIA's table", "statement": "In PYTHIA's summary in the Model the Oracle's average performance is at least as good as that of every algorithm and that of the Selector; its probability of a good performance is the share of the instances on which some algorithm is good, and no other row exceeds it.", "quantifier": "Every successful build from every readable table, with every set of options, for maximised and minimised performances, and for every rounding that keeps the order of numbers.", "why_tests_cant": "A test compares the rows of one table; that averages over the same instances bound each other, and that the off-by-one in the selector's row breaks the bound, concerns all performances and recommendations.", "anchors": ["instancespace/stages/pythia.py:PythiaStage._generate_summary", "instancespace/stages/pythia.py:PythiaStage._determine_selections", "instancespace/stages/prelim.py:PrelimStage._prelim"]}
{"id": "C223", "title": "Footprints stay inside the boundary", "statement": "If CLOISTER finds a boundary, every footprint of the Model - of the space, of the hard instances, the good and the best footprint of every algorithm - lies inside it; the good footprint of an algorithm lies between the instances on which it is good (or predicted good, if TRACE uses PYTHIA's results), and the footprint of the hard instances between those that are not easy.", "quantifier": "all successful builds of all tables with all options, all orders in which threads finish, all geometry libraries in which polygons around points, differences, unions and smoothing lie where they should, all correct convex hulls", "why_tests_cant": "a test looks at a few pictures; that no pruning, union or smoothing of clusters ever leaves the boundary that another stage computes from corners of the feature box is a claim about all data", "anchors": ["instancespace/stages/trace.py:TraceStage.build", "instancespace/stages/trace.py:TraceStage.fit_poly", "instancespace/stages/cloister.py:CloisterStage.cloister"]}
{"id": "C224", "title": "What counts as good does not move the picture", "statement": "Building again from the same table, with only the thresholds changed that say how good is good (epsilon) and how many good algorithms make an instance easy (beta), changes the verdicts and what PYTHIA and TRACE make of them, and nothing else: the tables, the best algorithm of each instance, the selected features, the projection, the coordinates and the boundary stay the same.", "quantifier": "all tables, all options of the builds, all pairs of thresholds, all library results, any calls before", "why_tests_cant": "a test compares a few thresholds on one data set; that no stage before PYTHIA looks at the verdicts is a claim about every path through the pipeline", "anchors": ["instancespace/stages/prelim.py:PrelimStage.prelim", "instancespace/stages/sifted.py:SiftedStage.cost_fcn", "instancespace/stages/sifted.py:SiftedStage._find_best_combination", "instancespace/stages/pilot.py:PilotStage.pilot", "instancespace/stages/cloister.py:CloisterStage.cloister"]}
{"id": "C225", "title": "A change in a stage reaches only what is computed from its results", "statement": "If a stage is changed - its options, its random numbers, its code - two runs of the pipeline agree in everything that is neither returned by that stage nor computed from something it returned; and if only one of the runs raises, it is the changed stage or one that reads from it that raises. In the default pipeline: options of TRACE reach only the footprints, options of CLOISTER only the boundaries, options of PYTHIA only its own results and the footprints (and not even these if TRACE works on the given performances), options of PILOT only the results of the last four stages, options of SIFTED in addition only the features and what is said about their selection.", "quantifier": "all pipelines that can be built from any stages with any declared inputs and outputs, all changes, all initial values, any calls before; for the default pipeline all tables and all options", "why_tests_cant": "a test changes one option and compares a few values; what a change can reach is a claim about every path of data through every pipeline, including plugins", "anchors": ["instancespace/stage_runner.py:StageRunner.run_stage", "instancespace/stage_runner.py:StageRunner.run_all", "instancespace/stage_builder.py:StageBuilder.build"]}
{"id": "C226", "title": "An algorithm that is good (or best) everywhere has the whole space", "statement": "In the Model that a build returns, an algorithm that is good on every instance (predicted good, if TRACE uses PYTHIA's results) has the footprint of the whole space as its good footprint, with normalised area, normalised density and purity 1 in TRACE's summary; an algorithm that is good nowhere has no good footprint and zeros in the summary. If no instance is easy the footprint of the hard instances is the whole space, and if all are there is none. An algorithm that has the best performance on every instance has the whole space as its best footprint, and the others have none.", "quantifier": "for all metadata tables, options, libraries that keep their contracts, and all runs of the pipeline that succeed", "why_tests_cant": "It relates the verdicts of PRELIM or PYTHIA, the positions of PILOT and the geometry of TRACE for every table and every geometry; tests run TRACE alone on stored arrays in which no algorithm is extreme.", "anchors": ["instancespace/stages/trace.py:TraceStage._run", "instancespace/stages/trace.py:TraceStage._trace", "instancespace/stages/trace.py:TraceStage.build", "instancespace/stages/prelim.py:PrelimStage.prelim"]}
{"id": "C227", "title": "A build on a subset of the instances is a build on a smaller table", "statement": "Choosing a subset of the instances, with an index file or a fraction, gives the same output as building from a table that holds these instances only.", "quantifier": "For all metadata whose parts fit together, all options, all index files with numbers in range and all splits, all histories of the runner.", "why_tests_cant": "It compares two runs of the whole pipeline for every table, every file and every behaviour of the libraries; a test fixes all of them, and the stage where the two runs part (bounds and normalisation over all instances) shows only for some tables.", "anchors": ["instancespace/stages/prelim.py:PrelimStage._run", "instancespace/stages/prelim.py:PrelimStage._filter", "instancespace/stages/preprocessing.py:PreprocessingStage._run", "instancespace/stages/sifted.py:SiftedStage._run"]}
{"id": "C228", "title": "Building again on the selected features changes nothing", "statement": "If a build with the default pipeline selects the features sel, a second build on the same metadata that asks for exactly these features selects all of them again and gives the same coordinates, predictions, boundary and footprints; only the raw features, the recorded quantities of each feature and the grounds of the selection may differ.", "quantifier": "for all metadata without missing values and with distinct feature names, all options without the density subset, all libraries and all late stages", "why_tests_cant": "It relates the whole output of two runs, the second of which depends on what the first selected, over every table, every correlation and every clustering; a test sees one table, on which the selection may happen to be stable.", "anchors": ["instancespace/stages/sifted.py:SiftedStage.sifted", "instancespace/stages/sifted.py:SiftedStage.select_features_by_performance", "instancespace/stages/preprocessing.py:PreprocessingStage._run", "instancespace/stages/prelim.py:PrelimStage.prelim"]}
{"id": "C229", "title": "Leaving out an algorithm that is nowhere the best leaves the verdicts on the others alone", "statement": "If on every instance some other algorithm is at least as good as algorithm a, and the builds on the table with a and on the table without a both complete, they return the same verdicts on the other algorithms and the same best performances; if the best of the others is strictly better than a everywhere and is not the infinity that stands for the worst performance, they also name the same best algorithm for every instance.", "quantifier": "for all metadata without missing values, all positions of the algorithm, all options that use every algorithm and leave the density subset off, all subsets, all late stages that return the outputs they declare, all earlier calls", "why_tests_cant": "It relates the outputs of two builds over every table and every position of the algorithm; the exception needs best performances of exactly 0 and ties at the machine epsilon.", "anchors": ["instancespace/stages/prelim.py:PrelimStage.prelim", "instancespace/stages/preprocessing.py:PreprocessingStage._run", "instancespace/stages/sifted.py:SiftedStage._run"]}
{"id": "C230", "title": "The silhouette scores in the Model are about its features", "statement": "If features are clustered, the silhouette scores in the Model are those of the clusterings of its features (the documentation of the output says: for the sifted features) in 2, 3, ... clusters, in this order, up to one cluster less than there are features.", "quantifier": "all tables, options and libraries for which the run succeeds and features are clustered", "why_tests_cant": "the scores are a plain list without labels: a list in another order or about other features passes every check of its type, and which features were clustered is not in the output", "anchors": ["instancespace/stages/sifted.py:SiftedOutput", "instancespace/stages/sifted.py:SiftedStage.evaluate_cluster", "instancespace/stages/sifted.py:SiftedStage._sifted"]}
{"id": "C231", "title": "An infinite value does not erase others when normalising", "statement": "If values of a table are infinite but none is missing, none is missing after PRELIM normalises its features and performances, and an infinite value leaves the other values of its column, and of other columns, distinguishable.", "quantifier": "all tables, infinite values included, all transformations, bounding off", "why_tests_cant": "it needs an infinite value, which the tests do not have; that a single one erases the table holds for all values in all other places", "anchors": ["instancespace/stages/prelim.py:PrelimStage._normalise", "instancespace/stages/prelim.py:PrelimStage.prelim"]}
{"id": "C232", "title": "A looser threshold only adds good algorithms to the Model", "statement": "If a build is repeated with options that differ only in the thresholds, with a looser threshold for good performances, and both builds complete, every algorithm that was good on an instance in the Model is still good on it, no instance has fewer good algorithms, every instance that was easy is still easy (if the required share of good algorithms is not raised), and the instances, their sources, the algorithms, the raw data, the processed and the best performances and the best algorithms are the same, whatever features are selected.", "quantifier": "for all metadata whose parts fit together (missing values included), all options with the density subset off (other subsets of the instances included), all thresholds (infinite ones included), all libraries, all late stages that return the outputs they declare, all earlier calls", "why_tests_cant": "It compares two whole builds for every table and every pair of thresholds; a test fixes a table and two thresholds. That the verdicts of the Model grow follows only if no stage after PRELIM changes them and the same instances are dropped in both builds, whatever the libraries do with the verdicts.", "anchors": ["instancespace/stages/prelim.py:PrelimStage._prelim", "instancespace/stages/prelim.py:PrelimStage._select_best_algorithms", "instancespace/stages/prelim.py:PrelimStage._filter", "instancespace/stages/sifted.py:SiftedStage._run", "instancespace/stage_runner.py:StageRunner.run_all"]}
{"id": "C233", "title": "Improving an algorithm never costs it a good verdict in the Model", "statement": "If the performances of one algorithm are improved on any number of instances of the metadata and the build is repeated with the same options, and both builds complete, the algorithm is still good in the Model wherever it was, no other algorithm is good where it was not, and the instances, their sources and raw features and the algorithms are the same.", "quantifier": "for all metadata without missing values, all positions of the algorithm, all improvements, all options that use every algorithm and leave the density subset off with thresholds between 0 and 1 (relative) or any finite threshold (absolute), other subsets included, all libraries, all late stages that return the outputs they declare, all earlier calls", "why_tests_cant": "It compares two whole builds for every table and every set of improved performances; the improvement changes what every later stage sees, and the verdicts must come out of the whole pipeline in order.", "anchors": ["instancespace/stages/prelim.py:PrelimStage._prelim", "instancespace/stages/prelim.py:PrelimStage._filter", "instancespace/stages/preprocessing.py:PreprocessingStage._run", "instancespace/stages/sifted.py:SiftedStage._run", "instancespace/stage_runner.py:StageRunner.run_all"]}
{"id": "C234", "title": "A higher correlation threshold never adds a feature to the Model", "statement": "If a build is repeated with a higher threshold on the correlations with performance and both builds complete, every feature in the second Model is a feature of the first, in the same order, and both report the same correlations.", "quantifier": "for all metadata, all libraries behind clustering and search, and all pairs of thresholds", "why_tests_cant": "It relates two runs for every pair of thresholds on every table, and it depends on whether the numbers of features that remain cross the limits at which clustering starts.", "anchors": ["instancespace/stages/sifted.py:SiftedStage._sifted", "instancespace/stages/sifted.py:SiftedStage.select_features_by_performance", "instancespace/stages/sifted.py:SiftedStage.select_features_by_clustering"]}
{"id": "C235", "title": "The number of clusters matters only if features are clustered", "statement": "If a build completes and SIFTED did not cluster the features, then the build also completes, with exactly the same output, for every other number of clusters K that is not below the number of features it selected, and for every K at all if it selected at most three.", "quantifier": "for all metadata, options, libraries and numbers of clusters", "why_tests_cant": "It relates the runs for all numbers of clusters on all tables, through every stage of the pipeline.", "anchors": ["instancespace/stages/sifted.py:SiftedStage._sifted"]}
