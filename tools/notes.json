{
 "C05": "False of the code: a reader overtakes a mutating stage that waits for another input. The true part covers mutating stages that are ready.",
 "C06": "False of the code: no pipeline with RunBefore/RunAfter can be built. The true part is about the resolver alone, were the markers recognised.",
 "C08": "False for set objects (the caller's set is mutated); true for NamedTuple classes.",
 "C100": "Monotonicity false with missing performances; proved for finite ones, together with the exact condition for a ValueError.",
 "C101": "False for direct calls; within a runner the stage gets a deep copy (C19).",
 "C102": "False: scikit-learn and scikit-optimize reject a single number as search space (part of the model of _fitmatsvm).",
 "C103": "The latin hypercube sample is a parameter with values in [0,1).",
 "C104": "False whenever the clustering step is reached; elsewhere the option has no effect.",
 "C105": "False: idx is always range(number of input features).",
 "C106": "Uses the contracts that k-means labels every feature and that the search returns K genes.",
 "C107": "False for every rounding with eleven significant bits.",
 "C108": "False (concrete data, 20 against 16). Optimal in a for the returned b and c when the directions are orthonormal, which follows for distinct eigenvalues. With orthonormal eigenvectors: within a factor of two of every other a, b and c; globally optimal when the performances are linear in the features; the part of the error no choice can avoid is the sum of all eigenvalues but the two largest.",
 "C11": "Presence proved in full; typing false when a name has two types, proved when types are unique.",
 "C110": "False for two summaries, renamed in place; everything else unchanged, second export identical.",
 "C111": "All 16 files and the footprint files.",
 "C112": "False whenever SIFTED drops a feature. Exact condition and contents proved otherwise.",
 "C113": "True of the feature plots, false of both performance plots; what the two plots show instead is proved (C113_individual_partial, C113_global_partial: the global values are in [0, 1] iff the least logarithm of all is attained by the algorithm itself).",
 "C114": "False for the last algorithm and for predictions; true for all other algorithms.",
 "C115": "False for actual performance for every instance, true for predictions.",
 "C117": "false of the code: circular mutations deadlock the resolver and are reported as missing inputs; proved for non-circular mutations",
 "C120": "False: the radius depends on the bounding box. Proved for shifts, scaling, axis reflections and exchanges.",
 "C121": "False with exactly three distinct instances (or at most nn): the polygon is empty. Both cases are characterised.",
 "C123": "False: exactly the constant features become NaN.",
 "C124": "The geometry library (alpha shapes, unions, triangulation) is a parameter.",
 "C126": "False; success, failure and None are characterised exactly. Reading the files is a parameter.",
 "C127": "False for an algorithm named portfolio; proved otherwise.",
 "C128": "Colours, sizes and positions on the canvas are not modelled.",
 "C129": "False: holes are not drawn.",
 "C130": "False: fixed axes.",
 "C131": "False of data_dense only.",
 "C132": "Values of stages are abstract; option files are dictionaries.",
 "C133": "False: insignificant coefficients are overwritten with 0 through an alias. Everything else about the two tables is proved.",
 "C134": "False for exactly one common instance; proved to be the only failure.",
 "C135": "Layout, objective and result.",
 "C136": "All descriptive columns; the square root in the deviations is a parameter.",
 "C137": "C137_schedule (any pipeline), C137_results (runs, under the conditions of C18), C137_default (the seven stages with any plugin such as example_plugin.py). C137_outputs_must_be_new is a counterexample without the condition.",
 "C138": "C138_inputs and C138_result for every runner with a proper schedule; C138_default for the seven stages.",
 "C139": "false at zero and negative best values (witness improves -1 to 0); proved for absolute performances and for positive relative ones",
 "C14": "False of the code: all snapshots are one dict object. True parts: inputs that nothing overwrites later; exact inputs of a re-run.",
 "C140": "false when the best performance is 0 (replaced by the machine epsilon); proved for every other best value, and for absolute performances with converted threshold",
 "C141": "verdicts, relative performances, best value, counts and beta under any permutation of the algorithms; p for a unique best",
 "C142": "verdicts for any selection of instances; bounded and normalised columns for any permutation, with Box-Cox/z-score assumed order blind",
 "C143": "False of one call (the summary of PYTHIA gets accuracies and precisions swapped, cf. C66). Proved for all other hand-overs of the seven stages, for all values and all behaviours of the computing functions. Rebinding and in-place updates are read off the syntax; a change made through another name for the same array is not seen here (see C19, C46, C101).",
 "C144": "Refuted by a four-point configuration; proved for thresholds that at least double (all types, any reordering). Missing: nothing is claimed between d and 2d.",
 "C145": "Refuted by three points in a row; proved when covering is transitive (in particular threshold 0), and within a factor two of the threshold in general.",
 "C146": "Exact arithmetic; columns with an infinity but no NaN are not modelled.",
 "C147": "Refuted (sparse features, two instances); proved exactly when: the interquartile range is not 0.",
 "C148": "Assumes the hull computation returns points with the same hull (HullCorrect).",
 "C149": "Refuted through the fallback; proved when the corners left span an area. C149_both_partial and C149_build_partial (whole builds) assume only HullCorrect of the hull computation, and that z_edge was found and z_ecorr is not z_edge with the laxer options; the builds are both complete, with equally many stage calls before.",
 "C15": "False of the code for every pipeline: the stop stage is never run. Exact result proved.",
 "C150": "Verdicts, best performance and transformed performances in full; p except for a best performance 0, minimised relatively, with two performances equal to the machine epsilon (concrete counterexample).",
 "C151": "Hypotheses: both libraries keep their contracts and the eigenvalues are distinct. r2 compared when both round alike.",
 "C152": "Both modes, exceptions included. In numerical mode r2 is per instance (see C79) and not compared.",
 "C153": "True part: exact condition, and repeated runs settle. The stage is modelled completely (numbers opaque, only isnan).",
 "C154": "The stage is modelled completely (numbers opaque, only isnan).",
 "C155": "Positions of instances in place of masks; the geometry and DBSCAN are as in C59-C63.",
 "C156": "Areas, densities and purities are rational numbers; printing of the table is not modelled.",
 "C157": "The training results are moved with the algorithms; that training itself does not depend on the order (shared random generator) is not part of the model.",
 "C158": "Pearson's correlation and argsort are parameters.",
 "C159": "Selection by correlation only; the clustering afterwards keeps one feature per cluster.",
 "C160": "Pearson's coefficients and qhull are parameters: the coefficients are assumed equal after the reordering (C158 shows when they are) and symmetric, qhull to be correct and to fail exactly on collinear points.",
 "C161": "The title is the text handed to suptitle. Refuted for names that differ only in an underscore against a blank; what holds is for names without blanks.",
 "C162": "The theorems compose the models of from_data_frame, Preprocessing, PRELIM, SIFTED, the builder and the runner and speak about cells of the table only; refuted for subsets of the instances because the labels are not reduced (C26). C162_subset_*: with a subset all other arrays are still about one common sublist of the kept rows, which is the listed one for an index file or a split. One-row tables and repeated column names are excluded.",
 "C165": "Missing: subsets of the instances, for which it is false (density filter).",
 "C166": "Missing: performances 0 in the relative case (refuted), subsets of the instances, normalised performances in algorithm_process.csv, best values 0 or infinite in portfolio.csv as in C162. What the export reads of the last four stages is arbitrary.",
 "C169": "Missing: 0 does not tell the first algorithm from no advice, and the numbers are one less than in portfolio.csv (refuted).",
 "C170": "Missing: accuracy and precision are exchanged (refuted).",
 "C171": "FALSE for the best footprints from portfolio.csv: the numbers start at 1 and TRACE compares them with positions from 0, so the best footprint of the first algorithm goes to the second one (C171_refuted). Everything else proved (C171_partial).",
 "C172": "binary64 with rounding modelled; sign of zero not",
 "C173": "refuted next to the threshold; true if loss and epsilon differ by more than 2^-51",
 "C174": "refuted next to the threshold; true if share and threshold differ by more than 2^-52",
 "C175": "refuted by overflow; true for magnitudes up to 2^999",
 "C176": "refuted for tiny differences; order and positivity hold without bound",
 "C177": "refuted by overflow; true for magnitudes up to 2^999",
 "C18": "False of the code: an overwriting stage may share an element with a reader. Proved without such overlap.",
 "C180": "refuted by underflow; symmetry and repetitions hold without bound, the other parts for moderate features with a relative error bound",
 "C181": "refuted exactly (rounding at the radius); groups are proper for all finite coordinates, sandwiched between slightly different radii",
 "C182": "refuted for numbers next to a half; order, error, idempotence and distinctness proved",
 "C184": "FALSE for experimental data: p counts from one, the analysis from zero (C61), so the last algorithm in the list has no best footprint of its own. Proved: the other footprints (good_partial) and everything for PYTHIA's recommendations (sim_partial).",
 "C186": "False as stated: where the products cancel no digit is correct. The partial theorems bound the error relative to the sum of the sizes of the products, for any tree of additions and fused multiply-adds.",
 "C188": "False for labels that end with a space; proved for all others.",
 "C189": "missing: rotations (false)",
 "C190": "conditions of C187; PYTHIA's own results only if its predictions agree",
 "C191": "Inclusion of geometries is abstract (laws in the structure Inclusion, including that the smoothing is monotone). Completion with a stricter purity and rising purity are refuted. C191_build_partial is about two whole builds whose options differ only in the purity: it assumes that both complete and that the stages have been called equally often before.",
 "C192": "False of the code (C192_refuted: an algorithm good on every instance stops PYTHIA; C192_clash_refuted: uneven overlap stops TRACE). Proved: on clean data only SIFTED with more than three features, PYTHIA with an untrainable algorithm, or TRACE with a clash can raise; sufficient conditions for completion.",
 "C193": "Relabelling commutes with every stage; both runs are images of one run on row numbers.",
 "C194": "False to the last bit: rounded corners may cut off an instance. True up to twice the rounding error, and exactly along the axes when all rows are added in the same order. qhull is assumed to find the hull of the rounded points.",
 "C195": "False: candidates are drawn from one generator algorithm after algorithm, and weights use the mean over all algorithms. True without weights for an algorithm with the same position in both runs; training is a parameter.",
 "C196": "False for random starting points: all of them change with n_tries. True for starting points given by the user, or whenever the shorter run's starting points are kept. Optimiser and quality measure are parameters. C196_build_partial is about whole builds with the same given starting points, both complete, with equally many stage calls before.",
 "C197": "False for the unit (power taken after adding 1), proved for the zero point through all stages; the unit is proved irrelevant to bounding, for exponent 1 and for features with two values.",
 "C198": "Proved for the stage and for the whole run.",
 "C199": "False when an instance has its only values in a removed feature (instances are removed first); proved otherwise.",
 "C20": "False of the code: the returned dict is live. Proved once a new run has been started.",
 "C200": "exact arithmetic; the optimiser, Box-Cox and PILOT's libraries are arbitrary",
 "C201": "false when SIFTED drops a feature; true through selvars",
 "C202": "End-to-end over the runner model with Preprocessing, PRELIM and SIFTED plugged in; the Box-Cox transformation is a parameter (`power`), tied to the transformation used by `FitsBy`. The other stages are arbitrary.",
 "C203": "End-to-end: what PILOT returns is tracked through the runner (`pilotOut`). Exact arithmetic. The numerical part is for Models without missing performances; with one the error is NaN (C215_error_partial).",
 "C204": "End-to-end; idempotence of the rounding to half precision is a hypothesis. A NaN among the qualities is covered by C74.",
 "C205": "pearsonr is a parameter; Correlates in SpecGrounds.lean states the claim on the arrays at the end of the run.",
 "C206": "False; partial: no feature dropped.",
 "C207": "False whenever features are clustered; partial: one selected feature in each cluster, under the contracts of k-means (one label per feature) and pygad (num_genes entries).",
 "C208": "The trainings of the support vector machines are arbitrary functions of coordinates, performances and verdicts that return one prediction per instance. Refuted because counts and measures are about different predictions.",
 "C209": "Holds for all arrays but two; both exceptions have concrete witnesses. The trainings return one prediction per instance; PILOT and CLOISTER are modelled on finite data.",
 "C210": "Everything but the best algorithm is proved by name; the best algorithm is refuted with a tie and proved for instances with one best algorithm. Density filter excluded.",
 "C211": "Both cases proved for the whole pipeline, exact arithmetic; the classifiers are assumed to see only coordinates and verdicts (no weights).",
 "C212": "False of the code: the objective is invariant under all invertible linear changes of the plane, so the proportions of the picture are never determined. Proved: invariance of the error, pictures with equal reconstructions differ by a linear map, no picture with three instances off a line is the only best one, and with a spectral gap the best pictures are exactly the linear changes of one of them.",
 "C213": "Exact condition for SIFTED to return. Refuted as stated: with more than three features and no significant correlation every algorithm falls back on the same first feature of argsort, so one feature passes and the stage raises NotEnoughFeatureError. Also stops if the best number of clusters is not K and is within two of the number of passing features.",
 "C214": "Places (a trained model is a function of the coordinates) and FitsBy (the transformation is a Box-Cox transformation) are hypotheses about scikit-learn and scipy. pr0_hat is the probability; pr0_sub and y_sub come from cross-validation, where the fold of the instance matters, and nothing is claimed about them.",
 "C215": "False of the code in four ways. With auto.norm a single missing performance makes `min_y` NaN and with it every processed performance (C215_wiped_partial, C215_refuted), so that the projection ignores all performances; the error is NaN (C215_error_partial, C215_error_refuted); in analytic mode scipy's eig raises a ValueError for NaN, so no Model is built (C215_analytic_partial). Proved: in numerical mode every try fits exactly the numbers in the Model's x and y (C215_fitted_partial), and without normalisation these are the present performances (C215_plain_partial).",
 "C216": "False in the analytic mode: scipy's eig raises a ValueError on NaN (C216_analytic_refuted). False with normalisation and more than three features: one gap wipes out all performances in PRELIM and SIFTED raises NotEnoughFeatureError on every such table (C216_normalised_refuted). Proved in the numerical mode: Preprocessing, PRELIM, PILOT, CLOISTER and the weights of PYTHIA never raise because of a gap (C216_outcome_partial); with an absolute threshold a missing performance counts as a miss (C216_threshold_partial, C216_winner_partial). SIFTED with more than three features: C213_build_partial gives the exact condition, gaps included.",
 "C217": "refuted for PYTHIA: candidates for the hyper-parameters are drawn anew for each algorithm, so two equal algorithms get different models (C217_models_refuted); and for TRACE with the experimental data: the later twin, never best, gets a best footprint over all instances on which its predecessor is best, which itself gets none (C217_best_refuted). Proved: performances, verdicts, best algorithm, correlations; models, measures, selections and good footprints if training depends on the column alone; PYTHIA itself if the candidates are the same.",
 "C218": "Assumes that scikit-learn raises on coordinates that are not finite; what PILOT and CLOISTER make of features that are not finite is arbitrary, except that PILOT multiplies them with its matrix. The exact arithmetic of the model stands for floating point.",
 "C219": "False in numerical mode, the default; partial: analytic mode, and what the entries are in numerical mode.",
 "C22": "False of the code: running all stages through run_iter does not make the model available. Exact condition proved: StageRunningError iff no build finished running all stages.",
 "C220": "False with clusters; partial: without clusters, and with clusters for the cluster of the feature.",
 "C221": "False for rotations, because the radius of the clustering is taken from the bounding box. Proved for shifts, mirror images and exchanged axes, for a geometry library that follows the motion and compares geometries as sets of points.",
 "C222": "Proved when all performances are known (algorithms; selector when the first algorithm is never recommended; probabilities). Refuted: the selector can show a better average than the oracle, an algorithm with missing performances can, and the oracle probability of good is 1 even when no algorithm is good on some instance.",
 "C223": "Proved with laws for the regions of the geometry library; the hull library is correct when it succeeds.",
 "C224": "Part: both builds complete, no sampling by density, no genetic search. Refuted with a search: the cost function reads the verdicts, and the coordinates change with the threshold.",
 "C225": "For every built pipeline, with the exceptions; in the default pipeline for the last four stages, for PYTHIA without use_sim, and for SIFTED.",
 "C226": "Both modes of TRACE (useSim). The mixed-up position of the best footprints is the same bug as C61, here in the Model a build returns.",
 "C227": "Proved for index files and fractions when the features are neither bounded nor normalised, no value is missing and the density option is off, for all names but the metadata, the labels and the recorded column quantities; both runs are assumed to complete. Refuted with normalisation: the features are shifted by minima over instances outside the subset.",
 "C228": "False in full: SIFTED's selection by correlation compares the feature in position i with the feature of rank i, so its result depends on the features that are dropped and a second selection may drop more. True whenever at most three features were selected or the second build selects as many.",
 "C229": "Both parts assume that no value is missing, every algorithm is used, the density subset is off, the late stages return the outputs they declare and both builds complete. Under these the verdicts and best performances are proved. The best algorithm is proved when performances are maximised, compared absolutely, or never 0 at best; it is refuted for best performances 0 minimised relatively, which are replaced by the machine epsilon before ties are looked for.",
 "C23": "False of the code: the model is cached. Proved for the first build and for stages that do not change between calls.",
 "C230": "False of the code: the scores are about the features before the last selection, of which there are always more than in the Model (C207_rows_partial). Proved instead: their order and number for those features, assuming that k-means returns a label for each feature and the search a gene for each cluster.",
 "C231": "False: a smallest value of -inf becomes missing and makes all other values +inf, for performances those of all algorithms, also in the output of a build; if all values are +inf, all become missing. Without infinite values none is lost, under the contract that the transformation returns a number for each finite number; the z-score breaks it on constant columns (C123). That different finite values can be told apart is C122. Nothing is proved with bounding and infinities together.",
 "C232": "Proved for builds that both complete, with the density subset off. Exact arithmetic stands for floating point.",
 "C233": "Proved for absolute performances and for positive relative ones, without missing values, with every algorithm used and the density subset off, for builds that both complete; refuted for relative performances that are zero or negative (witness improves -1 to 0).",
 "C234": "Proved where the build with the lower threshold does not cluster, for builds that both complete; refuted in general for the stage and for builds (the witness for the stage clusters six features into three with one threshold and keeps three of them with the other).",
 "C235": "For run_all on a fresh InstanceSpace; the whole output is the same.",
 "C24": "False of the code for every plugin: build always raises. True part: keyword arguments of run_stage reach the stage.",
 "C26": "False of the code with a subset of instances: labels are those of all instances. Proved without subsetting; exact effect and alignment of everything else proved with it.",
 "C27": "False with repeated labels: feat_labels.index returns the first column for every repetition (C27_refuted). Proved for distinct labels; keep-all and label lists proved without that hypothesis.",
 "C28": "Arrays fit together by hypothesis (same number of instances). Includes the ZeroDivisionError when no instance is left.",
 "C29": "The mean is compared with 0.20 in exact arithmetic.",
 "C30": "False: a dropped feature may have been the only one an instance had (C30_refuted). Performance values always survive; feature values survive when no feature is dropped.",
 "C31": "All tests on pairs are parameters; C31_apGood instantiates them with Euclidean distances over the reals.",
 "C32": "C32_ftr_apart is the Euclidean case over the reals.",
 "C36": "False for non-positive best values when maximising (C36_refuted, C36_negative_partial: with a negative best everything is good). C36_partial: positive best.",
 "C37": "False: best 0 when maximising (C37_refuted). C37_partial is an exact characterisation for 0 <= epsilon < 1.",
 "C38": "False: relative, minimising, best 0 and two later values equal to the machine epsilon (C38_refuted). C38_partial covers everything else.",
 "C41": "Median and quartiles are computed in the model as in the code (C41_bounds says they are medians and quartiles); C41_clamp is the property.",
 "C42": "False: NaN propagates through np.min (C42_refuted). Exact effect for features and performances, and finite columns.",
 "C44": "data_dense needs the density flag and options of the declared types. The index-file case is C45.",
 "C45": "False: the last instance cannot be listed and 0 selects the last instance (C45_refuted). C45_exact_partial characterises every file.",
 "C46": "False under the aliasing produced by preprocessing (C46_refuted); C46_partial is an exact iff.",
 "C47": "Python's str.lower is a parameter. Cells are opaque.",
 "C48": "False for one-row tables (C48_refuted); C48_exact_partial is an iff.",
 "C49": "For the twelve actual groups (tables transcribed with defaults); keys of any dictionary. The placeholder '_' counts as a field name for the no-repetition rule.",
 "C50": "Loaded is the independent specification; str.lower only needs to fix the field names. C50_documented states the same against a separately written table of options, spellings and defaults.",
 "C51": "SameEntries: permutation followed by a change of letter case.",
 "C52": "The dictionary of dictionaries is what dataclasses.asdict gives.",
 "C53": "False (C53_refuted: AttributeError escapes). C53_partial is an exact iff over all outcomes of reading.",
 "C54": "Exact arithmetic over any ordered field, at least one instance and one feature. 'Exactly once' is about choices of sides; corners of a constant feature coincide as points (C54_distinct assumes none is constant).",
 "C55": "C55_discarded is about the correlation matrix the loop sees; C55_kept is about unordered pairs and uses that pearsonr is symmetric.",
 "C56": "scipy's ConvexHull is a parameter; assumed: when it succeeds, its vertices have the same convex hull as the points. Exact arithmetic over any ordered field.",
 "C57": "pearsonr is a parameter. C57_fallback characterises both outcomes of the correlated hull.",
 "C58": "The loop with its early marks and duplicate queue entries is modelled; distances enter through a symmetric and reflexive relation (C58_real instantiates it with Euclidean distances of real points and a radius that is not negative).",
 "C59": "Geometry is abstract; assumed: areas are not negative, and a geometry of area 0 contains no point.",
 "C60": "The completion order is an arbitrary permutation; the computation for one algorithm is a function of its number.",
 "C61": "False with UseSim off: PRELIM numbers algorithms from 1, TRACE from 0, so each best footprint is built from the instances of the algorithm before it and the first one is always missing. False with UseSim on: instances without recommendation count for the first algorithm; exact for the others (C61_sim_partial).",
 "C62": "False: tight never returns a polygon, so contra raises whenever the overlap contains more instances of one algorithm than of the other and otherwise changes nothing (C62_exact_partial).",
 "C63": "No NaN is ever reported (C63_present), but an undefined ratio is reported as the measure itself instead of 0 (C63_refuted, C63_partial is exact).",
 "C64": "scikit-learn's predictions are a parameter. Stated for completed runs, which have at least two algorithms (C97).",
 "C65": "False: 0 stands for the first algorithm and for none. C65_partial is exact.",
 "C66": "False: pythia passes the accuracies where _generate_summary expects the precisions. C66_partial says what every column shows.",
 "C67": "False: selections are counted from 0, the comparison counts from 1. C67_partial is exact for the mean performance and the probability of good, C67_measures_partial for precision and recall.",
 "C68": "False: mu and sigma are taken from the normalised data, hence always 0 and 1 (C68_partial, over the reals, columns with variation).",
 "C69": "For every correlation, clustering and search result.",
 "C70": "False: the threshold is compared with the signed, unsorted coefficients while the ranking is sorted, so correlated features are dropped and uncorrelated ones kept. Proved: the exact selection, and that each algorithm's most correlated feature is kept (from the data: C70_significant_partial).",
 "C71": "False twice: the cost uses positions among the clustered features as feature indices, and pygad maximises the mean squared error, so the worst compared candidate is returned. Both the exact relation and the maximality are proved, and that the cost is the largest error over the algorithms.",
 "C72": "False: IndexError when the best count is one of the last two and not K. Exact characterisation proved.",
 "C73": "One feature per cluster, K features; succeeds iff no cluster is empty.",
 "C74": "False when a try has no defined correlation (NaN wins np.argmax). Proved for defined performances; without tries the mode fails.",
 "C75": "False: idx is unbound on that path, for every input.",
 "C76": "Both modes, over any ordered field; the error is stated with the outputs alone (in numerical mode with the coefficients missing from c).",
 "C77": "False in numerical mode (slice starts at n+1).",
 "C78": "Normal equations, least squares, leading eigen-directions under the contract of la.eig and np.argsort, and success for independent features.",
 "C79": "False in numerical mode: r2 is the diagonal of a correlation matrix. Exact in analytic mode, and characterised as the variation explained by the best line (C79_explained_partial).",
 "C80": "False because holes are lost (C80_refuted). All exterior rings of polygons and multi-polygons can be restored by a reader.",
 "C81": "Proved for finite data, both scales, including half-to-even rounding. False with a missing value in the column (matrix for the global scale); constant columns are undefined too.",
 "C82": "False whenever SIFTED drops a feature (general theorem over SIFTED's model), CLOISTER finds no hull (C82_boundary_partial) or a subset is used. Exact success condition and all files proved otherwise.",
 "C83": "False with equal base names in different directories. Proved for distinct names; nothing else is ever in the archive.",
 "C84": "False of the code: flags of the first element survive a restart. Proved for all other elements.",
 "C86": "False (C86_refuted): found while checking an example of C36.",
 "C87": "False (C87_refuted); C87_wiped_partial gives the exact effect.",
 "C88": "False (C88_refuted); true with AbsPerf (C88_partial); C88_measure_partial gives the measure returned without normalisation.",
 "C89": "Box-Cox itself is a parameter.",
 "C90": "False for one-row tables (C90_refuted); C90_exact_partial is an iff.",
 "C91": "False for undecodable files (C91_refuted).",
 "C92": "Same assumption about ConvexHull as C56.",
 "C93": "Refuted by a concrete data set with Pearson coefficient 0.8 and the default threshold 0.7, for every correct hull computation. C93_partial: no pair of features correlates beyond the threshold.",
 "C94": "Abstract geometry with the stated laws.",
 "C95": "Abstract geometry; assumed: a point in a difference is in the first and not in the second geometry, pieces of a triangulation are convex.",
 "C96": "np.unique is a parameter.",
 "C97": "False for one algorithm, whatever the data; exact for two or more.",
 "C99": "False: the recorded measures use Yhat; shown for the recall column, the other two are also swapped (C66)."
}