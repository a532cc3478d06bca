import Verif.Wiring.Model
/-!
# Signatures, calls and returns of the stages

Generated by `tools/extract.py` from the syntax trees of /repo/instancespace/stages; do not edit.
-/
set_option autoImplicit false

namespace Verif.Wiring

/-! ### Filter -/

/-- Parameters of `do_filter`, utils/filter.py:122-128. -/
def doFilterSig : Sig :=
  ⟨["x", "y", "y_bin", "selvars_type", "min_distance"], []⟩

/-- Parameters of `filter_instance`, utils/filter.py:30-36. -/
def filterInstanceSig : Sig :=
  ⟨["x", "y", "y_bin", "selvars_type", "min_distance"], []⟩

/-- Arguments of the call of `filter_instance` in `do_filter`, utils/filter.py:146-152. -/
def filterInstanceCall : Args :=
  ⟨[.var "x", .var "y", .var "y_bin", .var "selvars_type", .var "min_distance"], []⟩

/-- Targets of the assignment from `filter_instance` in `do_filter`, utils/filter.py:146-146. -/
def filterInstanceTargets : List String :=
  ["subset_index", "is_dissimilar", "is_visa"]

/-- What `filter_instance` returns, utils/filter.py:96-96. -/
def filterInstanceReturns : List Expr :=
  [.var "subset_index", .var "is_dissimilar", .var "is_visa"]

/-- Parameters of `compute_uniformity`, utils/filter.py:99-99. -/
def uniformitySig : Sig :=
  ⟨["x", "subset_index"], []⟩

/-- Arguments of the call of `compute_uniformity` in `do_filter`, utils/filter.py:153-153. -/
def uniformityCall : Args :=
  ⟨[.var "x", .var "subset_index"], []⟩

/-- Targets of the assignment from `compute_uniformity` in `do_filter`, utils/filter.py:153-153. -/
def uniformityTargets : List String :=
  ["uniformity"]

/-- What `compute_uniformity` returns, utils/filter.py:119-119. -/
def uniformityReturns : List Expr :=
  [.app "float(1 - np.std(nearest, ddof=1) / np.mean(nearest))" ["nearest"]]

/-- What `do_filter` returns, utils/filter.py:157-157. -/
def doFilterReturns : List Expr :=
  [.var "subset_index", .var "is_dissimilar", .var "is_visa", .var "uniformity"]

/-- Arguments of the call of `do_filter` in `PrelimStage._filter`, stages/prelim.py:816-822. -/
def doFilterCall : Args :=
  ⟨[.var "x", .var "y", .var "y_bin", .app "selvars_opts.selvars_type" ["selvars_opts"], .app
    "selvars_opts.min_distance" ["selvars_opts"]], []⟩

/-- Arguments of the call of `do_filter` in `SiftedStage._sifted`, stages/sifted.py:662-668. -/
def doFilterCallSifted : Args :=
  ⟨[.app "data_dense.x[:, selvars]" ["data_dense", "selvars"], .app "data_dense.y"
    ["data_dense"], .app "data_dense.y_bin" ["data_dense"], .app "opts_selvars.selvars_type"
    ["opts_selvars"], .app "opts_selvars.min_distance" ["opts_selvars"]], []⟩

/-- Targets of the assignment from `do_filter` in `SiftedStage._sifted`, stages/sifted.py:662-662. -/
def doFilterTargetsSifted : List String :=
  ["subset_index", "_", "_", "_"]

/-! ### Preprocessing -/

/-- Parameters of `PreprocessingStage.select_features_and_algorithms`, stages/preprocessing.py:191-197. -/
def selectSig : Sig :=
  ⟨["x", "y", "feat_labels", "algo_labels", "selvars"], []⟩

/-- Names rebound or updated in place by `PreprocessingStage.select_features_and_algorithms`, stages/preprocessing.py:191-276. -/
def selectAssigned : List String :=
  ["new_x", "new_feat_labels", "new_y", "new_algo_labels", "selected_features",
    "selected_algorithms", "is_selected_feature", "is_selected_algo"]

/-- What `PreprocessingStage.select_features_and_algorithms` returns, stages/preprocessing.py:276-276. -/
def selectReturns : List Expr :=
  [.var "new_x", .var "new_y", .var "new_feat_labels", .var "new_algo_labels"]

/-- Arguments of the call of `PreprocessingStage.select_features_and_algorithms` in `PreprocessingStage._run`, stages/preprocessing.py:157-163. -/
def selectCall : Args :=
  ⟨[.var "inputs.features", .var "inputs.algorithms", .var "inputs.feature_names", .var
    "inputs.algorithm_names", .var "inputs.selvars_options"], []⟩

/-- Targets of the assignment from `PreprocessingStage.select_features_and_algorithms` in `PreprocessingStage._run`, stages/preprocessing.py:152-157. -/
def selectTargets : List String :=
  ["new_x", "new_y", "new_feat_labels", "new_algo_labels"]

/-- Parameters of `PreprocessingStage.remove_instances_with_many_missing_values`, stages/preprocessing.py:279-285. -/
def removeSig : Sig :=
  ⟨["x", "y", "s", "feat_labels", "inst_labels"], []⟩

/-- Names rebound or updated in place by `PreprocessingStage.remove_instances_with_many_missing_values`, stages/preprocessing.py:279-365. -/
def removeAssigned : List String :=
  ["new_x", "new_y", "new_inst_labels", "new_s", "new_feat_labels", "idx", "threshold", "ninst",
    "nuinst", "max_duplic_ratio"]

/-- What `PreprocessingStage.remove_instances_with_many_missing_values` returns, stages/preprocessing.py:365-365. -/
def removeReturns : List Expr :=
  [.var "new_x", .var "new_y", .var "new_inst_labels", .var "new_feat_labels", .var "new_s"]

/-- Arguments of the call of `PreprocessingStage.remove_instances_with_many_missing_values` in `PreprocessingStage._run`, stages/preprocessing.py:171-177. -/
def removeCall : Args :=
  ⟨[.var "new_x", .var "new_y", .var "inputs.instance_sources", .var "new_feat_labels", .var
    "inputs.instance_labels"], []⟩

/-- Targets of the assignment from `PreprocessingStage.remove_instances_with_many_missing_values` in `PreprocessingStage._run`, stages/preprocessing.py:165-171. -/
def removeTargets : List String :=
  ["updated_x", "updated_y", "updated_inst_labels", "updated_feat_labels", "updated_s"]

/-- Fields of `PreprocessingOutput`, stages/preprocessing.py:63-94. -/
def preprocessingFields : Sig :=
  ⟨["inst_labels", "feat_labels", "algo_labels", "x", "y", "s", "x_raw", "y_raw"], []⟩

/-- Arguments of the call of `PreprocessingOutput` in `PreprocessingStage._run`, stages/preprocessing.py:179-188. -/
def preprocessingOut : Args :=
  ⟨[.var "updated_inst_labels", .var "updated_feat_labels", .var "new_algo_labels", .var
    "updated_x", .var "updated_y", .var "updated_s", .var "updated_x", .var "updated_y"], []⟩

/-! ### PRELIM -/

/-- Parameters of `PrelimStage.prelim`, stages/prelim.py:318-327. -/
def prelimSig : Sig :=
  ⟨["x", "y", "x_raw", "y_raw", "s", "inst_labels", "prelim_opts", "selvars_opts"], []⟩

/-- Arguments of the call of `PrelimStage.prelim` in `PrelimStage._run`, stages/prelim.py:238-247. -/
def prelimCall : Args :=
  ⟨[.var "inputs.x", .var "inputs.y", .var "inputs.x_raw", .var "inputs.y_raw", .var "inputs.s",
    .var "inputs.inst_labels", .var "inputs.prelim_options", .var "inputs.selvars_options"], []⟩

/-- Targets of the assignment from `PrelimStage.prelim` in `PrelimStage._run`, stages/prelim.py:218-238. -/
def prelimTargets : List String :=
  ["x", "y", "y_bin", "y_best", "p", "num_good_algos", "beta", "med_val", "iq_range",
    "hi_bound", "lo_bound", "min_x", "lambda_x", "mu_x", "sigma_x", "min_y", "lambda_y",
    "sigma_y", "mu_y"]

/-- Parameters of `PrelimStage.__init__`, stages/prelim.py:184-194. -/
def prelimInitSig : Sig :=
  ⟨["x", "y", "x_raw", "y_raw", "s", "inst_labels", "prelim_opts", "selvars_opts"], []⟩

/-- Attributes set by `PrelimStage.__init__`, stages/prelim.py:196-203. -/
def prelimAttrs : List (String × Expr) :=
  [("self.x", .var "x"), ("self.y", .var "y"), ("self.prelim_opts", .var "prelim_opts"),
    ("self.selvars_opts", .var "selvars_opts"), ("self.x_raw", .var "x_raw"), ("self.y_raw", .var
    "y_raw"), ("self.s", .var "s"), ("self.inst_labels", .var "inst_labels")]

/-- Arguments of the call of `PrelimStage` in `PrelimStage.prelim`, stages/prelim.py:362-371. -/
def prelimInitCall : Args :=
  ⟨[.var "x", .var "y", .var "x_raw", .var "y_raw", .var "s", .var "inst_labels", .var
    "prelim_opts", .var "selvars_opts"], []⟩

/-- Parameters of `PrelimStage._prelim`, stages/prelim.py:584-589. -/
def innerPrelimSig : Sig :=
  ⟨["x", "y", "prelim_opts"], []⟩

/-- Arguments of the call of `prelim_stage._prelim` in `PrelimStage.prelim`, stages/prelim.py:373-377. -/
def innerPrelimCall : Args :=
  ⟨[.var "x", .var "y", .var "prelim_opts"], []⟩

/-- Names rebound or updated in place by `PrelimStage._prelim`, stages/prelim.py:584-734. -/
def innerPrelimAssigned : List String :=
  ["y_raw", "nalgos", "msg", "num_good_algos", "p", "beta", "med_val", "iq_range", "hi_bound",
    "lo_bound", "nfeats", "min_x", "lambda_x", "mu_x", "sigma_x", "min_y", "lambda_y", "mu_y",
    "sigma_y", "y_aux", "y_best", "bound_out", "x", "normalise_out", "y", "y_bin"]

/-- What `PrelimStage._prelim` returns, stages/prelim.py:714-734. -/
def innerPrelimReturns : List Expr :=
  [.var "x", .var "y", .var "y_bin", .var "y_best", .var "p", .var "num_good_algos", .var
    "beta", .var "med_val", .var "iq_range", .var "hi_bound", .var "lo_bound", .var "min_x", .var
    "lambda_x", .var "mu_x", .var "sigma_x", .var "min_y", .var "lambda_y", .var "sigma_y", .var
    "mu_y"]

/-- Parameters of `PrelimStage._select_best_algorithms`, stages/prelim.py:379-387. -/
def bestSig : Sig :=
  ⟨["y_raw", "y_best", "y_bin", "nalgos", "beta_threshold", "p"], []⟩

/-- Arguments of the call of `self._select_best_algorithms` in `PrelimStage._prelim`, stages/prelim.py:668-675. -/
def bestCall : Args :=
  ⟨[.var "y_raw", .var "y_best", .var "y_bin", .var "nalgos", .app "prelim_opts.beta_threshold"
    ["prelim_opts"], .var "p"], []⟩

/-- Targets of the assignment from `self._select_best_algorithms` in `PrelimStage._prelim`, stages/prelim.py:668-668. -/
def bestTargets : List String :=
  ["num_good_algos", "p", "beta"]

/-- What `PrelimStage._select_best_algorithms` returns, stages/prelim.py:434-434. -/
def bestReturns : List Expr :=
  [.var "num_good_algos", .var "p", .var "beta"]

/-- Arguments of the call of `PrelimStage` in `PrelimStage._run`, stages/prelim.py:249-258. -/
def prelimInitCall2 : Args :=
  ⟨[.var "x", .var "y", .var "inputs.x_raw", .var "inputs.y_raw", .var "inputs.s", .var
    "inputs.inst_labels", .var "inputs.prelim_options", .var "inputs.selvars_options"], []⟩

/-- Parameters of `PrelimStage._filter`, stages/prelim.py:736-750. -/
def filterSig : Sig :=
  ⟨["inst_labels", "x", "y", "y_bin", "y_best", "x_raw", "y_raw", "p", "num_good_algos", "beta",
    "s", "selvars_opts"], []⟩

/-- Arguments of the call of `prelim._filter` in `PrelimStage._run`, stages/prelim.py:274-287. -/
def filterCall : Args :=
  ⟨[.var "inputs.inst_labels", .var "x", .var "y", .var "y_bin", .var "y_best", .var
    "inputs.x_raw", .var "inputs.y_raw", .var "p", .var "num_good_algos", .var "beta", .var
    "inputs.s", .var "inputs.selvars_options"], []⟩

/-- Targets of the assignment from `prelim._filter` in `PrelimStage._run`, stages/prelim.py:260-274. -/
def filterTargets : List String :=
  ["subset_index", "x", "y", "x_raw", "y_raw", "y_bin", "beta", "num_good_algos", "y_best", "p",
    "inst_labels", "s", "data_dense"]

/-- Names rebound or updated in place by `PrelimStage._filter`, stages/prelim.py:736-876. -/
def filterAssigned : List String :=
  ["data_dense", "ninst", "fractional", "path", "fileindexed", "bydensity", "_", "subset_idx",
    "subset_index", "x", "y", "x_raw", "y_raw", "y_bin", "beta", "num_good_algos", "y_best", "p",
    "inst_labels", "aux", "i", "s"]

/-- What `PrelimStage._filter` returns, stages/prelim.py:862-876. -/
def filterReturns : List Expr :=
  [.var "subset_index", .var "x", .var "y", .var "x_raw", .var "y_raw", .var "y_bin", .var
    "beta", .var "num_good_algos", .var "y_best", .var "p", .var "inst_labels", .var "s", .var
    "data_dense"]

/-- Fields of `PrelimOutput`, stages/prelim.py:66-154. -/
def prelimFields : Sig :=
  ⟨["med_val", "iq_range", "hi_bound", "lo_bound", "min_x", "lambda_x", "mu_x", "sigma_x",
    "min_y", "lambda_y", "sigma_y", "mu_y", "x", "y", "x_raw", "y_raw", "y_bin", "y_best", "p",
    "num_good_algos", "beta", "instlabels", "data_dense", "s"], []⟩

/-- Arguments of the call of `PrelimOutput` in `PrelimStage._run`, stages/prelim.py:289-314. -/
def prelimOut : Args :=
  ⟨[.var "med_val", .var "iq_range", .var "hi_bound", .var "lo_bound", .var "min_x", .var
    "lambda_x", .var "mu_x", .var "sigma_x", .var "min_y", .var "lambda_y", .var "sigma_y", .var
    "mu_y", .var "x", .var "y", .var "x_raw", .var "y_raw", .var "y_bin", .var "y_best", .var "p",
    .var "num_good_algos", .var "beta", .var "inst_labels", .var "data_dense", .var "s"], []⟩

/-- Fields of `DataDense`, data/model.py:75-88. -/
def denseFields : Sig :=
  ⟨["inst_labels", "x", "y", "x_raw", "y_raw", "y_bin", "y_best", "p", "num_good_algos", "beta",
    "s"], []⟩

/-- Arguments of the call of `DataDense` in `PrelimStage._filter`, stages/prelim.py:834-846. -/
def denseCall : Args :=
  ⟨[], [("x", .var "x"), ("y", .var "y"), ("x_raw", .var "x_raw"), ("y_raw", .var "y_raw"),
    ("y_bin", .var "y_bin"), ("y_best", .var "y_best"), ("p", .var "p"), ("num_good_algos", .var
    "num_good_algos"), ("beta", .var "beta"), ("inst_labels", .var "inst_labels"), ("s", .var
    "s")]⟩

/-! ### SIFTED -/

/-- Parameters of `SiftedStage.sifted`, stages/sifted.py:397-414. -/
def siftedSig : Sig :=
  ⟨["x", "y", "y_bin", "x_raw", "y_raw", "beta", "num_good_algos", "y_best", "p", "inst_labels",
    "s", "feat_labels", "opts", "opts_selvars", "data_dense", "parallel_options"], []⟩

/-- Arguments of the call of `SiftedStage.sifted` in `SiftedStage._run`, stages/sifted.py:369-386. -/
def siftedCall : Args :=
  ⟨[], [("x", .var "inputs.x"), ("y", .var "inputs.y"), ("y_bin", .var "inputs.y_bin"),
    ("feat_labels", .var "inputs.feat_labels"), ("opts", .var "inputs.sifted_options"),
    ("opts_selvars", .var "inputs.selvars_options"), ("data_dense", .var "inputs.data_dense"),
    ("x_raw", .var "inputs.x_raw"), ("y_raw", .var "inputs.y_raw"), ("beta", .var "inputs.beta"),
    ("num_good_algos", .var "inputs.num_good_algos"), ("y_best", .var "inputs.y_best"), ("p", .var
    "inputs.p"), ("inst_labels", .var "inputs.inst_labels"), ("s", .var "inputs.s"),
    ("parallel_options", .var "inputs.parallel_options")]⟩

/-- Parameters of `SiftedStage.__init__`, stages/sifted.py:286-302. -/
def siftedInitSig : Sig :=
  ⟨["x", "y", "y_bin", "x_raw", "y_raw", "beta", "num_good_algos", "y_best", "p", "inst_labels",
    "s", "feat_labels", "opts", "parallel_options"], []⟩

/-- Attributes set by `SiftedStage.__init__`, stages/sifted.py:332-345. -/
def siftedAttrs : List (String × Expr) :=
  [("self.x", .var "x"), ("self.y", .var "y"), ("self.y_bin", .var "y_bin"),
    ("self.feat_labels", .app "np.array(feat_labels)" ["feat_labels"]), ("self.x_raw", .var
    "x_raw"), ("self.y_raw", .var "y_raw"), ("self.beta", .var "beta"), ("self.num_good_algos",
    .var "num_good_algos"), ("self.y_best", .var "y_best"), ("self.p", .var "p"),
    ("self.inst_labels", .var "inst_labels"), ("self.s", .var "s"), ("self.opts", .var "opts"),
    ("self.parallel_options", .var "parallel_options")]

/-- Arguments of the call of `SiftedStage` in `SiftedStage.sifted`, stages/sifted.py:465-480. -/
def siftedInitCall : Args :=
  ⟨[.var "x", .var "y", .var "y_bin", .var "x_raw", .var "y_raw", .var "beta", .var
    "num_good_algos", .var "y_best", .var "p", .var "inst_labels", .var "s", .var "feat_labels",
    .var "opts", .var "parallel_options"], []⟩

/-- Parameters of `SiftedStage.sift`, stages/sifted.py:388-392. -/
def siftSig : Sig :=
  ⟨["opts_selvars", "data_dense"], []⟩

/-- Arguments of the call of `sifted.sift` in `SiftedStage.sifted`, stages/sifted.py:482-485. -/
def siftCall : Args :=
  ⟨[], [("opts_selvars", .var "opts_selvars"), ("data_dense", .var "data_dense")]⟩

/-- Parameters of `SiftedStage._sifted`, stages/sifted.py:487-491. -/
def innerSiftedSig : Sig :=
  ⟨["opts_selvars", "data_dense"], []⟩

/-- Arguments of the call of `self._sifted` in `SiftedStage.sift`, stages/sifted.py:394-394. -/
def innerSiftedCall : Args :=
  ⟨[.var "opts_selvars", .var "data_dense"], []⟩

/-- First assignments of `SiftedStage._sifted`, stages/sifted.py:527-539. -/
def innerSiftedPrefix : List (String × Expr) :=
  [("x", .var "self.x"), ("y", .var "self.y"), ("y_bin", .var "self.y_bin"), ("x_raw", .var
    "self.x_raw"), ("y_raw", .var "self.y_raw"), ("beta", .var "self.beta"), ("num_good_algos",
    .var "self.num_good_algos"), ("y_best", .var "self.y_best"), ("p", .var "self.p"),
    ("inst_labels", .var "self.inst_labels"), ("s", .var "self.s"), ("feat_labels", .var
    "self.feat_labels"), ("opts", .var "self.opts")]

/-- Fields of `SiftedOutput`, stages/sifted.py:138-199. -/
def siftedFields : Sig :=
  ⟨["x", "y", "y_bin", "x_raw", "y_raw", "beta", "num_good_algos", "y_best", "p", "inst_labels",
    "s", "feat_labels", "selvars", "idx", "rho", "pval", "silhouette_scores", "clust"], []⟩

/-- Arguments of the call of `SiftedOutput` in `SiftedStage._sifted`, stages/sifted.py:567-586. -/
def siftedOut1 : Args :=
  ⟨[.var "x", .var "y", .var "y_bin", .var "x_raw", .var "y_raw", .var "beta", .var
    "num_good_algos", .var "y_best", .var "p", .var "inst_labels", .var "s", .app
    "list(feat_labels)" ["feat_labels"], .var "selvars", .var "idx", .app "None" [], .app "None"
    [], .app "None" [], .app "None" []], []⟩

/-- Names rebound or updated in place by `SiftedStage._sifted`, stages/sifted.py:487-567. -/
def siftedAssigned1 : List String :=
  ["nfeats", "idx", "rng", "bydensity", "selvars"]

/-- Arguments of the call of `SiftedOutput` in `SiftedStage._sifted`, stages/sifted.py:604-623. -/
def siftedOut2 : Args :=
  ⟨[.var "x_aux", .var "y", .var "y_bin", .var "x_raw", .var "y_raw", .var "beta", .var
    "num_good_algos", .var "y_best", .var "p", .var "inst_labels", .var "s", .app "[feat_labels[i] for i in selvars]" ["feat_labels", "selvars"], .var "selvars", .var "idx", .var "rho", .var
    "pval", .app "None" [], .app "None" []], []⟩

/-- Names rebound or updated in place by `SiftedStage._sifted`, stages/sifted.py:487-604. -/
def siftedAssigned2 : List String :=
  ["nfeats", "idx", "rng", "bydensity", "x_aux", "rho", "pval", "selvars"]

/-- Arguments of the call of `SiftedOutput` in `SiftedStage._sifted`, stages/sifted.py:630-649. -/
def siftedOut3 : Args :=
  ⟨[.var "x_aux", .var "y", .var "y_bin", .var "x_raw", .var "y_raw", .var "beta", .var
    "num_good_algos", .var "y_best", .var "p", .var "inst_labels", .var "s", .app "[feat_labels[i] for i in selvars]" ["feat_labels", "selvars"], .var "selvars", .var "idx", .var "rho", .var
    "pval", .app "None" [], .app "None" []], []⟩

/-- Names rebound or updated in place by `SiftedStage._sifted`, stages/sifted.py:487-630. -/
def siftedAssigned3 : List String :=
  ["nfeats", "idx", "rng", "bydensity", "x_aux", "rho", "pval", "selvars"]

/-- Arguments of the call of `SiftedOutput` in `SiftedStage._sifted`, stages/sifted.py:672-691. -/
def siftedOut4 : Args :=
  ⟨[.app "data_dense.x[subset_index][:selvars]" ["data_dense", "subset_index", "selvars"], .app
    "data_dense.y[subset_index][:]" ["data_dense", "subset_index"], .app
    "data_dense.y_bin[subset_index][:]" ["data_dense", "subset_index"], .app
    "data_dense.x_raw[subset_index][:]" ["data_dense", "subset_index"], .app
    "data_dense.y_raw[subset_index][:]" ["data_dense", "subset_index"], .app
    "data_dense.beta[subset_index]" ["data_dense", "subset_index"], .app
    "data_dense.num_good_algos[subset_index]" ["data_dense", "subset_index"], .app
    "data_dense.y_best[subset_index][:]" ["data_dense", "subset_index"], .app
    "data_dense.p[subset_index]" ["data_dense", "subset_index"], .app
    "data_dense.inst_labels[subset_index]" ["data_dense", "subset_index"], .var "s", .app
    "[feat_labels[i] for i in selvars]" ["feat_labels", "selvars"], .var "selvars", .var "idx",
    .var "rho", .var "pval", .var "silhouette_scores", .var "clust"], []⟩

/-- Names rebound or updated in place by `SiftedStage._sifted`, stages/sifted.py:487-672. -/
def siftedAssigned4 : List String :=
  ["nfeats", "idx", "rng", "bydensity", "x_aux", "rho", "pval", "selvars", "silhouette_scores",
    "_", "clust", "subset_index", "s"]

/-- Arguments of the call of `SiftedOutput` in `SiftedStage._sifted`, stages/sifted.py:692-711. -/
def siftedOut5 : Args :=
  ⟨[.var "x_aux", .var "y", .var "y_bin", .var "x_raw", .var "y_raw", .var "beta", .var
    "num_good_algos", .var "y_best", .var "p", .var "inst_labels", .var "s", .app "[feat_labels[i] for i in selvars]" ["feat_labels", "selvars"], .var "selvars", .var "idx", .var "rho", .var
    "pval", .var "silhouette_scores", .var "clust"], []⟩

/-- Names rebound or updated in place by `SiftedStage._sifted`, stages/sifted.py:487-692. -/
def siftedAssigned5 : List String :=
  ["nfeats", "idx", "rng", "bydensity", "x_aux", "rho", "pval", "selvars", "silhouette_scores",
    "_", "clust"]

/-! ### PILOT -/

/-- Parameters of `PilotStage.pilot`, stages/pilot.py:175-181. -/
def pilotSig : Sig :=
  ⟨["x", "y", "feat_labels", "options", "_do_output"], ["_do_output"]⟩

/-- Arguments of the call of `PilotStage.pilot` in `PilotStage._run`, stages/pilot.py:159-164. -/
def pilotCall : Args :=
  ⟨[.var "inputs.x", .var "inputs.y", .var "inputs.feat_labels", .var "inputs.pilot_options"],
    []⟩

/-- Names rebound or updated in place by `PilotStage.pilot`, stages/pilot.py:175-330. -/
def pilotAssigned : List String :=
  ["n", "x_bar", "m", "hd", "x0", "alpha", "eoptim", "perf", "row_labels", "rldf", "summary",
    "out_a", "out_z", "out_c", "out_b", "error", "r2", "b", "x_hat", "x_init", "pout", "idx",
    "rng"]

/-- Fields of `PilotOutput`, stages/pilot.py:46-85. -/
def pilotFields : Sig :=
  ⟨["X0", "alpha", "eoptim", "perf", "a", "z", "c", "b", "error", "r2", "pilot_summary"], []⟩

/-- Arguments of the call of `PilotOutput` in `PilotStage.pilot`, stages/pilot.py:292-304. -/
def pilotOut1 : Args :=
  ⟨[.var "x_init", .var "alpha", .var "eoptim", .var "perf", .var "out_a", .var "out_z", .var
    "out_c", .var "out_b", .var "error", .var "r2", .var "summary"], []⟩

/-- Arguments of the call of `PilotOutput` in `PilotStage.pilot`, stages/pilot.py:306-318. -/
def pilotOut2 : Args :=
  ⟨[.var "x0", .var "alpha", .var "eoptim", .var "perf", .var "out_a", .var "out_z", .var
    "out_c", .var "out_b", .var "error", .var "r2", .var "summary"], []⟩

/-- Parameters of `PilotStage.analytic_solve`, stages/pilot.py:333-339. -/
def analyticSig : Sig :=
  ⟨["x", "x_bar", "n", "m", "_do_output"], ["_do_output"]⟩

/-- Arguments of the call of `PilotStage.analytic_solve` in `PilotStage.pilot`, stages/pilot.py:215-220. -/
def analyticCall : Args :=
  ⟨[.var "x", .var "x_bar", .var "n", .var "m"], []⟩

/-- Targets of the assignment from `PilotStage.analytic_solve` in `PilotStage.pilot`, stages/pilot.py:215-215. -/
def analyticTargets : List String :=
  ["out_a", "out_z", "out_c", "out_b", "error", "r2"]

/-- What `PilotStage.analytic_solve` returns, stages/pilot.py:431-431. -/
def analyticReturns : List Expr :=
  [.var "a", .var "z", .var "c", .var "b", .var "err", .var "corref"]

/-- Parameters of `PilotStage.numerical_solve`, stages/pilot.py:434-446. -/
def numericalSig : Sig :=
  ⟨["x", "hd", "x0", "x_bar", "n", "m", "alpha", "eoptim", "perf", "opts", "_do_output"],
    ["_do_output"]⟩

/-- Arguments of the call of `PilotStage.numerical_solve` in `PilotStage.pilot`, stages/pilot.py:250-262. -/
def numericalCall : Args :=
  ⟨[.var "x", .var "hd", .var "x0", .var "x_bar", .var "n", .var "m", .var "alpha", .var
    "eoptim", .var "perf", .var "options", .var "_do_output"], []⟩

/-- Targets of the assignment from `PilotStage.numerical_solve` in `PilotStage.pilot`, stages/pilot.py:250-250. -/
def numericalTargets : List String :=
  ["idx", "alpha", "eoptim", "perf"]

/-- What `PilotStage.numerical_solve` returns, stages/pilot.py:527-527. -/
def numericalReturns : List Expr :=
  [.var "idx", .var "al", .var "ept", .var "prf"]

/-! ### PYTHIA -/

/-- Parameters of `PythiaStage.pythia`, stages/pythia.py:284-292. -/
def pythiaSig : Sig :=
  ⟨["z", "y", "y_bin", "y_best", "algo_labels", "opts", "parallel_options"], []⟩

/-- Arguments of the call of `PythiaStage.pythia` in `PythiaStage._run`, stages/pythia.py:273-281. -/
def pythiaCall : Args :=
  ⟨[.var "inputs.z", .var "inputs.y_raw", .var "inputs.y_bin", .var "inputs.y_best", .var
    "inputs.algo_labels", .var "inputs.pythia_options", .var "inputs.parallel_options"], []⟩

/-- Names rebound or updated in place by `PythiaStage.pythia`, stages/pythia.py:284-511. -/
def pythiaAssigned : List String :=
  ["ninst", "nalgos", "y_sub", "y_hat", "pr0sub", "pr0hat", "precalcparams", "cp", "svm",
    "cvcmat", "box_consnt", "k_scale", "accuracy_record", "precision_record", "recall_record",
    "w", "rng", "mu", "sigma", "z", "overall_start_time", "i", "selection0", "selection1",
    "summary", "algo_start_time", "param_space", "res", "cm", "tn", "fp", "fn", "tp", "accuracy",
    "precision", "recall"]

/-- Parameters of `PythiaStage._fitmatsvm`, stages/pythia.py:514-523. -/
def fitSig : Sig :=
  ⟨["z", "y_bin", "w", "skf", "is_poly_kernel", "param_space", "use_grid_search",
    "parallel_options"], []⟩

/-- Arguments of the call of `PythiaStage._fitmatsvm` in `PythiaStage.pythia`, stages/pythia.py:412-421. -/
def fitCall : Args :=
  ⟨[], [("z", .var "z"), ("y_bin", .app "y_bin[:, i]" ["y_bin", "i"]), ("w", .app "w[:, i].flatten()" ["w", "i"]), ("skf", .var "cp"), ("is_poly_kernel", .app "opts.is_poly_krnl"
    ["opts"]), ("param_space", .var "param_space"), ("use_grid_search", .app
    "opts.use_grid_search" ["opts"]), ("parallel_options", .var "parallel_options")]⟩

/-- Parameters of `PythiaStage._determine_selections`, stages/pythia.py:686-691. -/
def selectionsSig : Sig :=
  ⟨["nalgos", "precision", "y_hat", "y_bin"], []⟩

/-- Arguments of the call of `PythiaStage._determine_selections` in `PythiaStage.pythia`, stages/pythia.py:464-469. -/
def selectionsCall : Args :=
  ⟨[.var "nalgos", .var "precision_record", .var "y_hat", .var "y_bin"], []⟩

/-- Targets of the assignment from `PythiaStage._determine_selections` in `PythiaStage.pythia`, stages/pythia.py:464-464. -/
def selectionsTargets : List String :=
  ["selection0", "selection1"]

/-- What `PythiaStage._determine_selections` returns, stages/pythia.py:728-728. -/
def selectionsReturns : List Expr :=
  [.var "selection0", .var "selection1"]

/-- Parameters of `PythiaStage._generate_summary`, stages/pythia.py:756-770. -/
def summarySig : Sig :=
  ⟨["nalgos", "algo_labels", "y", "y_hat", "y_bin", "y_best", "selection0", "selection1",
    "precision", "accuracy", "recall", "box_consnt", "k_scale"], []⟩

/-- Arguments of the call of `PythiaStage._generate_summary` in `PythiaStage.pythia`, stages/pythia.py:476-490. -/
def summaryCall : Args :=
  ⟨[.var "nalgos", .var "algo_labels", .var "y", .var "y_hat", .var "y_bin", .var "y_best", .var
    "selection0", .var "selection1", .var "accuracy_record", .var "precision_record", .var
    "recall_record", .var "box_consnt", .var "k_scale"], []⟩

/-- Fields of `PythiaOutput`, stages/pythia.py:111-171. -/
def pythiaFields : Sig :=
  ⟨["mu", "sigma", "w", "cp", "svm", "cvcmat", "y_sub", "y_hat", "pr0_sub", "pr0_hat",
    "box_consnt", "k_scale", "accuracy", "precision", "recall", "selection0", "selection1",
    "pythia_summary"], []⟩

/-- Arguments of the call of `PythiaOutput` in `PythiaStage.pythia`, stages/pythia.py:492-511. -/
def pythiaOut : Args :=
  ⟨[.var "mu", .var "sigma", .var "w", .var "cp", .var "svm", .var "cvcmat", .var "y_sub", .var
    "y_hat", .var "pr0sub", .var "pr0hat", .var "box_consnt", .var "k_scale", .var
    "accuracy_record", .var "precision_record", .var "recall_record", .var "selection0", .var
    "selection1", .var "summary"], []⟩

/-! ### CLOISTER -/

/-- Parameters of `CloisterStage.cloister`, stages/cloister.py:161-165. -/
def cloisterSig : Sig :=
  ⟨["x", "a", "options"], []⟩

/-- Arguments of the call of `CloisterStage.cloister` in `CloisterStage._run`, stages/cloister.py:158-158. -/
def cloisterCall : Args :=
  ⟨[.var "inputs.x", .var "inputs.a", .var "inputs.cloister_options"], []⟩

/-- Names rebound or updated in place by `CloisterStage.cloister`, stages/cloister.py:161-199. -/
def cloisterAssigned : List String :=
  ["rho", "x_edge", "remove", "z_edge", "z_ecorr"]

/-- Fields of `CloisterOutput`, stages/cloister.py:68-80. -/
def cloisterFields : Sig :=
  ⟨["z_edge", "z_ecorr"], []⟩

/-- Arguments of the call of `CloisterOutput` in `CloisterStage.cloister`, stages/cloister.py:199-199. -/
def cloisterOut : Args :=
  ⟨[.var "z_edge", .var "z_ecorr"], []⟩

/-! ### TRACE -/

/-- Parameters of `TraceStage.trace`, stages/trace.py:313-321. -/
def traceSig : Sig :=
  ⟨["z", "y_bin", "p", "beta", "algo_labels", "trace_opts", "parallel_opts"], []⟩

/-- Arguments of the call of `TraceStage.trace` in `TraceStage._run`, stages/trace.py:292-300. -/
def traceCall1 : Args :=
  ⟨[.var "inputs.z", .var "inputs.y_hat", .var "inputs.selection0", .var "inputs.beta", .var
    "inputs.algo_labels", .var "inputs.trace_options", .var "inputs.parallel_options"], []⟩

/-- Arguments of the call of `TraceStage.trace` in `TraceStage._run`, stages/trace.py:302-310. -/
def traceCall2 : Args :=
  ⟨[.var "inputs.z", .var "inputs.y_bin", .var "inputs.p", .var "inputs.beta", .var
    "inputs.algo_labels", .var "inputs.trace_options", .var "inputs.parallel_options"], []⟩

/-- Parameters of `TraceStage.__init__`, stages/trace.py:203-212. -/
def traceInitSig : Sig :=
  ⟨["z", "y_bin", "p", "beta", "algo_labels", "trace_opts", "parallel_opts"], []⟩

/-- Attributes set by `TraceStage.__init__`, stages/trace.py:233-239. -/
def traceAttrs : List (String × Expr) :=
  [("self.z", .var "z"), ("self.y_bin", .var "y_bin"), ("self.p", .var "p"), ("self.beta", .var
    "beta"), ("self.algo_labels", .var "algo_labels"), ("self.opts", .var "trace_opts"),
    ("self.parallel_opts", .var "parallel_opts")]

/-- Arguments of the call of `TraceStage` in `TraceStage.trace`, stages/trace.py:349-349. -/
def traceInitCall : Args :=
  ⟨[.var "z", .var "y_bin", .var "p", .var "beta", .var "algo_labels", .var "trace_opts", .var
    "parallel_opts"], []⟩

/-- Names rebound or updated in place by `TraceStage._trace`, stages/trace.py:352-518. -/
def innerTraceAssigned : List String :=
  ["true_array", "space", "n_algos", "good", "best", "i", "hard", "algorithm_names_df",
    "data_labels", "summary_data", "_", "summary_df", "final_df", "start_base", "algo_1", "j",
    "elapsed_base", "summary_row", "start_test", "algo_2", "elapsed_test"]

/-- Fields of `TraceOutputs`, stages/trace.py:103-126. -/
def traceFields : Sig :=
  ⟨["space", "good", "best", "hard", "trace_summary"], []⟩

/-- Arguments of the call of `TraceOutputs` in `TraceStage._trace`, stages/trace.py:512-518. -/
def traceOut : Args :=
  ⟨[], [("space", .var "space"), ("good", .var "good"), ("best", .var "best"), ("hard", .var
    "hard"), ("trace_summary", .var "final_df")]⟩

end Verif.Wiring
