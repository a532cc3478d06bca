/-!
# Tables of the default pipeline

Names and annotated types of the fields of the NamedTuples that the seven stages declare,
transcribed from the source (script `tools/pipeline_tables.py`).  Two annotations get the same
`Ty` exactly when they are written identically in the source.
-/
set_option autoImplicit false

namespace Verif.Pipeline

/-- The seven stages, instance_space.py:140-148. -/
inductive Stg
  | preprocessing | prelim | sifted | pilot | pythia | cloister | trace
  deriving DecidableEq, Repr

/-- Field names used by the stages, `_InstanceSpaceInputs` (instance_space.py:54-73) and the Model; see the tables below
for the files and lines. -/
inductive Name
| feature_names | algorithm_names | instance_labels | instance_sources | features | algorithms |
   selvars_options | inst_labels | feat_labels | algo_labels | x | y | s | x_raw | y_raw |
   prelim_options | med_val | iq_range | hi_bound | lo_bound | min_x | lambda_x | mu_x | sigma_x
   | min_y | lambda_y | sigma_y | mu_y | y_bin | y_best | p | num_good_algos | beta | instlabels
   | data_dense | sifted_options | parallel_options | selvars | idx | rho | pval |
   silhouette_scores | clust | pilot_options | X0 | alpha | eoptim | perf | a | z | c | b |
   error | r2 | pilot_summary | pythia_options | mu | sigma | w | cp | svm | cvcmat | y_sub |
   y_hat | pr0_sub | pr0_hat | box_consnt | k_scale | accuracy | precision | recall | selection0
   | selection1 | pythia_summary | cloister_options | z_edge | z_ecorr | trace_options | space |
   good | best | hard | trace_summary | perf_options | auto_options | bound_options |
   norm_options | outputs_options
  deriving DecidableEq, Repr

/-- Annotated types occurring in these classes, e.g. stages/prelim.py:28-62. -/
inductive Ty
| listStr | series | optSeries | arrayDouble | selvarsOptions | prelimOptions | float |
   arrayBool | arrayInt | optDataDense | siftedOptions | parallelOptions | arrayIntc |
   optArrayDouble | optListFloat | optArrayBool | pilotOptions | dataFrame | pythiaOptions |
   listFloat | stratifiedKFold | listSVC | cloisterOptions | traceOptions | footprint |
   listFootprint | performanceOptions | autoOptions | boundOptions | normOptions | outputOptions
  deriving DecidableEq, Repr

/-- The inputs declared by each stage:
stages/preprocessing.py:33-60 (PreprocessingInput);
stages/prelim.py:28-62 (PrelimInput);
stages/sifted.py:80-135 (SiftedInput);
stages/pilot.py:25-43 (PilotInput);
stages/pythia.py:81-108 (PythiaInput);
stages/cloister.py:50-65 (CloisterInput);
stages/trace.py:66-100 (TraceInputs). -/
def inputs : Stg → List (Name × Ty)
| .preprocessing => [(.feature_names, .listStr), (.algorithm_names, .listStr),
   (.instance_labels, .series), (.instance_sources, .optSeries), (.features, .arrayDouble),
   (.algorithms, .arrayDouble), (.selvars_options, .selvarsOptions)]
| .prelim => [(.x, .arrayDouble), (.y, .arrayDouble), (.x_raw, .arrayDouble), (.y_raw,
   .arrayDouble), (.s, .optSeries), (.inst_labels, .series), (.prelim_options, .prelimOptions),
   (.selvars_options, .selvarsOptions)]
| .sifted => [(.x, .arrayDouble), (.y, .arrayDouble), (.y_bin, .arrayBool), (.x_raw,
   .arrayDouble), (.y_raw, .arrayDouble), (.beta, .arrayBool), (.num_good_algos, .arrayDouble),
   (.y_best, .arrayDouble), (.p, .arrayInt), (.inst_labels, .series), (.feat_labels, .listStr),
   (.s, .optSeries), (.sifted_options, .siftedOptions), (.selvars_options, .selvarsOptions),
   (.data_dense, .optDataDense), (.parallel_options, .parallelOptions)]
| .pilot => [(.x, .arrayDouble), (.y, .arrayDouble), (.feat_labels, .listStr), (.pilot_options,
   .pilotOptions)]
| .pythia => [(.z, .arrayDouble), (.y_raw, .arrayDouble), (.y_bin, .arrayBool), (.y_best,
   .arrayDouble), (.algo_labels, .listStr), (.pythia_options, .pythiaOptions),
   (.parallel_options, .parallelOptions)]
| .cloister => [(.x, .arrayDouble), (.a, .arrayDouble), (.cloister_options, .cloisterOptions)]
| .trace => [(.z, .arrayDouble), (.selection0, .arrayInt), (.p, .arrayInt), (.beta, .arrayBool),
   (.algo_labels, .listStr), (.y_hat, .arrayBool), (.y_bin, .arrayBool), (.trace_options,
   .traceOptions), (.parallel_options, .parallelOptions)]

/-- The outputs declared by each stage:
stages/preprocessing.py:63-94 (PreprocessingOutput);
stages/prelim.py:66-154 (PrelimOutput);
stages/sifted.py:138-199 (SiftedOutput);
stages/pilot.py:46-85 (PilotOutput);
stages/pythia.py:111-171 (PythiaOutput);
stages/cloister.py:68-80 (CloisterOutput);
stages/trace.py:103-126 (TraceOutputs). -/
def outputs : Stg → List (Name × Ty)
| .preprocessing => [(.inst_labels, .series), (.feat_labels, .listStr), (.algo_labels,
   .listStr), (.x, .arrayDouble), (.y, .arrayDouble), (.s, .optSeries), (.x_raw, .arrayDouble),
   (.y_raw, .arrayDouble)]
| .prelim => [(.med_val, .arrayDouble), (.iq_range, .arrayDouble), (.hi_bound, .arrayDouble),
   (.lo_bound, .arrayDouble), (.min_x, .arrayDouble), (.lambda_x, .arrayDouble), (.mu_x,
   .arrayDouble), (.sigma_x, .arrayDouble), (.min_y, .float), (.lambda_y, .arrayDouble),
   (.sigma_y, .arrayDouble), (.mu_y, .arrayDouble), (.x, .arrayDouble), (.y, .arrayDouble),
   (.x_raw, .arrayDouble), (.y_raw, .arrayDouble), (.y_bin, .arrayBool), (.y_best,
   .arrayDouble), (.p, .arrayInt), (.num_good_algos, .arrayDouble), (.beta, .arrayBool),
   (.instlabels, .optSeries), (.data_dense, .optDataDense), (.s, .optSeries)]
| .sifted => [(.x, .arrayDouble), (.y, .arrayDouble), (.y_bin, .arrayBool), (.x_raw,
   .arrayDouble), (.y_raw, .arrayDouble), (.beta, .arrayBool), (.num_good_algos, .arrayDouble),
   (.y_best, .arrayDouble), (.p, .arrayInt), (.inst_labels, .series), (.s, .optSeries),
   (.feat_labels, .listStr), (.selvars, .arrayIntc), (.idx, .arrayIntc), (.rho,
   .optArrayDouble), (.pval, .optArrayDouble), (.silhouette_scores, .optListFloat), (.clust,
   .optArrayBool)]
| .pilot => [(.X0, .optArrayDouble), (.alpha, .optArrayDouble), (.eoptim, .optArrayDouble),
   (.perf, .optArrayDouble), (.a, .arrayDouble), (.z, .arrayDouble), (.c, .arrayDouble), (.b,
   .arrayDouble), (.error, .arrayDouble), (.r2, .arrayDouble), (.pilot_summary, .dataFrame)]
| .pythia => [(.mu, .listFloat), (.sigma, .listFloat), (.w, .arrayDouble), (.cp,
   .stratifiedKFold), (.svm, .listSVC), (.cvcmat, .arrayDouble), (.y_sub, .arrayBool), (.y_hat,
   .arrayBool), (.pr0_sub, .arrayDouble), (.pr0_hat, .arrayDouble), (.box_consnt, .listFloat),
   (.k_scale, .listFloat), (.accuracy, .listFloat), (.precision, .listFloat), (.recall,
   .listFloat), (.selection0, .arrayInt), (.selection1, .arrayInt), (.pythia_summary,
   .dataFrame)]
| .cloister => [(.z_edge, .arrayDouble), (.z_ecorr, .arrayDouble)]
| .trace => [(.space, .footprint), (.good, .listFootprint), (.best, .listFootprint), (.hard,
   .footprint), (.trace_summary, .dataFrame)]

/-- `_InstanceSpaceInputs`, instance_space.py:54-73. -/
def initial : List (Name × Ty) :=
[(.feature_names, .listStr), (.algorithm_names, .listStr), (.instance_labels, .series),
   (.instance_sources, .optSeries), (.features, .arrayDouble), (.algorithms, .arrayDouble),
   (.parallel_options, .parallelOptions), (.perf_options, .performanceOptions), (.auto_options,
   .autoOptions), (.bound_options, .boundOptions), (.norm_options, .normOptions),
   (.selvars_options, .selvarsOptions), (.sifted_options, .siftedOptions), (.pilot_options,
   .pilotOptions), (.cloister_options, .cloisterOptions), (.pythia_options, .pythiaOptions),
   (.trace_options, .traceOptions), (.outputs_options, .outputOptions), (.prelim_options,
   .prelimOptions)]

/-- The keys read by `Model.from_stage_runner_output`, model.py:48-78, through data/model.py:
Data 19-71;
PrelimOut 111-159;
SiftedOut 163-199;
PilotOut 203-249;
CloisterOut 253-285;
PythiaOut 289-347;
TraceOut 429-463;
FeatSel 467-493. -/
def modelKeys : List Name :=
[.inst_labels, .feat_labels, .algo_labels, .x, .y, .x_raw, .y_raw, .y_bin, .y_best, .p,
   .num_good_algos, .beta, .s, .med_val, .iq_range, .hi_bound, .lo_bound, .min_x, .lambda_x,
   .mu_x, .sigma_x, .min_y, .lambda_y, .sigma_y, .mu_y, .selvars, .idx, .rho, .pval,
   .silhouette_scores, .clust, .X0, .alpha, .eoptim, .perf, .a, .z, .c, .b, .error, .r2,
   .pilot_summary, .z_edge, .z_ecorr, .mu, .sigma, .cp, .svm, .cvcmat, .y_sub, .y_hat, .pr0_sub,
   .pr0_hat, .box_consnt, .k_scale, .precision, .recall, .accuracy, .selection0, .selection1,
   .pythia_summary, .space, .good, .best, .hard, .trace_summary, .idx]

end Verif.Pipeline
