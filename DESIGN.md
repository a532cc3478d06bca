# Formal model of pyInstanceSpace: design

Source under study: `/repo` (andremun/pyInstanceSpace, pinned commit), Python 3.12,
numpy 1.26, pandas 2.2, scipy 1.14, shapely 2.0. The source is read as text only.
The model and the proofs are in Lean 4.33.0 (`/verif/lean`).

## 1. Trusted base

* Lean's kernel.
* Axioms: only `propext`, `Classical.choice`, `Quot.sound` (section 5 lists them per
  theorem). No axiom of our own, no `sorry`, no `native_decide`, no `bv_decide`.
* The reading of the Python source: every definition cites the file and lines it models
  and names every simplification. The semantics of Python and of the libraries
  used by the modelled lines (set, dict, slicing, `np.argmax`, boolean masks, IEEE NaN and
  infinity rules, `isinstance` on `typing` generic aliases) is trusted as written there.
* Numbers: floats are modelled as exact rationals (or an arbitrary ordered field, or reals
  where geometry needs them), extended by NaN and the two infinities where the code
  depends on them. Rounding is not modelled there; the area Double models it (IEEE 754 binary64,
  round half to even, underflow, overflow, no sign of zero) for the properties that name double
  precision (C172 onwards).

## 2. What is not modelled

External numerics are parameters of the model, never axioms: scipy (`pearsonr`, `boxcox`,
`minimize`, `ConvexHull`, `eig`), scikit-learn (SVM, k-means, silhouette), pygad, shapely,
alphashape, pandas file reading and writing, matplotlib, random generators (C195 and C196 take an arbitrary sequence of draws), logging.
Theorems quantify over every behaviour of these parameters, or name the property of the
library they need as a hypothesis. `instancespace/scripting` contains only stubs.

The table lists, for every function of the package, the definitions of the model that cite its
lines (made by `tools/coverage.py` from the comments of the model and the text of `/repo`).

<!-- coverage -->
| Lines | Function | Definitions of the model citing them |
|---|---|---|
| `_serialisers.py` 29-199 | `save_instance_space_to_csv` | `EndToEnd.attr`, `EndToEnd.exportOf`, `EndToEnd.Text.entry`, `EndToEnd.lateOf`, `EndToEnd.traceOf`, `Export.Err`, `Export.Frame`, `Export.File` and 20 more |
| `_serialisers.py` 202-263 | `save_instance_space_for_web` | `Export.Err`, `Export.File`, `Export.takeRow`, `Export.takeColumns`, `Export.rawFeatures`, `Export.perform`, `Export.webActions`, `Export.saveWeb` |
| `_serialisers.py` 266-394 | `save_instance_space_graphs` | `Export.spaced`, `Export.boolColumn`, `Export.yFoot`, `Export.pFoot`, `Export.featurePlot`, `Export.algorithmPlots`, `Export.graphActions`, `Export.saveGraphs` and 6 more |
| `_serialisers.py` 397-406 | `_write_array_to_csv` | `EndToEnd.Text`, `Export.Err`, `Export.Table`, `Export.File`, `Export.writeArray`, `Export.onDisk` |
| `_serialisers.py` 409-418 | `_write_cell_to_csv` | `Export.Err` |
| `_serialisers.py` 421-424 | `_make_bind_labels` | `Export.Err`, `Export.bindLabels` |
| `_serialisers.py` 427-435 | `_colour_scale` | `Double.scaled`, `Double.colours`, `Export.Err`, `Export.npMin`, `Export.npMax`, `Export.floorInt`, `Export.scaled`, `Export.columnOf` and 1 more |
| `_serialisers.py` 438-446 | `_colour_scale_g` | `Double.scaled`, `Double.coloursG`, `Export.Err`, `Export.npMin`, `Export.npMax`, `Export.roundEven`, `Export.roundInt`, `Export.scaled` and 1 more |
| `_serialisers.py` 449-483 | `_draw_sources` | `Export.Cloud`, `Export.Picture`, `Export.drawSources`, `Export.visible` |
| `_serialisers.py` 486-519 | `_draw_scatter` | `Export.Cloud`, `Export.Picture`, `Export.drawScatter`, `Export.visible` |
| `_serialisers.py` 522-570 | `_draw_portfolio_selections` | `Export.Cloud`, `Export.Picture`, `Export.drawPortfolio`, `Export.visible`, `Export.Group`, `Export.groupLabel`, `Export.instancesOf`, `Export.portfolioGroups` |
| `_serialisers.py` 573-622 | `_draw_portfolio_footprint` | `Export.Cloud`, `Export.Picture`, `Export.visible`, `Export.Group`, `Export.groupLabel`, `Export.instancesOf`, `Export.portfolioGroups` |
| `_serialisers.py` 625-659 | `_draw_good_bad_footprint` | `Export.Cloud`, `Export.Picture`, `Export.rowsWith`, `Export.cloudIfAny`, `Export.drawGoodBad`, `Export.visible` |
| `_serialisers.py` 662-677 | `_draw_footprint` | `Export.outlines` |
| `_serialisers.py` 680-718 | `_draw_binary_performance` | `Export.Cloud`, `Export.Picture`, `Export.rowsWith`, `Export.cloudIfAny`, `Export.drawBinary`, `Export.visible` |
| `_serialisers.py` 721-733 | `save_instance_space_output_mat` | `Export.widest`, `Export.padded`, `Export.matRows` |
| `data/metadata.py` 30-71 | `Metadata.from_data_frame` | `EndToEnd.Err`, `Metadata.Table`, `Metadata.hasPrefix`, `Metadata.isName`, `Metadata.isFeat`, `Metadata.isAlgo`, `Metadata.isSource`, `Metadata.Table.loc` and 7 more |
| `data/metadata.py` 83-119 | `from_csv_file` | `InstanceSpace.Env`, `Metadata.Read`, `Metadata.Loaded`, `Metadata.fromCsvFile` |
| `data/model.py` 40-71 | `Data.from_stage_runner_output` | `Export.Export`, `Pipeline.modelFrom`, `Pipeline.dataFields`, `Pipeline.readPart` |
| `data/model.py` 130-159 | `PrelimOut.from_stage_runner_output` | `Pipeline.prelimFields` |
| `data/model.py` 176-199 | `SiftedOut.from_stage_runner_output` | `Export.Export`, `Pipeline.siftedFields` |
| `data/model.py` 221-249 | `PilotOut.from_stage_runner_output` | `Export.Export`, `Export.csvActions`, `Pipeline.pilotFields` |
| `data/model.py` 259-261 | `CloisterOut.__iter__` | `Export.Export`, `Export.csvActions` |
| `data/model.py` 266-285 | `CloisterOut.from_stage_runner_output` | `Export.Export`, `Export.csvActions`, `Pipeline.cloisterFields` |
| `data/model.py` 313-347 | `PythiaOut.from_stage_runner_output` | `Export.Export`, `Pipeline.pythiaFields` |
| `data/model.py` 378-425 | `Footprint.from_polygon` | `Trace.masked`, `Trace.count`, `Trace.missing`, `Trace.fromPolygon` |
| `data/model.py` 441-463 | `TraceOut.from_stage_runner_output` | `Export.Export`, `Pipeline.traceFields` |
| `data/model.py` 475-493 | `FeatSel.from_stage_runner_output` | `Pipeline.featSelFields` |
| `data/options.py` 85-93 | `ParallelOptions.default` | `Options.Group`, `Options.parallelGroup`, `Options.Group.embed` |
| `data/options.py` 106-118 | `PerformanceOptions.default` | `Options.Group`, `Options.perfGroup`, `Options.Group.embed` |
| `data/options.py` 128-134 | `AutoOptions.default` | `Options.Group`, `Options.autoGroup`, `Options.Group.embed` |
| `data/options.py` 144-150 | `BoundOptions.default` | `Options.Group`, `Options.boundGroup`, `Options.Group.embed` |
| `data/options.py` 160-166 | `NormOptions.default` | `Options.Group`, `Options.normGroup`, `Options.Group.embed` |
| `data/options.py` 184-206 | `SelvarsOptions.default` | `Options.Group`, `Options.selvarsGroup`, `Options.Group.embed` |
| `data/options.py` 232-270 | `SiftedOptions.default` | `Options.Group`, `Options.siftedGroup`, `Options.Group.embed` |
| `data/options.py` 283-290 | `PilotOptions.default` | `Options.Group`, `Options.pilotGroup`, `Options.Group.embed`, `Pilot.Options` |
| `data/options.py` 301-309 | `CloisterOptions.default` | `Options.Group`, `Options.cloisterGroup`, `Options.Group.embed` |
| `data/options.py` 323-336 | `PythiaOptions.default` | `Options.Group`, `Options.pythiaGroup`, `Options.Group.embed` |
| `data/options.py` 347-355 | `TraceOptions.default` | `Options.Group`, `Options.traceGroup`, `Options.Group.embed` |
| `data/options.py` 367-377 | `OutputOptions.default` | `Options.Group`, `Options.outputsGroup`, `Options.Group.embed`, `Pipeline.group` |
| `data/options.py` 398-524 | `InstanceSpaceOptions.from_dict` | `Options.Dict`, `Options.OptError`, `Options.groupData`, `Options.loadAll`, `Options.fromDict`, `Options.parallelGroup`, `Options.perfGroup`, `Options.autoGroup` and 9 more |
| `data/options.py` 526-534 | `InstanceSpaceOptions.to_file` | `Options.OptError` |
| `data/options.py` 537-565 | `InstanceSpaceOptions.default` | `Options.OptError`, `Options.default` |
| `data/options.py` 584-643 | `InstanceSpaceOptions._validate_fields` | `Options.OptError`, `Options.mapField`, `Options.validateLoop`, `Options.validate` |
| `data/options.py` 646-714 | `InstanceSpaceOptions._load_dataclass` | `Options.get`, `Options.Group`, `Options.OptError`, `Options.aliasOf`, `Options.fieldValue`, `Options.load` |
| `data/options.py` 732-741 | `PrelimOptions.from_options` | `Pipeline.prelimOptions` |
| `data/options.py` 744-785 | `from_json_file` | `InstanceSpace.Env`, `Options.OptError.isValueError`, `Options.FileRead`, `Options.Outcome`, `Options.fromJsonFile` |
| `instance_space.py` 76-101 | `_InstanceSpaceInputs.from_metadata_and_options` | `EndToEnd.args`, `Pipeline.rowArgs`, `Pipeline.spaceInputs` |
| `instance_space.py` 134-185 | `InstanceSpace.__init__` | `EndToEnd.fullLate`, `EndToEnd.runLate`, `EndToEnd.run`, `InstanceSpace.Created`, `InstanceSpace.Space.init`, `Pipeline.defaultStages`, `Pipeline.addCall`, `Pipeline.builderOf` and 2 more |
| `instance_space.py` 188-190 | `InstanceSpace.metadata` | `InstanceSpace.history` |
| `instance_space.py` 193-195 | `InstanceSpace.options` | `InstanceSpace.history` |
| `instance_space.py` 198-219 | `InstanceSpace.model` | `InstanceSpace.SpaceError`, `InstanceSpace.readModel`, `InstanceSpace.stepCall`, `InstanceSpace.history` |
| `instance_space.py` 221-240 | `InstanceSpace.build` | `InstanceSpace.build`, `InstanceSpace.stepCall`, `InstanceSpace.history` |
| `instance_space.py` 242-257 | `InstanceSpace.run_iter` | `InstanceSpace.stepCall`, `InstanceSpace.history` |
| `instance_space.py` 259-283 | `InstanceSpace.run_stage` | `InstanceSpace.Call`, `InstanceSpace.stepCall`, `InstanceSpace.history` |
| `instance_space.py` 285-311 | `InstanceSpace.run_until_stage` | `InstanceSpace.stepCall`, `InstanceSpace.history` |
| `instance_space.py` 314-358 | `instance_space_from_files` | `InstanceSpace.fromFiles` |
| `instance_space.py` 361-380 | `instance_space_from_directory` | `InstanceSpace.inDirectory`, `InstanceSpace.fromDirectory` |
| `model.py` 48-78 | `Model.from_stage_runner_output` | `Pipeline.modelFrom`, `Pipeline.modelKeys`, `Pipeline.modelOf` |
| `model.py` 80-98 | `Model.save_to_csv` | `EndToEnd.exportOf` |
| `model.py` 116-133 | `Model.save_graphs` | `Export.Plotted` |
| `model.py` 150-171 | `Model.save_zip` | `Export.Entry`, `Export.zipEntries` |
| `stage_builder.py` 74-81 | `StageBuilder.__init__` | `Builder.Builder`, `Builder.Builder.empty` |
| `stage_builder.py` 83-122 | `StageBuilder.add_stage` | `Builder.Kind`, `Builder.Runtime`, `Builder.AddError`, `Builder.addStage`, `Pipeline.addCall` |
| `stage_builder.py` 124-151 | `StageBuilder.build` | `Builder.InitArg`, `Builder.InitArg.args`, `Builder.build` |
| `stage_builder.py` 153-259 | `StageBuilder._resolve_stages` | `Builder.BuildError`, `Builder.unresolved`, `Builder.SetOrder`, `Builder.round`, `Builder.Resolution`, `Builder.loop`, `Builder.resolve` |
| `stage_builder.py` 262-273 | `StageBuilder._strip_run_restriction_arguments` | `Builder.Kind`, `Builder.Runtime`, `Builder.strip` |
| `stage_builder.py` 275-288 | `StageBuilder._get_mutating_stages` | `Builder.mutatingArgs`, `Builder.isMutating` |
| `stage_builder.py` 290-312 | `StageBuilder._get_ordering_restrictions` | `Builder.BuildError`, `Builder.Kind`, `Builder.Runtime`, `Builder.isBefore`, `Builder.isAfter`, `Builder.argRestrictions`, `Builder.gatherRestrictions`, `Builder.orderingRestrictions` |
| `stage_builder.py` 315-328 | `StageBuilder._get_restrictions_for_stage` | `Builder.runAfter` |
| `stage_builder.py` 330-348 | `StageBuilder._stage_resolves` | `Builder.stageResolves` |
| `stage_builder.py` 350-394 | `StageBuilder._mutating_stages_check` | `Builder.BuildError`, `Builder.mutatingCheck` |
| `stage_runner.py` 57-88 | `StageRunner.__init__` | `Runner.Dict`, `Runner.Pipeline`, `Runner.State.init`, `Runner.State.args`, `Runner.indexFrom`, `Runner.exec` |
| `stage_runner.py` 90-108 | `StageRunner.run_iter` | `Runner.reset`, `Runner.Gen`, `Runner.GenOut`, `Runner.genLoop`, `Runner.genNext`, `Runner.Op`, `Runner.World`, `Runner.step` |
| `stage_runner.py` 110-168 | `StageRunner.run_stage` | `EndToEnd.Err`, `Isolation.Obj`, `Isolation.Heap`, `Isolation.visit`, `Isolation.copied`, `Isolation.rename`, `Isolation.deepcopy`, `Isolation.Body` and 17 more |
| `stage_runner.py` 170-188 | `StageRunner.run_many_stages_parallel` | `Runner.Op`, `Runner.step` |
| `stage_runner.py` 190-207 | `StageRunner.run_all` | `Runner.reset`, `Runner.runStages`, `Runner.runFrom`, `Runner.runAll`, `Runner.Op`, `Runner.step` |
| `stage_runner.py` 209-231 | `StageRunner.run_until_stage` | `Runner.reset`, `Runner.runUntil`, `Runner.Op`, `Runner.step` |
| `stage_runner.py` 236-254 | `StageRunner._check_stage_order_is_runnable` | `Builder.BuildError`, `Builder.checkRunnable` |
| `stage_runner.py` 256-267 | `StageRunner._rollback_to_schedule_index` | `Runner.rollback` |
| `stage_runner.py` 269-284 | `StageRunner._progress_schedule` | `Runner.progress` |
| `stages/cloister.py` 143-158 | `CloisterStage._run` | `EndToEnd.fullCloister`, `EndToEnd.runCloister`, `Wiring.runCloister`, `Wiring.cloisterCall` |
| `stages/cloister.py` 161-199 | `CloisterStage.cloister` | `Cloister.xKept`, `Cloister.project`, `Cloister.cloister`, `Double.spread`, `Double.projectD`, `Double.cornersD`, `Double.boundaryD`, `Double.Sum` and 7 more |
| `stages/cloister.py` 202-241 | `CloisterStage._compute_correlation` | `Cloister.correlation`, `EndToEnd.Late` |
| `stages/cloister.py` 244-262 | `CloisterStage._decimal_to_binary_matrix` | `Cloister.bin`, `Cloister.binaryRepr`, `Cloister.idxRow`, `EndToEnd.Late` |
| `stages/cloister.py` 265-286 | `CloisterStage._compute_convex_hull` | `Cloister.hullPoints`, `Double.point`, `Double.boundaryD`, `EndToEnd.Late`, `Export.writePoints` |
| `stages/cloister.py` 289-348 | `CloisterStage._generate_boundaries` | `Cloister.colMin`, `Cloister.colMax`, `Cloister.flat`, `Cloister.ind`, `Cloister.edge`, `Cloister.sgn`, `Cloister.bad`, `Cloister.inner` and 4 more |
| `stages/pilot.py` 125-164 | `PilotStage._run` | `EndToEnd.fullPilot`, `EndToEnd.runPilot`, `Wiring.runPilot`, `Wiring.pilotCall` |
| `stages/pilot.py` 175-330 | `PilotStage.pilot` | `Double.spread`, `Double.projectD`, `Double.Sum`, `Double.Sum.terms`, `Double.Sum.value`, `EndToEnd.Beyond`, `EndToEnd.weigh`, `EndToEnd.projected` and 38 more |
| `stages/pilot.py` 333-431 | `PilotStage.analytic_solve` | `Double.Sum`, `EndToEnd.Beyond`, `EndToEnd.weigh`, `EndToEnd.projected`, `Pilot.anyGap`, `Pilot.Err`, `Pilot.Lib`, `Pilot.sumSquares` and 9 more |
| `stages/pilot.py` 434-527 | `PilotStage.numerical_solve` | `Double.Sum`, `EndToEnd.orNan`, `Pilot.randomStarts`, `Pilot.Lib.onGaps`, `Pilot.Err`, `Pilot.Lib`, `Pilot.aOf`, `Pilot.argmaxFrom` and 5 more |
| `stages/pilot.py` 530-565 | `PilotStage.error_function` | `Pilot.errorGaps`, `Pilot.Err`, `Pilot.aOf`, `Pilot.bOf`, `Pilot.errorFunction` |
| `stages/prelim.py` 184-203 | `PrelimStage.__init__` | `Prelim.outY`, `Wiring.prelimInitSig`, `Wiring.prelimAttrs` |
| `stages/prelim.py` 216-314 | `PrelimStage._run` | `EndToEnd.recorded`, `EndToEnd.runPrelim`, `Pipeline.rowRun`, `Prelim.yRawOut`, `Wiring.Expr`, `Wiring.Frame`, `Wiring.unpack`, `Wiring.runPrelim` and 6 more |
| `stages/prelim.py` 318-377 | `PrelimStage.prelim` | `Wiring.Sig`, `Wiring.prelimLocals`, `Wiring.prelimSig`, `Wiring.prelimInitCall`, `Wiring.innerPrelimCall` |
| `stages/prelim.py` 379-434 | `PrelimStage._select_best_algorithms` | `Double.mul`, `Num.lt`, `Num.eq`, `Num.mul`, `Prelim.firstTrue`, `Wiring.bestSig`, `Wiring.bestReturns` |
| `stages/prelim.py` 436-468 | `PrelimStage._bound` | `Double.at'`, `Double.median`, `Double.quartile`, `Double.bounds`, `Double.boundEntry`, `Double.boundCol`, `Double.add`, `Num.lt` and 13 more |
| `stages/prelim.py` 470-581 | `PrelimStage._normalise` | `Double.shiftX`, `Double.shiftY`, `Double.zscore`, `EndToEnd.Env`, `Num.sub`, `Num.eps`, `Prelim.finites`, `Prelim.npMin` and 18 more |
| `stages/prelim.py` 490-533 | `PrelimStage._normalise.boxcox_fmin` | `Prelim.boxcox`, `Prelim.fitCol` |
| `stages/prelim.py` 510-524 | `PrelimStage._normalise.boxcox_fmin.neg_log_likelihood` | `Prelim.fitCol` |
| `stages/prelim.py` 584-734 | `PrelimStage._prelim` | `Double.median`, `Double.quartile`, `Double.nearest`, `Double.expo`, `Double.ulp`, `Double.toBits`, `Double.limit`, `Double.toDouble` and 38 more |
| `stages/prelim.py` 736-876 | `PrelimStage._filter` | `EndToEnd.Env`, `Filter.keptRows`, `Pipeline.select`, `Pipeline.Val.select`, `Pipeline.RowEnv`, `Pipeline.rowRun`, `Prelim.SubsetErr`, `Prelim.setTrue` and 13 more |
| `stages/preprocessing.py` 139-188 | `PreprocessingStage._run` | `EndToEnd.runPreprocessing`, `Pipeline.rowRun`, `Prelim.Arrs`, `Preprocessing.run`, `Wiring.runPreprocessing`, `Wiring.selectCall`, `Wiring.selectTargets`, `Wiring.removeCall` and 2 more |
| `stages/preprocessing.py` 191-276 | `PreprocessingStage.select_features_and_algorithms` | `EndToEnd.Env`, `Preprocessing.Err`, `Preprocessing.select`, `Wiring.selectSig`, `Wiring.selectAssigned`, `Wiring.selectReturns` |
| `stages/preprocessing.py` 279-365 | `PreprocessingStage.remove_instances_with_many_missing_values` | `Double.share`, `Double.tooSparse`, `Double.manyRepeated`, `Pipeline.select`, `Pipeline.Val.select`, `Pipeline.RowEnv`, `Pipeline.rowRun`, `Preprocessing.mask` and 10 more |
| `stages/pythia.py` 272-281 | `PythiaStage._run` | `EndToEnd.fullPythia`, `EndToEnd.runPythia`, `Wiring.pythiaLocals`, `Wiring.runPythia`, `Wiring.pythiaCall` |
| `stages/pythia.py` 284-511 | `PythiaStage.pythia` | `Double.precisionScore`, `EndToEnd.Late`, `EndToEnd.exactTable`, `EndToEnd.pythiaOut`, `Pipeline.rowRun`, `Pythia.Rng`, `Pythia.Rng.before`, `Pythia.Rng.drawn` and 36 more |
| `stages/pythia.py` 514-604 | `PythiaStage._fitmatsvm` | `Pythia.normalised`, `Pythia.point`, `Pythia.kernel`, `Pythia.gram`, `Pythia.Err`, `Pythia.SvmRes`, `Pythia.fit`, `Wiring.fitSig` |
| `stages/pythia.py` 607-631 | `PythiaStage._display_overall_perf` | `Pythia.Err` |
| `stages/pythia.py` 634-652 | `PythiaStage._compute_znorm` | `Pythia.Err`, `Pythia.mean`, `Pythia.std`, `Pythia.zscore`, `Pythia.znorm` |
| `stages/pythia.py` 655-683 | `PythiaStage._check_precalcparams` | `Pythia.Err`, `Pythia.checkParams` |
| `stages/pythia.py` 686-728 | `PythiaStage._determine_selections` | `Double.argmaxFrom`, `Double.argmax`, `Double.maxFrom`, `Double.goodMeans`, `Double.weighted`, `Double.selectRow`, `Double.determineSelections`, `Pythia.Err` and 11 more |
| `stages/pythia.py` 731-753 | `PythiaStage._generate_params` | `Pythia.Rng`, `Pythia.Err`, `Pythia.generateParams` |
| `stages/pythia.py` 756-884 | `PythiaStage._generate_summary` | `Double.rint`, `Double.round3`, `Double.percent`, `EndToEnd.shown`, `EndToEnd.summaryFrame`, `EndToEnd.Entry`, `Pythia.Err`, `Pythia.goodMeans` and 11 more |
| `stages/sifted.py` 69-77 | `NotEnoughFeatureError.__init__` | `Sifted.Out` |
| `stages/sifted.py` 286-345 | `SiftedStage.__init__` | `Wiring.siftedLocals`, `Wiring.siftedInitSig`, `Wiring.siftedAttrs` |
| `stages/sifted.py` 356-386 | `SiftedStage._run` | `EndToEnd.runSifted`, `Wiring.Args`, `Wiring.bindArgs`, `Wiring.call`, `Wiring.siftedLocals`, `Wiring.runSifted`, `Wiring.siftedCall` |
| `stages/sifted.py` 388-394 | `SiftedStage.sift` | `Wiring.siftedLocals`, `Wiring.siftSig`, `Wiring.innerSiftedCall` |
| `stages/sifted.py` 397-485 | `SiftedStage.sifted` | `Sifted.Err`, `Wiring.siftedLocals`, `Wiring.siftedSig`, `Wiring.siftedInitCall`, `Wiring.siftCall` |
| `stages/sifted.py` 487-711 | `SiftedStage._sifted` | `EndToEnd.Env`, `EndToEnd.correlations`, `EndToEnd.grounds`, `EndToEnd.runSifted`, `Pipeline.RowEnv`, `Pipeline.rowRun`, `Sifted.Err`, `Sifted.pick` and 21 more |
| `stages/sifted.py` 713-766 | `SiftedStage.select_features_by_performance` | `EndToEnd.rowsOf`, `Sifted.Err`, `Sifted.significant`, `Sifted.absNum`, `Sifted.entry`, `Sifted.negAbsColumn`, `Sifted.mark`, `Sifted.whereTrue` and 7 more |
| `stages/sifted.py` 768-803 | `SiftedStage.select_features_by_clustering` | `Sifted.Err`, `Sifted.clustOf`, `Sifted.members`, `Sifted.Lib` |
| `stages/sifted.py` 806-857 | `SiftedStage.cost_fcn` | `EndToEnd.Env`, `Sifted.Err`, `Sifted.mark`, `Sifted.whereTrue`, `Sifted.members`, `Sifted.choose`, `Sifted.costMask`, `Sifted.costFeatures` and 2 more |
| `stages/sifted.py` 859-950 | `SiftedStage._find_best_combination` | `EndToEnd.Env`, `Sifted.Err`, `Sifted.mark`, `Sifted.whereTrue`, `Sifted.members`, `Sifted.choose`, `Sifted.decodeMask`, `Sifted.maskPick` and 3 more |
| `stages/sifted.py` 952-1011 | `SiftedStage.evaluate_cluster` | `Sifted.Err`, `Sifted.argmaxFrom`, `Sifted.evaluateCluster`, `Sifted.Lib` |
| `stages/sifted.py` 1013-1058 | `SiftedStage._compute_correlation` | `EndToEnd.Env`, `Sifted.Err`, `Sifted.validPairs`, `Sifted.correlation` |
| `stages/trace.py` 203-239 | `TraceStage.__init__` | `Wiring.valuesOf`, `Wiring.traceLocals`, `Wiring.traceInitSig`, `Wiring.traceAttrs` |
| `stages/trace.py` 270-310 | `TraceStage._run` | `EndToEnd.runTrace`, `Export.traceArguments`, `Wiring.traceLocals`, `Wiring.runTrace`, `Wiring.traceCall1`, `Wiring.traceCall2` |
| `stages/trace.py` 313-350 | `TraceStage.trace` | `Wiring.traceLocals`, `Wiring.traceSig`, `Wiring.traceInitCall` |
| `stages/trace.py` 352-518 | `TraceStage._trace` | `EndToEnd.traceFrame`, `EndToEnd.footprints`, `EndToEnd.runTrace`, `Trace.Err`, `Trace.bestMask`, `Trace.contraInner`, `Trace.contraOuter`, `Trace.Out` and 8 more |
| `stages/trace.py` 520-562 | `TraceStage.build` | `EndToEnd.TraceEnv`, `Trace.Geo`, `Trace.Err`, `Trace.masked`, `Trace.labelled`, `Trace.body`, `Trace.build` |
| `stages/trace.py` 564-655 | `TraceStage.contra` | `EndToEnd.TraceEnv`, `EndToEnd.place`, `Trace.Geo`, `Trace.Err`, `Trace.masked`, `Trace.count`, `Trace.contraLoop`, `Trace.contra` |
| `stages/trace.py` 657-705 | `TraceStage.tight` | `EndToEnd.TraceEnv`, `Trace.Geo`, `Trace.Err`, `Trace.tight` |
| `stages/trace.py` 707-754 | `TraceStage.fit_poly` | `Double.share`, `Double.impure`, `EndToEnd.TraceEnv`, `Trace.Geo`, `Trace.Err`, `Trace.masked`, `Trace.count`, `Trace.prune` and 1 more |
| `stages/trace.py` 757-797 | `TraceStage.summary` | `Trace.summary`, `Trace.summaryOf` |
| `stages/trace.py` 800-810 | `TraceStage.throw` | `Trace.missing` |
| `stages/trace.py` 813-834 | `TraceStage.run_dbscan` | `Dbscan.minPts`, `Dbscan.runDbscan`, `Trace.minPoints` |
| `stages/trace.py` 837-857 | `TraceStage.epsilon` | `Dbscan.spread`, `Dbscan.epsilon` |
| `stages/trace.py` 860-884 | `TraceStage.dist` | `Dbscan.dist`, `Double.nearPoints` |
| `stages/trace.py` 887-952 | `TraceStage.dbscan` | `Dbscan.St`, `Dbscan.neigh`, `Dbscan.setAll`, `Dbscan.upd`, `Dbscan.visit`, `Dbscan.expand`, `Dbscan.point`, `Dbscan.loop` and 3 more |
| `stages/trace.py` 954-984 | `TraceStage.process_algorithm` | `Trace.bestMask`, `Trace.goodMask`, `Trace.processAlgorithm` |
| `stages/trace.py` 986-1020 | `TraceStage.compute_algorithm_qualities` | `EndToEnd.TraceEnv`, `Trace.collect`, `Trace.computeQualities` |
| `utils/filter.py` 30-96 | `filter_instance` | `Double.sqrtBits`, `Double.sqrt`, `Double.sumSquares`, `Double.dist`, `Double.filterTests`, `EndToEnd.Env`, `Filter.FilterType.ofString`, `Filter.Tests` and 11 more |
| `utils/filter.py` 99-119 | `compute_uniformity` | `EndToEnd.Env`, `Filter.keptRows`, `Filter.euclid`, `Filter.nearest`, `Filter.mean`, `Filter.std`, `Filter.score`, `Filter.uniformity` and 2 more |
| `utils/filter.py` 122-157 | `do_filter` | `Wiring.doFilter`, `Wiring.doFilterSig`, `Wiring.filterInstanceCall`, `Wiring.filterInstanceTargets`, `Wiring.uniformityCall`, `Wiring.uniformityTargets`, `Wiring.doFilterReturns` |

Functions without a definition of their own:

* raises `NotImplementedError`: `metadata.py:73 Metadata.to_file`
* calls the exporter: `model.py:100 Model.save_for_web`, `model.py:135 Model.save_to_mat`
* the tables hold the (name, type) pairs it computes: `stage_builder.py:397 StageBuilder._named_tuple_to_stage_arguments`
* text of an error message: `stage_builder.py:408 _format_stage_arguments`
* prints: `stage_runner.py:52 StageRunner._debug_print`, `pilot.py:167 PilotStage._pilot_print`
* the declared classes, transcribed as the tables of the default pipeline: `cloister.py:135 CloisterStage._inputs`, `cloister.py:139 CloisterStage._outputs`, `pilot.py:117 PilotStage._inputs`, `pilot.py:121 PilotStage._outputs`, `prelim.py:206 PrelimStage._inputs`, `prelim.py:210 PrelimStage._outputs`, `preprocessing.py:131 PreprocessingStage._inputs`, `preprocessing.py:135 PreprocessingStage._outputs`, `pythia.py:264 PythiaStage._inputs`, `pythia.py:268 PythiaStage._outputs`, `sifted.py:348 SiftedStage._inputs`, `sifted.py:352 SiftedStage._outputs`, `stage.py:17 Stage._inputs`, `stage.py:23 Stage._outputs`, `trace.py:242 TraceStage._inputs`, `trace.py:256 TraceStage._outputs`
* stores its arguments: `pilot.py:91 PilotStage.__init__`, `preprocessing.py:111 PreprocessingStage.__init__`, `pythia.py:233 PythiaStage.__init__`
* passes the inputs on and wraps the results: `stage.py:29 Stage._run`
<!-- end of coverage -->

## 3. Layout

`lean/Verif/<Area>/Model.lean` mirrors the code, `Spec.lean` states the specification
without using the model's helpers, `Props.lean` holds the property theorems
(named after the property id) each followed by a concrete example meeting its hypotheses,
`Lemmas.lean` holds everything else. Larger areas have several files of each kind
(`PropsRun`, `PropsData`, `Radius`, `Uniformity`, ...). `tools/manifest.py` writes `MANIFEST.json`
and section 5, `tools/citations.py` checks that every definition of the model cites its source,
`tools/coverage.py` writes the table above. `seeded/LOG.jsonl` records the mutation tests: the
model is edited as a bug would, and the theorems that then fail are listed.

Areas: Builder (stage_builder.py), Runner (stage_runner.py), Isolation (deep copies between stages),
Pipeline (inputs and outputs of the default stages), InstanceSpace (instance_space.py), Metadata,
Options, Preprocessing, Prelim, Filter, Sifted, Pilot, Cloister, Pythia, Dbscan and Trace (the
stages and their helpers), Export (_serialisers.py, model.py), Wiring (calls,
unpackings and returns of the stages, extracted by `tools/extract.py`), EndToEnd (the first
three stages inside the pipeline, from the metadata table to the data of the Model and the exported files; for C167-C170 also
PILOT, CLOISTER and PYTHIA, on finite features — performances may be missing, Pilot/Gaps.lean; for other features C218 proves that no build completes, EndToEnd/AnyFeatures.lean, from the assumption that scikit-learn rejects coordinates that are not finite — and with exact arithmetic, TRACE staying arbitrary; for C171 also TRACE, with any
geometry that keeps the laws of `Trace.Laws`), Num (floats with NaN and infinities), Double (IEEE 754
double precision, and PRELIM's verdicts computed with it).

When a property is false of the code, the file contains the negation, proved on a concrete
witness (`..._refuted`), and the strongest true part (`..._partial`).

## 4. Properties

* **C01 Every built schedule is complete and executable.** Builder: `_resolve_stages` as a loop on lists with an arbitrary enumeration of every Python set. Induction over rounds.
* **C02 The schedule does not depend on insertion or hash order.** Builder: two runs related by elementwise permutation, induction over rounds.
* **C03 A resolvable plain pipeline is always accepted, an unresolvable one never.** Builder: least fixed point argument; a topological order forces progress in every round.
* **C04 No write conflicts inside a schedule element.** Builder: per-round invariant.
* **C05 Readers of an argument run after the stages that mutate it.** Builder. FALSE: a mutating stage waiting for another input is overtaken. Refutation on a witness; partial: holds against the mutating stages that are runnable in the same round.
* **C06 RunBefore and RunAfter restrictions are honoured.** Builder. FALSE: `RunBefore[S]` is not an instance of `type`, so it is never recognised. Model is parametric in the recognition predicate; refutation and partial (what the resolver guarantees for restrictions it recognises).
* **C07 A stage without outputs can never be scheduled.** Builder: invariant 'resolved stages have outputs'.
* **C08 Building twice from the same arguments gives the same schedule.** Builder. FALSE for sets (the caller's set is mutated), true for NamedTuple classes.
* **C09 add_stage is all or nothing and rejects duplicates.** Builder: induction over add_stage histories.
* **C10 The default pipeline has one schedule.** Builder + Default pipeline tables: kernel evaluation on one order and C02 for all others.
* **C11 Inputs are never missing at run time and carry the declared type.** Runner + builder: name/type table. Types FALSE when a name has two types; partial with unique types.
* **C12 run_all gives the same result from every history.** Runner: heap of dict objects with references, invariant over histories, refinement to a pure fold.
* **C13 A stage runs only after all earlier stages have run.** Runner: invariant over histories.
* **C14 Re-running an earlier stage discards what later stages wrote.** Runner. FALSE: all snapshots are one dict object. Refutation; partial: what rollback does restore.
* **C15 run_until_stage runs up to and including the given stage.** Runner. FALSE: stops before the element. Refutation; exact characterisation.
* **C16 A fully consumed run_iter equals run_all.** Runner: generator as a step machine, equality with run_all.
* **C17 A stage that raises leaves the available arguments untouched.** Runner: case analysis of run_stage.
* **C18 Results do not depend on the order inside a schedule element.** Runner. FALSE in general (plain overwriter next to a reader). Partial: holds without read/write overlap; instance: default pipeline.
* **C19 A stage cannot corrupt stored data through its inputs.** Isolation: heap of mutable objects, deepcopy allocates, frame argument.
* **C20 The dictionary returned by run_all is a snapshot.** Runner. FALSE: live alias. Partial: unchanged until the next call that runs a stage on it.
* **C21 Arguments given to run_stage apply to that call only.** Runner: frame lemma.
* **C22 The model is available exactly after a successful build.** InstanceSpace: state machine over calls. FALSE after run_iter; partial.
* **C23 build returns the model of the run it just made.** InstanceSpace. FALSE: cached. Partial for the first build.
* **C24 Additional initial inputs reach the stages.** InstanceSpace. FALSE: always a missing argument.
* **C25 The default pipeline produces everything the Model needs.** Default pipeline: key tables, proof for arbitrary stage implementations.
* **C26 Instance labels stay aligned with the instances through the pipeline.** Pipeline dataflow by names. FALSE: Prelim outputs `instlabels`. Partial without subsetting.
* **C27 Column selection keeps labels and columns together in original order.** Preprocessing on lists of columns; FALSE pairing with duplicate labels, partial with distinct ones.
* **C28 Row removal keeps features, performances, labels and sources aligned.** Preprocessing on lists.
* **C29 A feature is dropped exactly when at least 20% of its remaining values are missing.** Preprocessing, exact arithmetic 5*missing < n.
* **C30 No instance without any feature value survives preprocessing.** Preprocessing. FALSE after the column step; partial for performances and before it.
* **C31 The instance filter removes only instances covered by a kept one.** Filter: double loop as folds, invariant.
* **C32 Kept instances never cover each other.** Filter.
* **C33 The dissimilar and visa flags have their documented meaning.** Filter.
* **C34 Filtering is idempotent.** Filter.
* **C35 Absolute goodness is a plain threshold.** Prelim over extended rationals.
* **C36 Relative goodness means within a fraction epsilon of the best.** Prelim. FALSE for nonpositive best; partial for positive.
* **C37 The best algorithm of an instance is always good.** Prelim. FALSE for best 0 when maximising; partial.
* **C38 p names the first best algorithm, counted from one.** Prelim. FALSE in an epsilon-tie corner; partial.
* **C39 num_good_algos and beta count good algorithms.** Prelim.
* **C40 Loosening epsilon never turns a good algorithm bad.** Prelim.
* **C41 Bounding clamps each feature to median plus or minus five interquartile ranges.** Prelim: `_bound`.
* **C42 Missing values survive normalisation locally.** Prelim. FALSE: minimum propagates NaN. Exact effect proved.
* **C43 Subsetting applies one selection to every per-instance output.** Prelim `_filter`.
* **C44 The subset options have a fixed precedence.** Prelim `_filter`.
* **C45 An index file selects exactly the instances it lists.** Prelim `_filter`. FALSE for the last instance and 0; exact characterisation.
* **C46 y_raw keeps the raw performances.** Prelim with aliasing. FALSE: zeros become eps; exact effect.
* **C47 Metadata columns are classified by name and keep order.** Metadata.
* **C48 Instance labels are one string per row.** Metadata. FALSE for one-row tables; partial.
* **C49 An options group is accepted exactly when its keys are known and not repeated.** Options: generic field tables, then the actual tables by kernel evaluation of well-formedness.
* **C50 Each option takes the given value or its default.** Options; with the table of all options, their MATILDA spellings and defaults written out separately (`C50_documented`, `C52_documented`).
* **C51 Key order and letter case of options do not matter.** Options.
* **C52 Options survive a round trip through a dictionary.** Options.
* **C53 Loading options from a file never raises.** Options. FALSE: AttributeError escapes; exact characterisation.
* **C54 The candidate boundary consists of all corners of the feature box.** Cloister.
* **C55 Corners are discarded exactly when they contradict a strong correlation.** Cloister.
* **C56 The estimated boundary encloses every projected instance.** Cloister over the reals with Mathlib convex hulls.
* **C57 Only significant correlations constrain the boundary.** Cloister.
* **C58 The clustering used by footprints returns connected groups.** Dbscan: worklist invariant, reachability.
* **C59 Footprint measures are consistent.** Trace/Footprint.
* **C60 Parallel evaluation of algorithms does not affect the footprints.** Trace: any permutation of completions.
* **C61 Best footprints use the instances on which the algorithm is best.** Trace. FALSE with UseSim off (one-based p). Partial with UseSim on.
* **C62 Contradicting footprints are resolved without error.** Trace. FALSE: always raises when purities differ; exact characterisation.
* **C63 The footprint summary contains no missing numbers.** Trace summary.
* **C64 PYTHIA recommends a predicted-good algorithm of highest precision.** Pythia selections.
* **C65 The selector distinguishes no recommendation from the first algorithm.** Pythia. FALSE.
* **C66 The PYTHIA summary reports each measure under its own name.** Pythia. FALSE: swapped arguments.
* **C67 The selector rows of the summary aggregate the recommended algorithm.** Pythia. FALSE: off by one.
* **C68 The reported mu and sigma undo the z-score.** Pythia. FALSE: computed after normalisation.
* **C69 SIFTED keeps feature labels aligned with the selected columns.** Sifted.
* **C70 Every feature correlated with performance above the threshold is selected.** Sifted. FALSE; partial: top feature per algorithm.
* **C71 The search scores the features it will return.** Sifted. FALSE; exact.
* **C72 Choosing the number of clusters never fails.** Sifted. FALSE; exact.
* **C73 Clustering selection returns one feature per cluster.** Sifted decode.
* **C74 PILOT returns the best of its tries.** Pilot.
* **C75 A pre-calculated alpha is accepted.** Pilot. FALSE: unbound local.
* **C76 The PILOT projection equals z = x a^T with a consistent error.** Pilot over matrices.
* **C77 PILOT's c has one column per algorithm.** Pilot. FALSE in numerical mode.
* **C78 The analytic projection is a least squares fit.** Pilot, Mathlib matrices.
* **C79 r2 measures the quality of the PILOT fit.** Pilot. FALSE: diagonal of a correlation matrix.
* **C80 Footprint boundaries are written completely.** Export: exact rows of the file. FALSE: holes are lost. Partial: a reader restores all exterior rings.
* **C81 Colour scaling maps onto 0 to 255 preserving order.** Export: both scales over finite data, rounding to even proved monotone. FALSE with a missing value.
* **C82 CSV export succeeds for every model the pipeline produces.** Export: actions performed until the first exception; success iff all shapes fit. FALSE whenever SIFTED drops a feature, a subset is taken, or the corners of CLOISTER all project to one line (then `z_edge` is `np.array([])`, which pandas does not fit to two column names).
* **C83 The zip archive contains every file.** Export: list of archive entries, last of a name wins. FALSE with equal base names; partial.
* **C84 Prerequisites hold for the current run.** Runner. FALSE: flags of the first element survive a restart. Partial: all other elements.
* **C85 The runner's bookkeeping never goes out of range.** Runner: invariant over histories.
* **C86 A missing performance is never good.** Prelim. FALSE when maximising relatively with a negative best; partial otherwise.
* **C87 Bounding keeps the present values of a feature with missing entries.** Prelim `_bound`. FALSE: one missing entry wipes the column (exact effect proved); partial for finite columns.
* **C88 Normalisation applies to the performance measure PRELIM computes.** Prelim. FALSE with relative performances (raw performances are normalised instead); partial with AbsPerf. `C88_measure_partial` says what the measure is when normalisation is off: one column per algorithm, one entry per instance, the performance itself or `1 - q/b` (`1 - b/q`) with `b` the best performance of the instance.
* **C89 The power transformation only sees positive numbers.** Prelim `_normalise` with the transformation as a parameter.
* **C90 Instance sources are one per row or absent.** Metadata. FALSE for one-row tables and repeated source columns; exact characterisation.
* **C91 Reading metadata from a file never raises.** Metadata. FALSE: decoding errors escape; exact characterisation over the outcomes of pandas.
* **C92 The correlated boundary lies inside the plain boundary.** Cloister. Proved for every correct hull computation.
* **C93 The correlated boundary encloses every projected instance.** Cloister. FALSE: twenty instances with correlation 0.8 whose exception lies outside; proved when no two features correlate beyond the threshold.
* **C94 When the footprint analysis completes.** Trace. Proved over abstract geometry (laws in `Laws`).
* **C95 Impure triangles are cut out of footprints.** Trace. Proved over abstract geometry by induction on the triangles.
* **C96 A footprint is missing exactly when too few distinct instances are selected.** Trace. Proved.
* **C97 PYTHIA handles every portfolio size.** Pythia. FALSE for one algorithm (the selections keep two axes and the summary raises IndexError); exact for two or more.
* **C98 PYTHIA's outputs belong to the algorithm at the same position.** Pythia: loop invariant over the training loop.
* **C99 The measures reported as cross-validated are cross-validated.** Pythia. FALSE: computed from the predictions on the training instances; exact.
* **C100 Cost-sensitive weights are positive and grow with the distance to the mean.** Pythia: positivity proved; monotonicity FALSE with missing values (the minimum is NaN, so a value at the mean gets the maximum), proved without.
* **C101 PYTHIA leaves the caller's performances unchanged.** Pythia. FALSE: entries are overwritten with NaN; exact effect.
* **C102 Pre-calculated hyper-parameters are used.** Pythia. FALSE: single numbers are passed to the searches, which reject them; partial: other shapes fall back to generated candidates.
* **C103 Hyper-parameter candidates lie between 2^-10 and 2^4.** Pythia over the reals. Proved.
* **C104 SIFTED works with the density filter.** Sifted. FALSE: once more than three features and more than K pass the performance step the stage always raises (`[:selvars]`); otherwise the option changes nothing.
* **C105 featsel.idx lists the selected features.** Sifted. FALSE: idx is always all input columns.
* **C106 SIFTED keeps at least two features.** Sifted; direct from the model, using C73 for the clustering path.
* **C107 The reported error and performance belong to the returned projection.** Pilot. FALSE: alpha is rounded to half precision before the projection is formed; true when the chosen try consists of half precision numbers.
* **C108 The analytic solution minimises the projection error.** Pilot. FALSE: the directions come from the eigenvectors of the whole data, not of its part explained by the features (witness 20 against 16); partial: no other a is better for the same b and c; with orthonormal eigenvectors the error is the sum of all eigenvalues but the two largest (a lower bound for every choice of points, b and c) plus the misfit of the linear map, it is at most twice the error of any other a, b and c, and it is the smallest of all when the performances are linear in the features.
* **C109 PILOT's summary shows the projection matrix.** Pilot summary.
* **C110 Saving does not change the model.** Export: the model after saving is part of the result. FALSE: the columns of PILOT's and PYTHIA's summaries are renamed in place (`C110_refuted`); nothing else changes and a second export is identical (`C110_partial`, `C110_again_partial`).
* **C111 Every exported CSV file holds the data of its name.** Export: explicit list of files, file system as last-write-wins; names proved distinct.
* **C112 The web export succeeds for every model the pipeline produces.** Export: exact condition. FALSE whenever SIFTED drops a feature: only the colour table is written (`C112_refuted`, `C112_sifted_partial`).
* **C113 Plotted values are normalised to the unit interval.** Export: the three normalisations. True of features; FALSE of the individual (operator precedence) and global (per-column range with global minimum) performance.
* **C114 The portfolio plot shows every instance under its best algorithm.** Export: groups of points. FALSE: instances of the last algorithm are never drawn; predictions, counted from 0, appear under the name of the algorithm before. Partial: all other algorithms of the actual portfolio.
* **C115 The portfolio footprint plot draws each algorithm's footprint with its instances.** Export: FALSE for actual performance, always the footprint of the following algorithm (`C115_refuted`); true for predictions (`C115_partial`).
* **C116 Stages are scheduled as early as possible.** Builder/PropsMore.lean `C116_as_early_as_possible`, from the maximality clause of the round invariant.
* **C117 A missing-inputs error is genuine.** FALSE: two stages that each mutate an argument the other reads hold each other back, and the build fails with "missing inputs" although nothing is missing (`C117_refuted`). True when mutations are not circular (`C117_partial`), by induction on the rounds with the ready stage of least rank.
* **C118 The uniformity score of a subset means what it says.** Model over the reals: least distance to another row, mean, sample standard deviation; NaN as none. Proved in Filter/PropsUniformity from a characterisation of the score by the distances to the nearest neighbours.
* **C119 The neighbourhood radius encloses the wanted number of instances on average.** Dbscan/Radius.lean over the reals, Mathlib's volume of the Euclidean ball. Proved (`C119_expected`).
* **C120 The clusters depend only on the distances between the instances.** Dbscan. FALSE: the radius comes from the bounding box, so a rotation changes it; twelve instances in a row are clustered along (3,4) and not along an axis (`C120_refuted`, `C120_flat_partial`). True for shifts, common scaling, reflections at the axes and exchanged axes (`C120_partial`).
* **C121 Three distinct instances close together are enough for a footprint.** Trace/PropsSmall.lean. FALSE with exactly three distinct instances, and whenever there are at most nn of them (`C121_refuted`, `C121_too_few_partial`): the polygon is always empty. With more the footprint is the one fitted to all of them (`C121_enough_partial`).
* **C122 Normalised columns are standardised, keep the order of values and record how they were made.** Prelim/Normal.lean over the reals with an arbitrary exponent. Proved (`C122_features`, `C122_performances`).
* **C123 Normalisation turns numbers into numbers.** Prelim. FALSE: a constant feature becomes a column of NaN (`C123_refuted`); exactly the constant ones (`C123_exact_partial`).
* **C124 What a footprint is made of.** Proved for every geometry kernel: `C124_cluster` (one cluster) and `C124_union` (all clusters), against `clusterPolygon` and `unionAll` which are written without the loops of the code.
* **C125 A rejected options file is told exactly what is wrong.** Proved: `C125_undefined`, `C125_conflict`, `C125_groups`.
* **C126 Loading files gives an instance space or None.** FALSE: an options file that is a JSON number or a file in another encoding makes it raise (`C126_refuted`). Proved: exactly when an object is returned and what it holds (`C126_success_partial`), exactly when it raises or gives None (`C126_partial`), and that a directory means its `metadata.csv` and `options.json` (`C126_directory`).
* **C127 No plot overwrites another.** FALSE: the footprint of an algorithm named `portfolio` is overwritten (`C127_refuted`). Proved for all other names, with the exact list of files (`C127_partial`), and for all names loaded from a table, which begin with `algo_` (`C127_loaded_partial`).
* **C128 The good/bad and source plots show every instance once, under the right label.** Proved for the drawn clouds (lists of instances with label): `C128_binary`, `C128_footprint` (composed with the model of TRACE), `C128_sources`. Colours and sizes of points are not modelled.
* **C129 The drawn outline determines the footprint.** FALSE: holes are not drawn (`C129_refuted`). Proved: exactly the exteriors are drawn (`C129_partial`).
* **C130 Every instance is visible in the plots.** FALSE: the axes are fixed at -5 and 5 (`C130_refuted`). Proved: exactly the instances within these limits are visible (`C130_partial`).
* **C131 The Model holds what the stages returned.** Proved for all parts but one: `C131_model`. FALSE of `data_dense`, which is the reduced data a second time (`C131_refuted`, `C131_dense_partial`).
* **C132 The stages receive the metadata and the options of the user.** Proved by composing the models of the options, the builder and the runner: `C132_metadata`, `C132_options`, `C132_prelim`.
* **C133 SIFTED reports the correlations it computed.** FALSE: `filtered_rho` is the array `rho` itself, so coefficients with a p-value above 0.05 are returned as 0 (`C133_refuted`). `C133_partial`: the p-values are exact, significant coefficients are returned as computed, all others as 0; the pairs used are specified by positions (`PairsPresent`).
* **C134 Missing values do not stop the correlations.** FALSE: with exactly one common instance `pearsonr` raises (`C134_refuted`); only the case of none is guarded. `C134_partial`: this is the only case.
* **C135 PILOT's optimiser minimises the mean reconstruction error.** `C135_space`: bijection between vectors and coefficients (`Encodes`, by positions). `C135_objective`: equality with the residual of C76 divided by the number of entries. `C135_result`: the output decodes the reached vector, rounded to half precision.
* **C136 The PYTHIA summary describes each algorithm in its row.** `C136_rows`, `C136_average`, `C136_good`, `C136_selected`, `C136_parameters`: entry by entry, with averages over the values present (`Average`). `C136_deviations` describes the standard deviations by their squares; only the square root and the rounding to three decimals are parameters.
* **C137 A plugin that only observes disturbs nothing.** The two resolver loops are shown to stay in step (`loop_ext`); the runs with and without the stage are compared stage by stage. `C137_default` instantiates it for the seven stages and any plugin; `C137_outputs_must_be_new` shows the condition is needed.
* **C138 A stage receives the most recent values.** `Latest` is stated about the list of executions and the initial values only. The runner is reduced to a fold (`runFrom_apply`), whose dictionary is shown to hold the latest values (`latest_iff`). `C138_default` gives the source of every input of the seven stages as a table.
* **C139 Improving a performance never hurts.** FALSE: when maximising, improving from -1 to 0 makes the algorithm bad, since a best value of zero is replaced by the machine epsilon (`C139_refuted`). Proved for absolute performances (`C139_absolute`) and for relative ones with a positive best and new value (`C139_partial`, from `C36_partial` on both rows).
* **C140 Verdicts do not depend on the unit.** FALSE when the best performance is 0: it is replaced by the machine epsilon whatever the unit (`C140_refuted`). Proved for every non-zero best value, of either sign or infinite (`C140_partial`: every operation of `rowStep` commutes with the conversion), and for absolute performances with a converted threshold. Exact arithmetic: rounding is not modelled.
* **C141 The order of the algorithms is irrelevant.** `pick idx` selects by position. The best value is unique by antisymmetry; the rest of the row is a `map`, which commutes with `pick`; for `p` `C38_partial` is applied to both rows.
* **C142 The order of the instances is irrelevant to PRELIM.** `C142_rows` holds for any selection of rows. The median, the quartiles (sorted lists) and the minimum (a commutative fold) of a permuted column are the same. Box-Cox and the z-score enter as `tr` with the hypothesis `OrderBlind`: each value is mapped by one function that depends on the multiset of the column.
* **C143 Values keep their names on the way through the stages.** FALSE: the call of `_generate_summary` gives the accuracies to the parameter `precision` and the precisions to `accuracy` (stages/pythia.py:476-490). Everything else holds. The signatures, calls, unpackings, attributes and returns are extracted from the syntax trees of the stages by `tools/extract.py` (`Verif/Wiring/Tables.lean`); Python's binding of arguments is modelled and proved right in general (`C143_calls`); the computing functions are arbitrary functions on their local variables that may change only what they assign to.
* **C144 A coarser filter keeps fewer instances.** FALSE: with `(11,0), (0,0), (-6,8), (-6,-8)` the threshold 10 leaves two and the threshold 11 leaves three instances, whichever the type (`C144_refuted`). What holds: with at least *twice* the threshold no more are left, for every type, even when the instances come in another order (`C144_partial`; triangle inequality for the Euclidean distance of rows, and an injection of the kept positions).
* **C145 The number of instances left does not depend on their order.** FALSE for every type: of three points in a row two are left, or one when the middle one comes first (`C145_refuted`). What holds: the number is the same in every order when being superfluous is transitive among the given instances (`C145_classes_partial`), in particular for the threshold 0 (`C145_duplicates_partial`); and in general the number left with twice the threshold in one order bounds from below the number left in every other order (`C145_partial`).
* **C146 Bounding twice is bounding once.** Proved in Prelim/PropsBound: the entries that determine the median and the midpoint quartiles lie within two interquartile ranges of the median, hence are untouched (`C146_bounds`), so bounding is idempotent (`C146_idempotent`); two entries are a case of their own.
* **C147 A feature that varies still varies after bounding.** FALSE: a feature that marks one of five instances becomes constant (`C147_refuted`) — and normalisation then turns it into NaN (C123) — and with two instances every feature becomes constant (`C147_two_refuted`). Exactly: the bounded feature is constant when and only when the interquartile range is 0 (`C147_exact_partial`); it varies if no value fills more than half of three or more entries (`C147_partial`).
* **C148 The plain boundary is the shadow of the feature box.** Proved over any ordered field (Cloister/PropsBox): the convex hull of the corners is the box (`convexHull_pi`), and projections are linear (`C148_shadow`, `C148_monotone`). `HullCorrect` is the assumption about scipy, as for C56.
* **C149 A higher correlation threshold never shrinks the boundary with correlations.** FALSE because of the fallback: when the corners that are left lie on a line, z_ecorr becomes z_edge, which is larger than what a higher threshold gives (`C149_refuted`, twenty instances with correlations 0.8 and 0.2). Proved whenever the corners left at the lower threshold span an area (`C149_partial`, `C149_pvalue_partial`); assumption `Qhull`: the hull computation fails exactly for points on a line. Both options at once, with a condition that can be read from the outputs (z_edge not empty, z_ecorr not z_edge) and without that assumption: `C149_both_partial`; for whole builds that differ only in these options, both complete and with equally many stage calls before: nothing but z_ecorr changes, and it is related in the same way (`C149_build_partial`).
* **C150 An algorithm that is not the best does not affect the verdicts on the others.** Prelim, rows with one entry more. FALSE for p: with the best performance 0, minimised relatively, a second performance equal to the machine epsilon makes p point at the first of these; partial: outside this case.
* **C151 The analytic projection is determined by the data.** Pilot; uniqueness of the leading eigenvectors up to sign, Mathlib matrices.
* **C152 The order of the instances is irrelevant to PILOT.** Pilot; only the comparison of distances sees single instances, and it is reordered with them.
* **C153 Preprocessing twice is preprocessing once.** FALSE: dropping a sparse feature can leave an instance without features, which the second run removes (`C153_refuted`). `C153_partial`: a repetition changes nothing if and only if every instance left has a feature value. `C153_settles_partial`: after at most as many repetitions as there are instances, either nothing is left or nothing changes any more and every instance left has a feature value and a performance value. By the description of the stage by positions (C27, C28, C29) and induction on the number of instances.
* **C154 The order of the instances is irrelevant to preprocessing.** `C154_instances`: the kept positions of the rearranged data are a rearrangement of the kept positions, one rearrangement for features, performances, labels and sources; the counts of missing values do not see the order.
* **C155 Each footprint is about the right instances.** Trace/PropsWhich: the instances are given by their positions (`Enumerates`, `About`), independently of masks; `C155_about`, `C155_own_column`, over every completion order, composed with `C94_completes`.
* **C156 The footprint summary shows each algorithm's own footprints under their names.** Trace/Summary models the table (471-505) over rational measures; `C156_rows` reads the table by column name, `C156_labels` says when there is one, `C156_everywhere` composes with C59 and C155.
* **C157 The order of the algorithms is irrelevant to PYTHIA's recommendations.** FALSE with ties: of two models with the same precision the one listed first is recommended (`C157_refuted`). `C157_partial`: the reordered run succeeds, both recommendations are predicted good with the same, highest precision (or are good equally often, in the fallback), and they are the same algorithm when this maximum is attained once.
* **C158 Orders are irrelevant to the selection by correlation.** FALSE for the features: the threshold is compared with the correlation of the feature at the position of the rank, so moving an uncorrelated feature to the end changes the selection although all correlations are different (`C158_refuted`). Proved for the instances, with a correlation that is blind to the order of pairs (`C158_instances_partial`), and for the algorithms (`C158_algorithms_partial`).
* **C159 A higher correlation threshold never selects more features.** Sifted/PropsOrder `C159_threshold`, from the exact description of the selection (C70); holds although the threshold is compared with the wrong feature.
* **C160 The order of instances and features is irrelevant to CLOISTER.** C160_instances: exact equality, as the corners only depend on the set of rows. C160_features: the corners and the kept corners are permuted (C54, C55), projected to the same set of points; with qhull correct and failing only on collinear points the hulls agree, including the fallback.
* **C161 The title of a plot names what it shows.** C161_titles: the title of every saved file. FALSE for names that differ only in underscore and blank (C161_refuted: A_1 and A 1); C161_partial: names without blanks are told apart.
* **C162 The data of the Model are about the right cells of the metadata table.** EndToEnd: the runner and the builder of Pipeline with the first three stages replaced by the models of Preprocessing, PRELIM and SIFTED, on the metadata made by the model of `from_data_frame`; the other four stages are arbitrary. FALSE with a subset of the instances (the labels stay, C26). Proved without a subset (`C162_labels_partial`, `C162_names_partial`, `C162_absolute_partial`, `C162_relative_partial`, `C162_best_partial`, `C162_raw_partial`, `C162_features_partial`, `C162_measure_partial`, `C162_counts_partial`). With a subset: `C162_subset_partial` (all arrays but the labels are about one and the same sublist of the kept rows), `C162_subset_file_partial` and `C162_subset_fraction_partial` (which one), `C162_subset_labels_partial` (the labels are those of all kept rows).
* **C163 What the Model says about an instance's performance depends on that instance only.** EndToEnd: two runs of the composed pipeline; the two performance rows are equal because both are located in the tables by name (`C163_local`).
* **C164 PILOT returns a result.** FALSE: with one or two instances the numerical mode compares fewer than two distances and `pearsonr` raises (`C164_refuted`, for all data and libraries). Exact conditions instead (Pilot/PropsComplete): `C164_numerical_partial` (a result iff three instances, one try, enough starting points, one label per feature, no pre-calculated alpha), `C164_analytic_partial` (a result iff independent features, two columns, one label per feature; in exact arithmetic, where singular matrices are recognised), `C164_degenerate_partial` (never with more features than instances, a feature listed twice, or a feature zero everywhere).
* **C165 The order of the rows of the metadata table is irrelevant.** FALSE with the density filter, which keeps whatever comes first. Proved for runs without a subset of the instances: the pipeline with the models of the data stages plugged in is run on both tables; the orders of the kept rows are related by C154, those of the PRELIM data by C142, and SIFTED treats columns as wholes. Normalisation is any order-blind transformation.
* **C166 The exported CSV files show the cells of the metadata table.** FALSE: for relative performances a performance 0 is shown as the machine epsilon (`C166_refuted`, two instances and two algorithms).  `C166_*_partial`: everything else, by composing C162 (table to Model), the parts of the Model (`exportOf`, which reads the attributes that the serialiser reads) and C111 (Model to files).  That the export succeeds is a hypothesis; together with C105 it implies that SIFTED kept all features (C82).
* **C167 The exported files about the projection agree with each other.** EndToEnd: the pipeline with the models of PILOT, CLOISTER and PYTHIA in place of the arbitrary last stages, then the Model and the export; the reader's computation is stated on the cells of the files (`C167_projection`). Exact arithmetic, finite features, no feature named `0`.
* **C168 The exported boundary encloses exactly what the features can reach.** EndToEnd: C148 and C92 carried through the runner, the Model and the export to the cells of the files (`C168_boundaries`). Exact arithmetic; the hull routine is assumed correct (`Cloister.HullCorrect`).
* **C169 The exported selections can be read and recomputed.** FALSE: the numbers count from 0 while those of portfolio.csv count from 1, so 0 means both the first algorithm and no advice (`C169_refuted`, a run on four instances). Proved with positions counted from 0 (`C169_partial`).
* **C170 The exported table of the models agrees with the other files.** FALSE: accuracy and precision stand under each other's heading (`C170_refuted`, an algorithm whose prediction is right on three of four instances is listed with an accuracy of 50 percent). Proved for the other columns and with the two exchanged, including the averages and deviations of the performance (`C170_partial`), and for the hyper-parameters (`C170_parameters`); the lines of the oracle and the selector are the subject of C67 and C136.
* **C171 The exported footprints agree with the other files.** FALSE: portfolio.csv numbers the algorithms from 1 and TRACE compares these numbers with positions from 0, so every best footprint belongs to the previous algorithm (`C171_refuted`, an algorithm that is best on five of six instances has no best footprint file, the other one has it). Proved with the numbers as TRACE reads them, and without any shift when PYTHIA's results are used (`C171_partial`); which region is drawn around the instances is the subject of C59-C63 and C94-C96, here only its existence, its figures and its file.
* **C172 Rounding never contradicts the verdicts.** Model of binary64 (`Double.toDouble`: nearest, ties to even, subnormals, overflow) and of PRELIM's row step with every operation rounded. Rounding is shown monotone and exact on doubles; the order statements follow without any error bound.
* **C173 In double precision an algorithm is good exactly if it is within the fraction epsilon of the best.** FALSE: with epsilon 0.05, performance 95 against the best 100 is not good, since 1 - 0.95 is 0.050000000000000044 (`C173_refuted`). `C173_partial`: true whenever loss and epsilon differ by more than 2^-51, by bounding the two rounding errors.
* **C174 In double precision an instance is easy exactly if the share of good algorithms exceeds the threshold.** FALSE: threshold 0.6 (as a double less than 3/5) and three of five algorithms good: 0.6 * 5 is rounded to 3, and 3 > 3 fails (`C174_refuted`). `C174_partial`: true if share and threshold differ by more than 2^-52; `C174_monotone` holds always.
* **C175 In double precision bounding outliers loses no value and exchanges none.** FALSE: on -2^1023, 2^1023, 2^1023 the interquartile range overflows, the bounds are infinite and `False * inf` turns the whole column into NaN (`C175_refuted`). True for values up to 2^999 (`C175_partial`, `C175_clamp_partial`): numpy's midpoint interpolation `b - (b - a) * 0.5` stays between its two values in spite of rounding, hence the bounds are in order. `C175_error_partial`: every bounded value differs from the one of exact arithmetic (C41) by at most 100 M / 2^53 + 100 / 2^1075, M the largest magnitude in the column.
* **C176 In double precision normalisation keeps different values different and in order.** FALSE: a feature with the values 0 and 2^-60 becomes constant by adding 1 (`C176_refuted`; Box-Cox rejects constant data). True: order and positivity without any bound (`C176_partial`, `C176_y_partial`, `C176_order_partial`), distinctness for values farther apart than 2^-50 of the range plus one (`C176_apart_partial`).
* **C177 In double precision the colours run from 0 to 255 in the order of the values.** FALSE: the range of -2^1023 and 2^1023 overflows and the greatest value has no colour (`C177_refuted`). True up to 2^999 (`C177_partial`), even for neighbouring subnormal numbers: different doubles have a difference that is not rounded to zero.
* **C178 Shares are compared with decimal thresholds as if there were no rounding.** Double/Shares.lean. Different fractions with small denominators are at least 2^-50 apart, equal ones are rounded equally (`share_lt`). `C178_preprocessing` and `C178_trace` show that the exact models used elsewhere make the same decisions.
* **C179 PYTHIA's recommendations do not depend on rounding.** Double/Selection.lean: `precision_score`, `np.mean` of truth values, the products, `np.max` and `np.argmax` on doubles. Proved (`C179_selections`: same result as the exact model of PYTHIA; `C179_recommended`: in terms of exact precisions).
* **C180 The instance filter in double precision.** FALSE: the features 0 and 2^-600 of two instances are different, but the square of their difference underflows, so with the distance 0 one is removed. Double/Distance.lean: `cdist` as a sum of rounded squares with a correctly rounded root (`sqrtBits`, computed with integers; error at most half a unit, `sqrtBits_error`). Symmetry and the recognition of repetitions hold without bound; the partial theorems assume values up to 2^500 and differences of at least 2^-500, and then the computed distance has a relative error of at most n + 4 roundings (`dist_within`, induction over the features).
* **C181 The clusters of TRACE in double precision.** FALSE in the second part: points at a distance slightly more than eps from all others can share a cluster, because the distance is rounded to eps. Double/Cluster.lean. `C181_groups` holds for all finite coordinates (rounding keeps the distance symmetric and 0 on the diagonal); the partial theorems sandwich the clusters between those for eps divided by (1 + 2^-53)^6 and by (1 - 2^-53)^6.
* **C182 The rounded numbers in PYTHIA's table.** FALSE in the first part: the double nearest to 0.0005 is more than 0.0005 but is shown as 0. Double/Rounding.lean. Proved instead: order (`C182_order`, all numbers), error at most half a thousandth plus a relative rounding error (`C182_error`, `C182_percent`), rounding twice is rounding once (`C182_twice`, used in `C182_table` for the table of the model of PYTHIA), different measures stay different (`C182_distinct`).
* **C183 The order of the instances is irrelevant to TRACE.** PROVED (C183_instances) for the whole analysis, exceptions included, from the single assumption that np.unique returns the distinct rows in ascending order (`UniqueSorts`) besides the geometry laws: every other use of the list of instances is a count, a quantifier over all, or an index into the sorted rows.
* **C184 The order of the algorithms is irrelevant to TRACE.** FALSE for experimental data: p counts from one and is compared with positions counted from zero (C61), so the instances of the last algorithm in the list are in no best footprint, and exchanging two algorithms changes which one loses its footprint (C184_refuted). Partial: the footprints of the space, of the hard instances and of good performance keep their algorithms whatever p is (C184_good_partial); with PYTHIA's recommendations counted from zero everything holds, completion included (C184_sim_partial): the pairwise resolution never changes a footprint of a run that completes (C94), and whether a pair stops the run does not depend on which of the two comes first.
* **C185 The colours of the web export agree with the CSV files.** PROVED (C185_colours): stated on the files only (`ShowsColours`: entries of two files, least and greatest number found in the CSV file), proved from the lists of files of both exports and the scaling functions. Missing values and constant columns are the subject of C81.
* **C186 In double precision the projected coordinates have about sixteen correct digits.** FALSE: 1 + 2^-60 - 1 is computed as 0 (`C186_refuted`). PROVED for every order of summation: the result is finite and within n/2^52 times the sum of the sizes of the products (`C186_partial`); two computations of one coordinate differ by at most twice that (`C186_recomputed_partial`); instances further apart than the errors keep their order along an axis (`C186_order_partial`). Modelled in `Double/Dot.lean` by trees of rounded sums, products and fused multiply-adds.
* **C187 The order of the rows of the metadata table is irrelevant to the instance space.** PROVED (`C187_space`) by composing the end-to-end theorem about the early stages (C165) with the order theorems of PILOT (C152), CLOISTER (C160) and TRACE (C183); what is needed of the libraries is the structure `OrderBlindLate`.
* **C188 The MATLAB file determines the algorithm labels.** FALSE: a label that ends with a space is written like the label without it when another label is longer (`C188_refuted`). PROVED: the rows are the labels in order, filled up with spaces to the length of the longest (`C188_rows_partial`), and labels that do not end with a space are determined by the file (`C188_recover_partial`). That `savemat` fills up with spaces is a fact about scipy that the model assumes (`Export/Mat.lean`).
* **C189 PYTHIA does not depend on how the instance space is drawn.** FALSE: each axis is divided by its own deviation, so turning the picture changes the distances the classifiers see (`C189_refuted`: three instances, turned). PROVED: shifting, scaling, mirroring and exchanging axes changes no kernel value, Gaussian or polynomial, for any gamma, and does not change whether the coordinates can be normalised (`C189_axes_partial`). Over the reals. That a support vector machine uses its inputs only through the kernel is a fact about `SVC` and is not modelled; the random numbers used by the searches do not depend on the coordinates.
* **C190 The order of the rows of the metadata table is irrelevant to the exported files.** PROVED (`C190_files`) under the conditions of C187: no subset of the instances, libraries blind to the order (`OrderBlind`, `OrderBlindLate`), the same features selected by SIFTED. The files of PYTHIA's predictions are in the same order if the predictions are the same for each instance; PYTHIA's table is not covered, since its folds depend on the order of the instances.
* **C191 A stricter purity gives smaller, purer footprints.** FALSE: with a stricter purity an overlap of two best footprints that held equally many instances of both algorithms can lose instances of one only, and TRACE raises (`C191_refuted`); and the purity of a footprint can fall, because instances on the edges between triangles are in no triangle and only triangles are judged (`C191_purity_refuted`). PROVED (`C191_smaller_partial`): if both runs complete, the space footprint is identical and every other footprint is a part of the laxer one. For whole builds (`C191_build_partial`): two builds from the same table that differ only in the purity, both complete, with equally many stage calls before, agree in everything TRACE does not return, and their footprints are related in the same way. Inclusion is an abstract relation with the usual laws (`Inclusion`), met by the finite-set geometries of the witnesses.
* **C192 On clean data a build completes.** FALSE as stated: an algorithm that is good on every instance stops PYTHIA (`C192_refuted`), and two best footprints that overlap unevenly stop TRACE although every algorithm is good somewhere and bad somewhere (`C192_clash_refuted`). PROVED: nothing else can happen (`C192_outcome_partial`: each stage of the composed pipeline is followed on finite arrays of known shapes), with an absolute threshold that every algorithm both reaches and misses only the clash remains (`C192_threshold_partial`), and with one algorithm best everywhere and experimental data the build completes (`C192_winner_partial`). Exact arithmetic; PILOT in the numerical mode; the transformation is assumed to turn non-constant finite columns into finite ones; SIFTED with more than three features may raise in the libraries.
* **C193 Labels, sources and other columns do not influence the results.** PROVED (`EndToEnd/PropsLabels.lean`) by naturality: `Val.relabel` replaces labels row by row (and sources, row by row or by none); every stage model commutes with it (`runPreprocessing_relabel` … `runTrace_relabel` in `EndToEnd/LabelLemmas.lean`), hence so does the application of any list of stages (`applyAll_relabel`). The runs on both tables are relabellings of one run whose labels and sources are the numbers of the rows. `C193_labels` is the claim, `C193_other_columns` the case of equal labels and sources. Modelled are the seven default stages on the values of `EndToEnd/Model.lean`; opaque library results depend on the numbers only, as in the code, where no library gets labels or sources.
* **C194 The boundary computed in double precision encloses the instances, up to rounding.** FALSE: the rounded corners can cut off a strip in which an instance lies (`C194_refuted`, coefficients 1 and 2^-53). PROVED: enclosure up to twice the rounding error (`C194_partial`), no point inside is farther than the error from the shadow of the box (`C194_tight_partial`), and exact enclosure along the axes if all rows are added in the same order, by monotonicity of rounding (`C194_axis_partial`). Model: Double/Boundary.lean over the corners of Cloister/Model.lean; the hull itself is assumed correct on the rounded points (`HullCorrect`).
* **C195 The model PYTHIA trains for an algorithm depends on that algorithm only.** FALSE: the candidates are drawn algorithm after algorithm from one generator, so two algorithms that change places get other models (`C195_refuted`); with cost-sensitive weights even an algorithm that keeps its place does, since weights are distances from the mean over all algorithms (`C195_weights_refuted`). PROVED: without weights, all results of an algorithm are the same in every run in which it has the same position (`C195_partial`), with weights if its own weights are the same (`C195_weights_partial`); algorithms added behind the old ones take over an instance only if their precision is higher (`C195_added_partial`). The loop with its generator and the weights is in `Pythia/Draws.lean`; training is a parameter that sees the labels, weights and candidates of one algorithm.
* **C196 More tries never give a worse projection.** FALSE: the draws fill the array row by row, so with another number of columns every starting point is another one (`C196_refuted`; if no two draws are equal, two runs with different n_tries share not a single starting point, `C196_disjoint_partial`). PROVED: whenever the starting points of the one run are among those of the other (`C196_partial`), in particular for starting points given by the user (`C196_given_partial`), the best performance is not worse and the returned projection is, up to rounding to half precision, that try. All tries need a defined performance (see C74). For whole builds in numerical mode with given starting points (`C196_build_partial`): if two builds that differ only in the number of tries both complete, with equally many stage calls before, everything not computed from the projection is the same, the tries of the shorter one are the first tries of the longer one in `perf` of the Model, and the best of them is not better.
* **C197 The unit and the zero point of a feature do not matter.** FALSE for the unit, PROVED for the zero point. PRELIM subtracts the minimum and adds 1 before the Box-Cox power, so a constant added to a feature disappears (`C197_zero_partial`, with and without bounding; `C197_fit_partial` over the reals for the recorded quantities), but a factor does not: with the exponent -1 the values 0, 1, 2 and 0, 2, 4 get different normalised values (`C197_refuted`; the exponent is what scipy's optimiser returns and is a parameter of the model, so the witness is for an optimiser that returns -1 on both). The unit does not matter for bounding (`C197_bound_partial`), for exponent 1 (`C197_linear_partial`) and for features with two values (`C197_two_partial`). `C197_run_partial` carries the zero point through all seven stages: same exception, or the same output except the raw features and the recorded medians, bounds and minima, by a simulation of two runs stage by stage (`EndToEnd/SimLemmas`).
* **C198 An instance that is removed for missing values leaves no trace.** PROVED. `C198_stage`: with any instances left out that the stage does not return (told apart by running the stage with positions as labels) the whole output of preprocessing is the same, errors included. `C198_run` carries this through the pipeline: no later stage reads the initial inputs.
* **C199 A feature that is removed leaves no trace.** FALSE: instances are removed before features, so an instance whose only value is in a feature that is removed afterwards stays; without that feature in the file it would go (`C199_refuted`). PROVED when some feature is returned and every instance returned has a value in a returned feature: `C199_partial` for the stage, `C199_run_partial` for the pipeline.
* **C200 Every coordinate can be recomputed from what the Model keeps.** PROVED in exact arithmetic (EndToEnd/PropsRecompute.lean): `C200_recomputed`, for the whole pipeline, with and without subsets. Assumes that the transformation of a column is Box-Cox with the exponent found followed by standardisation with the mean and deviation recorded (which is what prelim.py:544-551 does, C122), and, if a column has infinite values, that the bounds computed from it are not in reverse order.
* **C201 The recorded scaling quantities line up with the feature labels.** FALSE: SIFTED replaces the labels by those of the selected features while the arrays of PRELIM keep one entry for each feature before selection (`C201_refuted`: with the third of four features dropped, the entry at the position of the third label is the minimum of the dropped feature). `C201_partial`: entry `selvars[j]` belongs to label j; what is recorded about a feature depends on its own values in the kept rows only, the bounds are five interquartile ranges from the median, and the minimum is the smallest value.
* **C202 Every processed performance can be recomputed from what the Model keeps.** PROVED `C202_rescored` for the whole pipeline: every entry of `y` other than NaN is the processed entry of `y_raw`, with what is recorded at the algorithm's position. In the relative case `y_raw` itself is not raw: zeros are replaced (C46). With normalisation the raw performances are normalised, not the relative ones (C88).
* **C203 The error in the Model is what its coordinates leave unexplained.** FALSE in numerical mode: `C203_refuted` (a run with two algorithms: `c` has one column, so the first algorithm cannot be reconstructed). PROVED `C203_analytic_partial` for the whole pipeline in analytic mode, and `C203_numerical_partial`: in numerical mode the error is that of a matrix of which `c` lacks the first column.
* **C204 The Model's projection is the best of the tries it records.** PROVED `C204_read_from_the_best` for the whole pipeline. `alpha` is rounded to half precision twice; that this is the same as once is a hypothesis on the rounding. With a NaN among the qualities the first NaN is taken (C74).
* **C205 The correlations in the Model are those of its features and performances.** PROVED: `pearsonr` is a parameter; the correlations are computed in the model from the columns that SIFTED gets, and the theorem is about the `x`, `y`, `selvars`, `rho` and `pval` at the end of the run.
* **C206 The rows of rho and pval line up with the features of the Model.** FALSE: when SIFTED drops a feature its row stays in `rho` and `pval`, so later rows are shifted (`C206_refuted`, `C206_row_refuted`); `C206_partial` is the case in which nothing is dropped.
* **C207 The clusters in the Model are about its features.** FALSE: the rows of `clust` are the features kept by correlation, of which there are always more than the Model has (`C207_rows_partial`, `C207_refuted`); `C207_partial`: the rows stand for features that include the selected ones, and each cluster has exactly one of them.
* **C208 What PYTHIA reports in the Model follows from its labels.** EndToEnd: the whole pipeline with the models of PYTHIA's outputs (`pythiaOut`).  FALSE (`C208_refuted`): the counts are those of the cross-validated predictions y_sub, the measures those of the predictions y_hat of the final model on its training data; in the run on four instances the counts show no error and the accuracy is 3/4.  `C208_partial`: counts from y_bin and y_sub, measures and both selections from y_bin and y_hat; `C208_models_partial`: the columns come from the trainings (`fitted`, arbitrary) of the algorithms at their positions.
* **C209 The arrays of the Model have the sizes of its instances, features and algorithms.** EndToEnd: the whole pipeline, with or without a subset (`run_sampled`).  FALSE for the labels of the instances when a subset is taken (`C209_labels_refuted`, three of four instances) and for the matrix c of PILOT in numerical mode (`C209_matrix_refuted`, C77).  `C209_partial`: all other arrays (32 of them); `C209_labels_partial`: the labels without a subset; `C209_matrix_partial`: c in analytic mode.
* **C210 The order of the columns of the metadata table does not change the data of the Model.** The whole composition of the first three stages (EndToEnd) on two tables whose columns are permutations of each other; by names: which columns stay is characterised by the cells alone, PRELIM commutes with a permutation of the algorithms, the subset depends on the number of rows only. False for the best algorithm when two share the best performance (the first column wins): refuted with a witness, proved for instances with a clear best. Density filter excluded.
* **C211 The unit and the zero point of the performances do not matter.** Two runs of the whole pipeline side by side (EndToEnd, LevelLemmas), related name by name: before PRELIM the performances differ by a function of one number, after it only the raw and best ones do. PRELIM's part is C140 (unit) and the analogue for a shift with the minimum removed by the normalisation (Prelim/LevelLemmas). PYTHIA's training is assumed not to look at the performances, which is so without weights (pythia.py:380-421). Exact numbers; with normalisation a change of unit is not harmless (C88), nor a shift with a relative threshold.
* **C212 The best picture of the instance space is unique.** FALSE: the error does not change when the plane is changed by any invertible linear map and the coefficients of the reconstruction by its inverse (`C212_same_error_partial`), so that shears and stretched pictures are equally good. `C212_refuted` gives two perfect pictures of the same data with different proportions, both of which PILOT returns; `C212_never_partial`: whatever the data, as soon as three instances are not on a line there is an equally good, dissimilar picture. TRUE: pictures with the same reconstructions differ only by such a linear map (`C212_linear_partial`). And when the second and third eigenvalues of the data, with the performances replaced by their regression on the features, differ, the best pictures are exactly the invertible linear changes of one of them (`C212_gap_partial`), so two numerical runs that reach the least error (`C212_gap_runs_partial`), and a numerical and an analytic run on performances linear in the features (`C212_modes_partial`), differ by a linear change of the plane.
* **C213 The feature selection returns a selection.** Modelled in `Sifted/Model.lean` (`sifted`); the condition on the libraries is `Delivers` in `Sifted/SpecCompletes.lean`. False: four features without a significant correlation stop the stage with NotEnoughFeatureError, whatever the libraries do (`C213_uncorrelated_refuted`, `C213_refuted`). Proved instead: the exact condition for returning (`C213_exact_partial`) and that two algorithms with different favourite features are enough for the first step (`C213_favourites_partial`). In the whole pipeline (`EndToEnd/SpecSelection.lean`, `EndToEnd/PropsSelection.lean`): on a table with or without missing performances a build raises in SIFTED exactly if there are more than three features and the selection is stuck on what PRELIM makes of the table (`C213_build_partial`), and without significant correlations it always does (`C213_build_refuted`).
* **C214 Instances with the same features are treated alike.** C200's formula of the coordinates is a function of the raw values of the selected features, so equal values give equal coordinates (C214_place). Trained models are parameters; the hypothesis Places says that they are functions of the coordinates, and then C208's tally gives the same predictions, probabilities and selections (C214_predictions). C214_rows goes back to the rows of the input table through C162.
* **C215 Missing performances are left out of the projection.** Modelled in Pilot/Gaps.lean and EndToEnd/Late.lean. Proved in part end-to-end for the performances in the Model; false: with normalisation one gap wipes all performances, the error becomes NaN, and the analytic mode raises.
* **C216 A missing performance does not stop a build.** Proved in part end-to-end (EndToEnd/PropsPatchy.lean) for PILOT in the numerical mode, generalising C192; false in the analytic mode, where PILOT raises (`C216_analytic_refuted`), and false with normalisation and more than three features: one missing performance makes PRELIM wipe out all of them, SIFTED then finds no correlation and raises, whatever the data and the libraries do (`C216_normalised_refuted`; this relies on Box-Cox and the z-score returning the empty array for the empty array, as scipy does). What SIFTED does with more than three features in general is `C213_build_partial`, which covers missing performances.
* **C217 Two algorithms with the same performances are treated alike.** End to end on the model of the build: equal columns of the table give equal columns of `y_raw`, `y`, `y_bin`, and `p` never names the later algorithm (`rowStep` row by row, normalisation column by column); correlations from C205; models and measures from C208 if training depends on the column alone; footprints from C94. Refuted for the models (other candidates are drawn for every algorithm) and for the best footprints (TRACE counts from 0, PRELIM from 1: the later twin gets the footprint of its predecessor).
* **C218 A build completes only if no selected feature is missing.** EndToEnd/AnyFeatures.lean: PILOT and CLOISTER return anything on features that are not finite, except that PILOT multiplies them with its matrix; scikit-learn raises on coordinates that are not finite (assumed). One non-finite entry makes a coordinate non-finite whatever the matrix, so PYTHIA raises for the first algorithm. `C218_same` is a refinement: every completed build is one of the model with finite features, so the theorems about those carry over. A gap in a feature that SIFTED drops does no harm (example).
* **C219 r2 in the Model tells how well the coordinates explain each feature and algorithm.** FALSE in numerical mode, the default: np.corrcoef takes the rows for variables, so r2 has two entries per instance, and every entry is 1 or NaN whatever the fit (`C219_refuted`); `C219_numerical_partial` says exactly when the first entry of an instance is NaN. PROVED in analytic mode (`C219_analytic_partial`), from C79 on the arrays of the whole pipeline.
* **C220 For every algorithm the Model keeps a feature that correlates most with it.** FALSE when features are clustered: the search may take another feature of the cluster (`C220_refuted`, on a whole build). PROVED without clusters (`C220_partial`), and with clusters for the cluster (`C220_clustered_partial`): one feature of the cluster of a top feature is kept. Contracts: `np.argsort` sorts, `pearsonr` returns a number or NaN, k-means labels every feature, pygad returns one gene per cluster.
* **C221 The footprints follow the picture.** FALSE for rotations (`C221_refuted`: the radius of the clustering comes from the bounding box, so twelve instances in a row have a footprint in the direction (3, 4) and none along an axis). TRUE for shifts, mirror images on the axes and exchanged axes (`C221_axes_partial`): modelled in `Trace/Model.lean` with the neighbourhoods of `Dbscan/Radius.lean`; the clusters of the moved picture are the moved clusters up to their numbers (by C58), and unions and cuts do not depend on the order. Assumed of the library: it follows the motion and geometries are compared as sets of points (`simplify`, which starts at a vertex of the ring, only does so approximately).
* **C222 Nobody beats the oracle in PYTHIA's table.** The summary is routed to the Model (EndToEnd/Late); rows of PRELIM bound the performances by the best one, also with eps in the place of zero; means of lists ordered entry by entry are ordered. Proved for known performances about the algorithms (`C222_algorithms_partial`), about the selector when the first algorithm is never recommended (`C222_selector_partial`), and for the probabilities (`C222_good_partial`). Refuted: the selector's row takes the algorithm before the recommended one (`C222_selector_refuted`), averages skip missing performances (`C222_missing_refuted`), the oracle's probability is always 1 (`C222_good_refuted`).
* **C223 Footprints stay inside the boundary.** Regions are sets of points with laws for the geometry library (Trace/SpecWithin); a footprint is the smoothed union of pruned polygons around clusters of the selected instances, hence lies in their convex hull (Trace/WithinLemmas); the instances lie in the hull of `z_edge` (C56), routed end to end. Proved: `C223_boundary`, `C223_instances`.
* **C224 What counts as good does not move the picture.** Proved in part end-to-end (EndToEnd/PropsThreshold.lean): two runs of the whole pipeline that both complete agree outside the names in `aboutGood` (EndToEnd/SpecThreshold.lean) when SIFTED needs no search and instances are not sampled by density. False with a search: the genetic search of SIFTED evaluates classifiers of `y_bin` (sifted.py:834-856), so that another threshold selects other features and the instances get other coordinates; `C224_refuted` has a run on four features. For this property the libraries of SIFTED in the model are given the verdicts besides the features and performances; silhouettes, k-means and the sort are assumed not to look at them (`OnlySearchSeesVerdicts`).
* **C225 A change in a stage reaches only what is computed from its results.** Proved for every pipeline that can be built (Runner/PropsInfluence.lean, `C225_influence`, with `Reached` and `Touched` in Runner/SpecInfluence.lean), and for the default pipeline with the models of the stages (EndToEnd/PropsInfluence.lean: `C225_late`, `C225_pythia`, `C225_sifted`).
* **C226 An algorithm that is good (or best) everywhere has the whole space.** EndToEnd/PropsExtremes.lean from `Trace.C94_completes` and the sizes of C209: `C226_good`, `C226_hard`. The best footprints: `C226_refuted` (without PYTHIA's results TRACE compares p, which counts from one, with positions that count from zero: of two algorithms the first has the larger performance on all six instances and gets no best footprint, the second gets the whole space) and `C226_best_partial`.
* **C227 A build on a subset of the instances is a build on a smaller table.** Two runs of the pipeline model compared stage by stage: with no missing value preprocessing of part of the instances is part of its output; with neither bounding nor normalisation PRELIM works row by row, so the subset taken at its end (C44, C45) is what it returns for the smaller table; SIFTED and the last four stages read nothing else that differs. Partial: false with bounding or normalisation, which look at all instances before the subset is taken (`C227_refuted`); the labels and the recorded quantities are always those of all instances (C209).
* **C228 Building again on the selected features changes nothing.** Modelled: EndToEnd/Model (`run`), with the features asked for replaced (`keepingOnly`, SpecAgain). Proved: `C228_few_partial` (at most three features selected) and `C228_kept_partial` (the second selection keeps as many) by following the columns through preprocessing, PRELIM and SIFTED (AgainLemmas). `C228_refuted`: five features of which four are selected, and three of these four the second time, because the selection compares the correlation of position i with the feature of rank i (sifted.py:757-763).
* **C229 Leaving out an algorithm that is nowhere the best leaves the verdicts on the others alone.** Modelled: EndToEnd/Model (`run`) on metadata with one column of performances erased (`withoutAlgorithm`, SpecDropped). Proved: `C229_verdicts_partial` and `C229_best_partial` from C150 for each row, the fact that the filter's rows do not depend on performances, and the three first stages made explicit (`front`). `C229_refuted`: best performances 0 minimised relatively, with two algorithms at the machine epsilon. Not covered: missing values, a selection of algorithms, the density subset, and builds of which one raises.
* **C230 The silhouette scores in the Model are about its features.** Modelled: Sifted/Model (`evaluateCluster`, `sifted`), EndToEnd/Model (`grounds`); k-means and the silhouette score are parameters. Proved: `C230_partial`, the scores are in order and about the features before the last selection, which have the rows of `clust`. `C230_refuted`: two scores, for two and three clusters of four features, in a Model with three features. The theorem was added because the edit that reverses the scores in `grounds` broke no theorem.
* **C231 An infinite value does not erase others when normalising.** Modelled: Prelim/Model (`normX`, `normY`, `outX`); Box-Cox and the z-score are the parameter `tr`. Proved: `C231_finite_partial` and `C231_finite_performances_partial` for finite features and performances, if `tr` returns a number for each finite number; that different values can still be told apart is up to `tr` and not proved. The z-score does not meet this contract on constant columns, which is the subject of C123. False of the code otherwise: subtracting a smallest value of -inf gives NaN for it and +inf for all others. `C231_refuted` is the negation, for every `tr`; `C231_lost_partial` says which values are lost, `C231_erased_partial` that one -inf erases the other values of a feature, `C231_performances_partial` that one -inf of any algorithm erases the performances of all, and `C231_build_partial` the same for the performances in the output of two builds (no value missing, all algorithms, density subset off). Columns with infinities are modelled without bounding only (median and quartiles of them are not modelled). The property was added because the edit `inf - inf = 0` of `Num.add` broke no theorem.
* **C232 A looser threshold only adds good algorithms to the Model.** Proved (`C232_looser`) from the first three stages of two completed runs: preprocessing is the same, PRELIM row by row (C40 for the verdicts, then counts and the comparison with the share), the subset without the density option does not look at verdicts, and the late stages write none of these names. With the density option the verdicts decide which instances stay, so the claim is not made there.
* **C233 Improving an algorithm never costs it a good verdict in the Model.** Proved for absolute performances, where the verdicts on the others stay exactly the same (`C233_absolute_partial`), and for positive relative performances (`C233_relative_partial`), from the first three stages of two completed runs and C139 on every row. Refuted for relative performances that are not positive (`C233_refuted`): improving from -1 to 0 makes an algorithm the best and takes its verdict away, in a complete build. Missing values are left out because an instance whose only performance appears would be a new instance.
* **C234 A higher correlation threshold never adds a feature to the Model.** Refuted for the stage (`C234_refuted`) and for whole builds (`C234_build_refuted`): with the lower threshold enough features remain to be clustered, and the search may leave out one that the higher threshold keeps because so few remain that all are kept. Proved if nothing is clustered with the lower threshold, for the stage (`C234_partial`) and for whole builds (`C234_build_partial`): the features selected by correlation shrink to a sublist, and a shorter list is not clustered either. C159 is about the selection by correlation alone.
* **C235 The number of clusters matters only if features are clustered.** Proved (`C235_clusters`): SIFTED reads K only to decide whether to cluster and in the clustering itself, no other stage reads it, and clust and selvars in the output are those of SIFTED. The whole output is the same dictionary, so completion of the second build is part of the claim. Calls of run_stage before run_all are left out here.

## 5. Axioms each theorem depends on

Output of `#print axioms`, grouped (regenerate with `tools/manifest.py`).

**no axioms**: `Pipeline.C131_dense_partial`, `Export.C80_refuted`

**propext**: `Builder.C08_refuted`, `Export.C110_partial`, `Builder.C117_refuted`, `Runner.C11_types_refuted`, `Builder.C137_outputs_must_be_new`, `Wiring.C143_best`, `Wiring.C143_cloister`, `Wiring.C143_dense`, `Wiring.C143_filter`, `Wiring.C143_pilot`, `Wiring.C143_prelim`, `Wiring.C143_preprocessing`, `Wiring.C143_pythia`, `Wiring.C143_pythia_steps`, `Wiring.C143_refuted`, `Wiring.C143_sifted`, `Wiring.C143_sifted_density`, `Wiring.C143_sifted_filter`, `Wiring.C143_sifted_given`, `Wiring.C143_sifted_selected`, `Wiring.C143_solvers`, `Wiring.C143_summary_partial`, `Wiring.C143_summary_swapped`, `Wiring.C143_trace`, `Runner.C14_refuted`, `Preprocessing.C153_refuted`, `Runner.C16_unique`, `Export.C188_recover_partial`, `Preprocessing.C199_refuted`, `Runner.C20_refuted`, `InstanceSpace.C22_refuted`, `InstanceSpace.C23_refuted`, `InstanceSpace.C24_refuted`, `Pipeline.C26_refuted`, `Preprocessing.C30_refuted`, `Prelim.C44_all`, `Options.C52_given`, `Export.C80_polygon_partial`, `Export.C82_directory_partial`, `Export.C82_refuted`

**propext, Classical.choice, Quot.sound**: `Builder.C01_schedule_valid`, `Builder.C02_order_irrelevant`, `Builder.C03_complete`, `Builder.C04_no_conflict`, `Builder.C05_partial`, `Builder.C06_partial`, `Builder.C06_refuted`, `Builder.C06_resolver_complete_partial`, `Builder.C08_partial`, `Pythia.C100_matrix`, `Pythia.C100_partial`, `Pythia.C100_positive`, `Pythia.C100_refuted`, `Pythia.C101_partial`, `Pythia.C101_refuted`, `Pythia.C102_stage_refuted`, `Pythia.C103_range`, `Sifted.C104_partial`, `Sifted.C104_refuted`, `Sifted.C105_partial`, `Sifted.C105_refuted`, `Sifted.C106_count`, `Sifted.C106_small`, `Pilot.C107_partial`, `Pilot.C107_refuted`, `Pilot.C108_floor_partial`, `Pilot.C108_linear_partial`, `Pilot.C108_orthogonal_partial`, `Pilot.C108_partial`, `Pilot.C108_refuted`, `Pilot.C108_twice_partial`, `Pilot.C109_summary`, `Pipeline.C10_default_schedule`, `Export.C110_refuted`, `Export.C111_columns`, `Export.C111_footprints`, `Export.C111_matrices`, `Export.C111_points`, `Export.C111_raw_features`, `Export.C111_summaries`, `Export.C112_directory_partial`, `Export.C112_exact_partial`, `Export.C112_partial`, `Export.C112_refuted`, `Export.C112_sifted_partial`, `Export.C113_features_partial`, `Export.C113_global_partial`, `Export.C113_global_refuted`, `Export.C113_individual_partial`, `Export.C113_individual_refuted`, `Export.C114_partial`, `Export.C114_predicted_refuted`, `Export.C114_property_refuted`, `Export.C114_refuted`, `Export.C115_drawn_partial`, `Export.C115_partial`, `Export.C115_property_refuted`, `Export.C115_refuted`, `Builder.C116_as_early_as_possible`, `Builder.C117_partial`, `Filter.C118_at_most_one`, `Filter.C118_defined`, `Filter.C118_order`, `Filter.C118_units`, `Filter.C118_value`, `Dbscan.C119_expected`, `Pipeline.C11_default`, `Pipeline.C11_default_types`, `Runner.C11_never_missing`, `Runner.C11_types_partial`, `Dbscan.C120_flat_partial`, `Dbscan.C120_partial`, `Dbscan.C120_refuted`, `Trace.C121_enough_partial`, `Trace.C121_refuted`, `Trace.C121_too_few_partial`, `Prelim.C122_features`, `Prelim.C122_performances`, `Prelim.C123_exact_partial`, `Prelim.C123_refuted`, `Trace.C124_cluster`, `Trace.C124_union`, `Options.C125_conflict`, `Options.C125_undefined`, `InstanceSpace.C126_directory`, `InstanceSpace.C126_partial`, `InstanceSpace.C126_refuted`, `InstanceSpace.C126_success_partial`, `Export.C127_loaded_partial`, `Export.C127_partial`, `Export.C127_refuted`, `Export.C128_binary`, `Export.C128_footprint`, `Export.C128_sources`, `Export.C128_values`, `Runner.C12_fresh`, `Runner.C12_run_all`, `Export.C130_partial`, `Export.C130_refuted`, `Pipeline.C131_model`, `Pipeline.C132_metadata`, `Pipeline.C132_options`, `Pipeline.C132_prelim`, `Sifted.C133_partial`, `Sifted.C133_refuted`, `Sifted.C134_partial`, `Sifted.C134_refuted`, `Pilot.C135_objective`, `Pilot.C135_result`, `Pythia.C136_average`, `Pythia.C136_deviations`, `Pythia.C136_good`, `Pythia.C136_parameters`, `Pythia.C136_rows`, `Pythia.C136_selected`, `Pipeline.C137_default`, `Runner.C137_results`, `Builder.C137_schedule`, `Pipeline.C138_default`, `Runner.C138_inputs`, `Runner.C138_result`, `Prelim.C139_absolute`, `Prelim.C139_partial`, `Prelim.C139_refuted`, `Runner.C13_prerequisites`, `Runner.C13_refused`, `Prelim.C140_absolute_partial`, `Prelim.C140_partial`, `Prelim.C140_refuted`, `Prelim.C141_algorithms`, `Prelim.C142_features`, `Prelim.C142_performances`, `Prelim.C142_rows`, `Wiring.C143_calls`, `Filter.C144_partial`, `Filter.C144_refuted`, `Filter.C145_classes_partial`, `Filter.C145_duplicates_partial`, `Filter.C145_partial`, `Filter.C145_refuted`, `Prelim.C146_bounds`, `Prelim.C146_idempotent`, `Prelim.C147_exact_partial`, `Prelim.C147_partial`, `Prelim.C147_refuted`, `Prelim.C147_two_refuted`, `Cloister.C148_monotone`, `Cloister.C148_shadow`, `Cloister.C149_both_partial`, `EndToEnd.C149_build_partial`, `Cloister.C149_partial`, `Cloister.C149_pvalue_partial`, `Cloister.C149_refuted`, `Runner.C14_partial`, `Runner.C14_rerun_sees_current_partial`, `Prelim.C150_partial`, `Prelim.C150_refuted`, `Prelim.C150_verdicts`, `Pilot.C151_determined`, `Pilot.C152_instances`, `Preprocessing.C153_partial`, `Preprocessing.C153_settles_partial`, `Preprocessing.C154_instances`, `Trace.C155_about`, `Trace.C155_own_column`, `Trace.C156_everywhere`, `Trace.C156_labels`, `Trace.C156_rows`, `Pythia.C157_partial`, `Pythia.C157_refuted`, `Sifted.C158_algorithms_partial`, `Sifted.C158_instances_partial`, `Sifted.C158_refuted`, `Sifted.C159_threshold`, `Runner.C15_partial`, `Runner.C15_refuted`, `Cloister.C160_features`, `Cloister.C160_instances`, `Export.C161_partial`, `Export.C161_refuted`, `Export.C161_titles`, `EndToEnd.C162_absolute_partial`, `EndToEnd.C162_best_partial`, `EndToEnd.C162_counts_partial`, `EndToEnd.C162_features_partial`, `EndToEnd.C162_labels_partial`, `EndToEnd.C162_measure_partial`, `EndToEnd.C162_names_partial`, `EndToEnd.C162_raw_partial`, `EndToEnd.C162_refuted`, `EndToEnd.C162_relative_partial`, `EndToEnd.C162_subset_file_partial`, `EndToEnd.C162_subset_fraction_partial`, `EndToEnd.C162_subset_labels_partial`, `EndToEnd.C162_subset_partial`, `EndToEnd.C163_local`, `Pilot.C164_analytic_partial`, `Pilot.C164_degenerate_partial`, `Pilot.C164_numerical_partial`, `Pilot.C164_refuted`, `EndToEnd.C165_refuted`, `EndToEnd.C165_rows_partial`, `EndToEnd.C166_counts_partial`, `EndToEnd.C166_portfolio_partial`, `EndToEnd.C166_processed_partial`, `EndToEnd.C166_raw_partial`, `EndToEnd.C166_refuted`, `EndToEnd.C166_verdicts_partial`, `EndToEnd.C167_projection`, `EndToEnd.C168_boundaries`, `EndToEnd.C169_partial`, `EndToEnd.C169_refuted`, `EndToEnd.C170_parameters`, `EndToEnd.C170_partial`, `EndToEnd.C170_refuted`, `EndToEnd.C171_partial`, `EndToEnd.C171_refuted`, `Double.C172_best`, `Double.C172_epsilon`, `Double.C172_improve`, `Double.C172_order`, `Double.C172_unit`, `Double.C172_untouched`, `Double.C173_partial`, `Double.C173_refuted`, `Double.C174_monotone`, `Double.C174_partial`, `Double.C174_refuted`, `Double.C175_clamp_partial`, `Double.C175_error_partial`, `Double.C175_partial`, `Double.C175_refuted`, `Double.C176_apart_partial`, `Double.C176_order_partial`, `Double.C176_partial`, `Double.C176_refuted`, `Double.C176_y_partial`, `Double.C177_partial`, `Double.C177_refuted`, `Double.C178_features`, `Double.C178_preprocessing`, `Double.C178_purity`, `Double.C178_repeated`, `Double.C178_trace`, `Double.C179_recommended`, `Double.C179_selections`, `Runner.C17_failure_harmless`, `Runner.C17_recovers`, `Double.C180_kept_partial`, `Double.C180_partial`, `Double.C180_refuted`, `Double.C180_removed_partial`, `Double.C180_repetitions`, `Double.C180_symmetric`, `Double.C181_converse_partial`, `Double.C181_groups`, `Double.C181_partial`, `Double.C181_refuted`, `Double.C182_distinct`, `Double.C182_error`, `Double.C182_order`, `Double.C182_percent`, `Double.C182_refuted`, `Double.C182_table`, `Double.C182_twice`, `Trace.C183_instances`, `Trace.C184_good_partial`, `Trace.C184_refuted`, `Trace.C184_sim_partial`, `Export.C185_colours`, `Double.C186_order_partial`, `Double.C186_partial`, `Double.C186_recomputed_partial`, `Double.C186_refuted`, `EndToEnd.C187_space`, `Export.C188_refuted`, `Pythia.C189_axes_partial`, `Pythia.C189_refuted`, `Pipeline.C18_default`, `Runner.C18_partial`, `Runner.C18_refuted`, `EndToEnd.C190_files`, `EndToEnd.C191_build_partial`, `Trace.C191_purity_refuted`, `Trace.C191_refuted`, `Trace.C191_smaller_partial`, `EndToEnd.C192_clash_refuted`, `EndToEnd.C192_outcome_partial`, `EndToEnd.C192_refuted`, `EndToEnd.C192_threshold_partial`, `EndToEnd.C192_winner_partial`, `EndToEnd.C193_labels`, `EndToEnd.C193_other_columns`, `Double.C194_axis_partial`, `Double.C194_partial`, `Double.C194_refuted`, `Double.C194_tight_partial`, `Pythia.C195_added_partial`, `Pythia.C195_partial`, `Pythia.C195_refuted`, `Pythia.C195_weights_partial`, `Pythia.C195_weights_refuted`, `EndToEnd.C196_build_partial`, `Pilot.C196_disjoint_partial`, `Pilot.C196_given_partial`, `Pilot.C196_partial`, `Pilot.C196_refuted`, `Prelim.C197_bound_partial`, `Prelim.C197_fit_partial`, `Prelim.C197_linear_partial`, `Prelim.C197_refuted`, `EndToEnd.C197_run_partial`, `Prelim.C197_two_partial`, `Prelim.C197_zero_partial`, `EndToEnd.C198_run`, `Preprocessing.C198_stage`, `Preprocessing.C199_partial`, `EndToEnd.C199_run_partial`, `Isolation.C19_always`, `Isolation.C19_faithful_copy`, `Isolation.C19_isolation`, `EndToEnd.C200_recomputed`, `EndToEnd.C201_partial`, `EndToEnd.C201_refuted`, `EndToEnd.C202_rescored`, `EndToEnd.C203_analytic_partial`, `EndToEnd.C203_numerical_partial`, `EndToEnd.C203_refuted`, `EndToEnd.C204_read_from_the_best`, `EndToEnd.C205_correlated`, `EndToEnd.C206_partial`, `EndToEnd.C206_refuted`, `EndToEnd.C206_row_refuted`, `EndToEnd.C207_partial`, `EndToEnd.C207_refuted`, `EndToEnd.C207_rows_partial`, `EndToEnd.C208_models_partial`, `EndToEnd.C208_partial`, `EndToEnd.C208_refuted`, `EndToEnd.C209_labels_partial`, `EndToEnd.C209_labels_refuted`, `EndToEnd.C209_matrix_partial`, `EndToEnd.C209_matrix_refuted`, `EndToEnd.C209_partial`, `Runner.C20_partial`, `EndToEnd.C210_partial`, `EndToEnd.C210_refuted`, `EndToEnd.C211_unit`, `EndToEnd.C211_zero`, `Pilot.C212_gap_partial`, `Pilot.C212_gap_runs_partial`, `Pilot.C212_linear_partial`, `Pilot.C212_modes_partial`, `Pilot.C212_never_partial`, `Pilot.C212_refuted`, `Pilot.C212_same_error_partial`, `EndToEnd.C213_build_partial`, `EndToEnd.C213_build_refuted`, `Sifted.C213_exact_partial`, `Sifted.C213_favourites_partial`, `Sifted.C213_refuted`, `Sifted.C213_uncorrelated_refuted`, `EndToEnd.C214_place`, `EndToEnd.C214_predictions`, `EndToEnd.C214_rows`, `EndToEnd.C215_analytic_partial`, `EndToEnd.C215_error_partial`, `EndToEnd.C215_error_refuted`, `EndToEnd.C215_fitted_partial`, `EndToEnd.C215_plain_partial`, `EndToEnd.C215_refuted`, `EndToEnd.C215_wiped_partial`, `EndToEnd.C216_analytic_refuted`, `EndToEnd.C216_normalised_refuted`, `EndToEnd.C216_outcome_partial`, `EndToEnd.C216_threshold_partial`, `EndToEnd.C216_winner_partial`, `EndToEnd.C217_best_refuted`, `EndToEnd.C217_candidates_partial`, `EndToEnd.C217_correlations`, `EndToEnd.C217_footprints_partial`, `EndToEnd.C217_models_partial`, `EndToEnd.C217_models_refuted`, `EndToEnd.C217_performances`, `EndToEnd.C218_cells`, `EndToEnd.C218_few`, `EndToEnd.C218_finite`, `EndToEnd.C218_raw`, `EndToEnd.C218_same`, `EndToEnd.C219_analytic_partial`, `EndToEnd.C219_numerical_partial`, `EndToEnd.C219_refuted`, `Runner.C21_kwargs_local`, `EndToEnd.C220_clustered_partial`, `EndToEnd.C220_partial`, `EndToEnd.C220_refuted`, `Trace.C221_axes_partial`, `Trace.C221_refuted`, `EndToEnd.C222_algorithms_partial`, `EndToEnd.C222_good_partial`, `EndToEnd.C222_good_refuted`, `EndToEnd.C222_missing_refuted`, `EndToEnd.C222_selector_partial`, `EndToEnd.C222_selector_refuted`, `EndToEnd.C223_boundary`, `EndToEnd.C223_instances`, `EndToEnd.C224_partial`, `EndToEnd.C224_refuted`, `Runner.C225_influence`, `EndToEnd.C225_late`, `EndToEnd.C225_pythia`, `EndToEnd.C225_sifted`, `EndToEnd.C226_best_partial`, `EndToEnd.C226_good`, `EndToEnd.C226_hard`, `EndToEnd.C226_refuted`, `EndToEnd.C227_file_partial`, `EndToEnd.C227_fraction_partial`, `EndToEnd.C227_refuted`, `EndToEnd.C228_few_partial`, `EndToEnd.C228_kept_partial`, `EndToEnd.C228_refuted`, `EndToEnd.C229_best_partial`, `EndToEnd.C229_refuted`, `EndToEnd.C229_verdicts_partial`, `InstanceSpace.C22_available_partial`, `InstanceSpace.C22_partial`, `EndToEnd.C230_partial`, `EndToEnd.C230_refuted`, `EndToEnd.C231_build_partial`, `Prelim.C231_erased_partial`, `Prelim.C231_finite_partial`, `Prelim.C231_finite_performances_partial`, `Prelim.C231_lost_partial`, `Prelim.C231_performances_partial`, `Prelim.C231_refuted`, `EndToEnd.C232_looser`, `EndToEnd.C233_absolute_partial`, `EndToEnd.C233_refuted`, `EndToEnd.C233_relative_partial`, `EndToEnd.C234_build_partial`, `EndToEnd.C234_build_refuted`, `Sifted.C234_partial`, `Sifted.C234_refuted`, `EndToEnd.C235_clusters`, `InstanceSpace.C23_deterministic_partial`, `InstanceSpace.C23_partial`, `InstanceSpace.C24_never_refuted`, `InstanceSpace.C24_partial`, `Pipeline.C25_model_keys`, `Pipeline.C26_exact_partial`, `Pipeline.C26_other_values_partial`, `Pipeline.C26_partial`, `Preprocessing.C27_keep_all_partial`, `Preprocessing.C27_labels_partial`, `Preprocessing.C27_partial`, `Preprocessing.C27_run_partial`, `Preprocessing.C28_rows_aligned`, `Preprocessing.C29_columns`, `Preprocessing.C30_partial`, `Filter.C31_apGood`, `Filter.C31_call`, `Filter.C31_removed_covered`, `Filter.C32_ftr_apart`, `Filter.C32_kept_apart`, `Filter.C33_flags`, `Filter.C34_idempotent`, `Prelim.C35_absolute`, `Prelim.C36_negative_partial`, `Prelim.C36_partial`, `Prelim.C36_refuted`, `Prelim.C37_partial`, `Prelim.C37_refuted`, `Prelim.C38_partial`, `Prelim.C38_refuted`, `Prelim.C39_counts`, `Prelim.C39_rows`, `Prelim.C40_monotone`, `Prelim.C41_bounds`, `Prelim.C41_clamp`, `Prelim.C41_stage`, `Prelim.C42_partial`, `Prelim.C42_refuted`, `Prelim.C42_x_wiped_partial`, `Prelim.C42_y_wiped_partial`, `Prelim.C43_one_selection`, `Prelim.C44_dense`, `Prelim.C44_density`, `Prelim.C44_fraction`, `Prelim.C45_exact_partial`, `Prelim.C45_partial`, `Prelim.C45_refuted`, `Prelim.C46_partial`, `Prelim.C46_refuted`, `Metadata.C47_columns`, `Metadata.C47_disjoint`, `Metadata.C48_exact_partial`, `Metadata.C48_partial`, `Metadata.C48_refuted`, `Options.C49_from_dict`, `Options.C50_documented`, `Options.C51_order_and_case`, `Options.C52_roundtrip`, `Options.C53_partial`, `Options.C53_refuted`, `Cloister.C54_distinct`, `Cloister.C54_every_corner`, `Cloister.C54_rows`, `Cloister.C55_discarded`, `Cloister.C55_kept`, `Cloister.C56_encloses`, `Cloister.C57_fallback`, `Dbscan.C58_clustered`, `Dbscan.C58_no_gaps`, `Dbscan.C58_real`, `Dbscan.C58_same_label`, `Trace.C59_build`, `Trace.C59_from_polygon`, `Trace.C61_exact_partial`, `Trace.C61_first_missing_partial`, `Trace.C61_refuted`, `Trace.C61_sim_partial`, `Trace.C61_sim_refuted`, `Trace.C62_exact_partial`, `Trace.C62_refuted`, `Trace.C63_partial`, `Trace.C63_present`, `Trace.C63_refuted`, `Pythia.C64_fallback`, `Pythia.C64_recommended`, `Pythia.C65_partial`, `Pythia.C65_refuted`, `Pythia.C66_partial`, `Pythia.C66_refuted`, `Pythia.C67_measures_partial`, `Pythia.C67_partial`, `Pythia.C67_refuted`, `Pythia.C68_partial`, `Pythia.C68_refuted`, `Sifted.C69_aligned`, `Sifted.C70_exact_partial`, `Sifted.C70_negative_refuted`, `Sifted.C70_refuted`, `Sifted.C70_significant_partial`, `Sifted.C70_top_partial`, `Sifted.C71_cost_partial`, `Sifted.C71_features_partial`, `Sifted.C71_worst_refuted`, `Sifted.C72_exact_partial`, `Sifted.C73_one_per_cluster`, `Sifted.C73_succeeds`, `Pilot.C74_no_tries_partial`, `Pilot.C74_partial`, `Pilot.C74_refuted`, `Pilot.C75_partial`, `Pilot.C75_refuted`, `Pilot.C76_analytic`, `Pilot.C76_numerical`, `Pilot.C77_partial`, `Pilot.C77_refuted`, `Pilot.C78_directions`, `Pilot.C78_least_squares`, `Pilot.C78_succeeds`, `Pilot.C79_explained_partial`, `Pilot.C79_partial`, `Pilot.C79_refuted`, `Export.C81_columns_partial`, `Export.C81_constant_partial`, `Export.C81_global_partial`, `Export.C81_missing_partial`, `Export.C81_refuted`, `Export.C82_boundary_partial`, `Export.C82_exact_partial`, `Export.C82_partial`, `Export.C82_sifted_partial`, `Export.C82_subset_partial`, `Export.C83_partial`, `Export.C83_refuted`, `Runner.C84_partial`, `Runner.C85_no_internal_error`, `Prelim.C86_partial`, `Prelim.C86_refuted`, `Prelim.C87_partial`, `Prelim.C87_refuted`, `Prelim.C87_wiped_partial`, `Prelim.C88_measure_partial`, `Prelim.C88_partial`, `Prelim.C88_refuted`, `Prelim.C89_x`, `Prelim.C89_y`, `Metadata.C90_absent`, `Metadata.C90_exact_partial`, `Metadata.C90_refuted`, `Metadata.C91_partial`, `Metadata.C91_refuted`, `Cloister.C92_inside`, `Cloister.C93_partial`, `Cloister.C93_refuted`, `Trace.C94_completes`, `Trace.C95_pure_triangles`, `Pythia.C97_partial`, `Pythia.C97_refuted`, `Pythia.C98_confusion`, `Pythia.C98_outputs`, `Pythia.C99_partial`, `Pythia.C99_refuted`

**propext, Quot.sound**: `Builder.C05_refuted`, `Builder.C07_output_required`, `Builder.C09_call`, `Builder.C09_histories`, `Pythia.C102_partial`, `Pythia.C102_refuted`, `Export.C110_again_partial`, `Options.C125_groups`, `Export.C129_partial`, `Export.C129_refuted`, `Pipeline.C131_refuted`, `Pilot.C135_space`, `Runner.C16_history`, `Runner.C16_run_iter`, `Export.C188_rows_partial`, `Pipeline.C25_needed`, `Preprocessing.C27_refuted`, `Options.C49_group`, `Options.C50_from_dict`, `Options.C50_values`, `Options.C52_documented`, `Options.C52_empty`, `Cloister.C57_diagonal`, `Cloister.C57_significant`, `Trace.C59_missing`, `Trace.C60_order`, `Trace.C60_raises`, `Sifted.C71_refuted`, `Sifted.C71_worst_partial`, `Sifted.C72_refuted`, `Export.C80_exteriors_partial`, `Export.C83_contents_partial`, `Runner.C84_refuted`, `Trace.C96_missing`
