import Verif.Export.Props
/-!
# Properties C110-C115: contents of the files, the model after saving, web export and plots
-/
set_option autoImplicit false
set_option linter.unusedSectionVars false

namespace Verif.Export

open Verif (Num)

/-! ### C110 -/

/-- **C110** is false: the export renames columns of the model's own summaries. -/
theorem C110_refuted : ∃ e : Export Int, Fits e ∧
    (saveCsv (0, 0) true e).after.pilotSummary ≠ e.pilotSummary ∧
    (saveCsv (0, 0) true e).after.pythiaSummary ≠ e.pythiaSummary :=
  ⟨exExport, exExport_fits, by decide +kernel, by decide +kernel⟩

/-- **C110, true part.**  Nothing else of the model changes: putting the two summaries back gives the
model as it was, and the two summaries keep their cells. -/
theorem C110_partial {α : Type} (junk : α × α) (dir : Bool) (e : Export α) :
    { (saveCsv junk dir e).after with pilotSummary := e.pilotSummary,
                                      pythiaSummary := e.pythiaSummary } = e ∧
    (saveCsv junk dir e).after.pilotSummary.map (·.2) = e.pilotSummary.map (·.2) ∧
    (saveCsv junk dir e).after.pythiaSummary.map (·.2) = e.pythiaSummary.map (·.2) := by
  unfold saveCsv
  split
  · simp only
    split
    · refine ⟨rfl, ?_, ?_⟩ <;> simp [rename, Function.comp_def]
    · exact ⟨rfl, rfl, rfl⟩
  · exact ⟨rfl, rfl, rfl⟩

/-- **C110, saving again.**  A second export writes the same files with the same result. -/
theorem C110_again_partial {α : Type} (junk : α × α) (e : Export α) :
    (saveCsv junk true (saveCsv junk true e).after).files = (saveCsv junk true e).files ∧
    (saveCsv junk true (saveCsv junk true e).after).error = (saveCsv junk true e).error := by
  by_cases h : (perform (csvActions junk e)).2 = none
  · have ha : (saveCsv junk true e).after =
        { e with pilotSummary := rename "0" "Row" e.pilotSummary,
                 pythiaSummary := rename "Algorithms" "Row" e.pythiaSummary } := if_pos h
    have : csvActions junk (saveCsv junk true e).after = csvActions junk e := by
      rw [ha]
      unfold csvActions
      simp only [rename_rename (show "Row" ≠ "0" by decide),
        rename_rename (show "Row" ≠ "Algorithms" by decide)]
      rfl
    constructor
    · change (perform (csvActions junk (saveCsv junk true e).after)).1 = _
      rw [this]
      rfl
    · change (perform (csvActions junk (saveCsv junk true e).after)).2 = _
      rw [this]
      rfl
  · have ha : (saveCsv junk true e).after = e := if_neg h
    rw [ha]
    exact ⟨rfl, rfl⟩

example : (saveCsv (0, 0) true exExport).after.pilotSummary.map (·.1) = ["Row", "f1", "f2"] := by
  decide +kernel

/-! ### C111 -/

/-- **C111.**  After a successful export every file holds its matrix: cell by cell, under the labels
of the instances and of the features or algorithms. -/
theorem C111_matrices {α : Type} (junk : α × α) (e : Export α) (h : Fits e) :
    let files := (saveCsv junk true e).files
    Holds files "coordinates.csv" ["z_1", "z_2"] e.instLabels (fun i j => e.z[i]?.bind fun r => r[j]?) ∧
    Holds files "feature_process.csv" e.featLabels e.instLabels
      (fun i j => e.x[i]?.bind fun r => r[j]?) ∧
    Holds files "algorithm_raw.csv" e.algoLabels e.instLabels
      (fun i j => e.yRaw[i]?.bind fun r => r[j]?) ∧
    Holds files "algorithm_process.csv" e.algoLabels e.instLabels
      (fun i j => e.y[i]?.bind fun r => r[j]?) ∧
    Holds files "algorithm_bin.csv" e.algoLabels e.instLabels
      (fun i j => e.yBin[i]?.bind fun r => r[j]?) ∧
    Holds files "algorithm_svm.csv" e.algoLabels e.instLabels
      (fun i j => e.yHat[i]?.bind fun r => r[j]?) := by
  refine ⟨holds_of h.z ?_, holds_of h.x ?_, holds_of h.yRaw ?_, holds_of h.y ?_, holds_of h.yBin ?_,
    holds_of h.yHat ?_⟩ <;> exact onDisk_other junk e h (by simp [otherFiles])

/-- **C111, the raw features.**  Column `j` of the file is column `idx[j]` of the raw features, under
the label of feature `j`. -/
theorem C111_raw_features {α : Type} (junk : α × α) (e : Export α) (h : Fits e) :
    Holds (saveCsv junk true e).files "feature_raw.csv" e.featLabels e.instLabels
      (fun i j => e.xRaw[i]?.bind fun r => e.idx[j]?.bind fun k => r[k]?) := by
  have hrow : ∀ (r : List α) (idx : List Nat), (∀ i ∈ idx, i < r.length) → ∀ j : Nat,
      (idx.filterMap fun i => r[i]?)[j]? = idx[j]?.bind fun k => r[k]? := by
    intro r idx
    induction idx with
    | nil => intro _ j; simp
    | cons i idx ih =>
      intro hi j
      have h0 := hi i (by simp)
      rw [List.filterMap_cons_some (List.getElem?_eq_getElem h0)]
      cases j with
      | zero => simp [List.getElem?_eq_getElem h0]
      | succ j => simpa using ih (fun k hk => hi k (by simp [hk])) j
  have hs : HasShape (e.xRaw.map fun r => e.idx.filterMap fun i => r[i]?) e.instLabels.length
      e.featLabels.length := by
    refine ⟨by simp [h.xRaw], ?_⟩
    intro r hr
    obtain ⟨s, hs, rfl⟩ := List.mem_map.1 hr
    have h3 := takeRow_ok s e.idx (h.idx s hs).1
    rw [(takeRow_range _ _ _ h3).2, (h.idx s hs).2]
  have hd := onDisk_other junk e h (n := "feature_raw.csv") (f := .array ⟨e.featLabels,
      e.instLabels.zip (e.xRaw.map fun r => e.idx.filterMap fun i => r[i]?)⟩) (by simp [otherFiles])
  obtain ⟨t, h1, h2, h3, h4⟩ := holds_of hs hd
  refine ⟨t, h1, h2, h3, fun i j hi hj => ?_⟩
  obtain ⟨v, h5, h6⟩ := h4 i j hi hj
  refine ⟨v, h5, ?_⟩
  have hi' : i < e.xRaw.length := by rw [h.xRaw]; exact hi
  simp only [List.getElem?_map, List.getElem?_eq_getElem hi', Option.map_some, Option.bind_some] at h6 ⊢
  rw [← hrow _ _ (h.idx _ (List.getElem_mem hi')).1]
  exact h6

/-- **C111, the columns.**  The one-dimensional values are written as one column each. -/
theorem C111_columns {α : Type} (junk : α × α) (e : Export α) (h : Fits e) :
    let files := (saveCsv junk true e).files
    Holds files "good_algos.csv" ["NumGoodAlgos"] e.instLabels (fun i _ => e.numGood[i]?) ∧
    Holds files "beta_easy.csv" ["IsBetaEasy"] e.instLabels (fun i _ => e.beta[i]?) ∧
    Holds files "portfolio.csv" ["Best_Algorithm"] e.instLabels (fun i _ => e.p[i]?) ∧
    Holds files "portfolio_svm.csv" ["Best_Algorithm"] e.instLabels (fun i _ => e.selection0[i]?) := by
  have key : ∀ (n c : String) (l : List α), l.length = e.instLabels.length →
      (n, File.array ⟨[c], e.instLabels.zip (l.map fun v => [v])⟩) ∈ otherFiles e →
      Holds (saveCsv junk true e).files n [c] e.instLabels (fun i _ => l[i]?) := by
    intro n c l hl hm
    obtain ⟨t, h1, h2, h3, h4⟩ := holds_of (asColumn_shape.2 hl) (onDisk_other junk e h hm)
    refine ⟨t, h1, h2, h3, fun i j hi hj => ?_⟩
    obtain ⟨v, h5, h6⟩ := h4 i j hi hj
    refine ⟨v, h5, ?_⟩
    have hi' : i < l.length := by rw [hl]; exact hi
    have hj' : j = 0 := by simpa using hj
    subst hj'
    simpa [asColumn, List.getElem?_eq_getElem hi'] using h6
  exact ⟨key _ _ _ h.numGood (by simp [otherFiles]), key _ _ _ h.beta (by simp [otherFiles]),
    key _ _ _ h.p (by simp [otherFiles]), key _ _ _ h.selection0 (by simp [otherFiles])⟩

/-- **C111, footprints.**  With distinct names of the algorithms, an algorithm has a file of each kind
exactly when the footprint has a polygon, and the file lists the boundary of that polygon. -/
theorem C111_footprints {α : Type} (junk : α × α) (e : Export α) (h : Fits e) (hn : e.algoLabels.Nodup)
    (i : Nat) (hi : i < e.nalgos) (l : String) (hl : e.algoLabels[i]? = some l)
    (fps : List (Option (Geometry α))) (kind : String)
    (hk : (fps = e.best ∧ kind = "best") ∨ (fps = e.good ∧ kind = "good")) :
    (∀ g, fps[i]? = some (some g) → onDisk (saveCsv junk true e).files (footprintName l kind) =
      some (.array ⟨["z_1", "z_2"], (bindLabels (boundaries junk g).length).zip
        ((boundaries junk g).map fun q => [q.1, q.2])⟩)) ∧
    (fps[i]? = some none → onDisk (saveCsv junk true e).files (footprintName l kind) = none) := by
  rw [saveCsv_files junk e h]
  constructor
  · intro g hg
    refine onDisk_of_nodup (files_nodup junk e hn) ?_
    refine List.mem_append_left _ (List.mem_flatMap.2 ⟨i, List.mem_range.2 hi, ?_⟩)
    rcases hk with ⟨rfl, rfl⟩ | ⟨rfl, rfl⟩
    · refine List.mem_append_left _ ?_
      simp only [footFile, hg, hl, List.mem_singleton]
    · refine List.mem_append_right _ ?_
      simp only [footFile, hg, hl, List.mem_singleton]
  · intro hg
    refine onDisk_none _ _ ?_
    rw [List.map_append, List.mem_append, otherFiles_names]
    have hkind : kind = "best" ∨ kind = "good" := by
      rcases hk with ⟨-, h⟩ | ⟨-, h⟩
      · exact .inl h
      · exact .inr h
    rintro (hm | hm)
    · obtain ⟨j, -, l', hl', hj⟩ := footFiles_names hm
      have key : l = l' → i = j := by
        rintro rfl
        exact (List.getElem?_inj (List.getElem?_eq_some_iff.1 hl).1 hn).1 (by rw [hl, hl'])
      rcases hk with ⟨rfl, rfl⟩ | ⟨rfl, rfl⟩
      · rcases hj with ⟨hj, g, hg'⟩ | ⟨hj, -⟩
        · rw [← key (footprint_name_inj hj), hg] at hg'
          cases hg'
        · exact footprint_name_kind _ _ hj
      · rcases hj with ⟨hj, -⟩ | ⟨hj, g, hg'⟩
        · exact footprint_name_kind _ _ hj.symm
        · rw [← key (footprint_name_inj hj), hg] at hg'
          cases hg'
    · exact footprint_name_fixed l kind hkind hm

/-- The labels that the export makes are the numbered names. -/
theorem bindLabels_names (n : Nat) : PointNames (bindLabels n) ∧ (bindLabels n).length = n := by
  constructor
  · intro i hi
    have : i < n := by simpa [bindLabels] using hi
    simp [bindLabels, this, toString]
  · simp [bindLabels]

/-- **C111, the bounds.**  The two bounds of CLOISTER are written point by point, the points named
`bnd_pnt_1`, `bnd_pnt_2`, ... in order; the points of a footprint are named in the same way. -/
theorem C111_points {α : Type} (junk : α × α) (e : Export α) (h : Fits e) :
    (∃ rows, PointNames rows ∧ rows.length = e.zEdge.length ∧
      Holds (saveCsv junk true e).files "bounds.csv" ["z_1", "z_2"] rows
        (fun i j => e.zEdge[i]?.bind fun r => r[j]?)) ∧
    (∃ rows, PointNames rows ∧ rows.length = e.zEcorr.length ∧
      Holds (saveCsv junk true e).files "bounds_prunned.csv" ["z_1", "z_2"] rows
        (fun i j => e.zEcorr[i]?.bind fun r => r[j]?)) ∧
    (e.algoLabels.Nodup → ∀ (i : Nat), i < e.nalgos → ∀ l, e.algoLabels[i]? = some l →
      ∀ (fps : List (Option (Geometry α))) (kind : String),
      ((fps = e.best ∧ kind = "best") ∨ (fps = e.good ∧ kind = "good")) →
      ∀ g, fps[i]? = some (some g) → ∃ t : Table α,
        onDisk (saveCsv junk true e).files (footprintName l kind) = some (.array t) ∧
        PointNames (t.rows.map (·.1))) := by
  have key : ∀ (n : String) (m : List (List α)), HasShape m m.length 2 →
      (n, File.array ⟨["z_1", "z_2"], (bindLabels m.length).zip m⟩) ∈ otherFiles e →
      ∃ rows, PointNames rows ∧ rows.length = m.length ∧
        Holds (saveCsv junk true e).files n ["z_1", "z_2"] rows
          (fun i j => m[i]?.bind fun r => r[j]?) := by
    intro n m hm hf
    refine ⟨bindLabels m.length, (bindLabels_names _).1, (bindLabels_names _).2, ?_⟩
    exact holds_of (by rw [(bindLabels_names _).2]; exact hm) (onDisk_other junk e h hf)
  refine ⟨key _ _ h.zEdge.2 (by simp [otherFiles]), key _ _ h.zEcorr.2 (by simp [otherFiles]), ?_⟩
  intro hn i hi l hl fps kind hk g hg
  refine ⟨_, (C111_footprints junk e h hn i hi l hl fps kind hk).1 g hg, ?_⟩
  rw [List.map_fst_zip (by simp [(bindLabels_names _).2])]
  exact (bindLabels_names _).1

example : Fits exExport ∧ exExport.algoLabels.Nodup := ⟨exExport_fits, by decide⟩
example : PointNames ["bnd_pnt_1", "bnd_pnt_2"] := by
  intro i hi
  match i with
  | 0 => rfl
  | 1 => rfl
  | n + 2 => simp at hi

example : footprintName "a_1" "best" = "footprint_a_1_best.csv" := by decide +kernel
example : onDisk (saveCsv (0, 0) true exExport).files "footprint_a_1_best.csv" =
    some (.array ⟨["z_1", "z_2"], [("bnd_pnt_1", [0, 0]), ("bnd_pnt_2", [4, 0]), ("bnd_pnt_3", [4, 4]),
      ("bnd_pnt_4", [0, 4])]⟩) := by decide +kernel
example : onDisk (saveCsv (0, 0) true exExport).files "footprint_a_2_best.csv" = none := by decide +kernel
example : exExport.algoLabels.Nodup := by decide
example : onDisk (saveCsv (0, 0) true exExport).files "feature_raw.csv" =
    some (.array ⟨["f1", "f2"], [("i1", [5, 6]), ("i2", [7, 8])]⟩) := by decide +kernel

/-- **C111, the summaries.**  The table of the footprints has columns 0, 2, 4, 5, 7, 9 and 10 of the
summary with the first column named `Row`; the projection matrix and the table of the classifiers are
the summaries with the first column named `Row`, cells unchanged. -/
theorem C111_summaries {α : Type} (junk : α × α) (e : Export α) (h : Fits e) :
    ∃ tr pi py : Frame α,
      onDisk (saveCsv junk true e).files "footprint_performance.csv" = some (.frame tr) ∧
      onDisk (saveCsv junk true e).files "projection_matrix.csv" = some (.frame pi) ∧
      onDisk (saveCsv junk true e).files "svm_table.csv" = some (.frame py) ∧
      tr.map (·.2) = [0, 2, 4, 5, 7, 9, 10].filterMap (fun i => (e.traceSummary[i]?).map (·.2)) ∧
      pi.map (·.2) = e.pilotSummary.map (·.2) ∧ py.map (·.2) = e.pythiaSummary.map (·.2) ∧
      tr.map (·.1) = ([0, 2, 4, 5, 7, 9, 10].filterMap (fun i => (e.traceSummary[i]?).map (·.1))).map
        (fun s => if s = "Algorithm" then "Row" else s) ∧
      pi.map (·.1) = e.pilotSummary.map (fun c => if c.1 = "0" then "Row" else c.1) ∧
      py.map (·.1) = e.pythiaSummary.map (fun c => if c.1 = "Algorithms" then "Row" else c.1) := by
  refine ⟨_, _, _, onDisk_other junk e h (List.mem_append_right (as := (otherFiles e).take 13)
      (bs := (otherFiles e).drop 13) (List.mem_cons_self ..)),
    onDisk_other junk e h (List.mem_append_right (as := (otherFiles e).take 14)
      (bs := (otherFiles e).drop 14) (List.mem_cons_self ..)),
    onDisk_other junk e h (List.mem_append_right (as := (otherFiles e).take 15)
      (bs := (otherFiles e).drop 15) (List.mem_cons_self ..)), ?_, ?_, ?_, ?_, ?_, ?_⟩
  · simp only [rename, Function.comp_def, traceColumns, List.map_filterMap, Option.map_map]
  · simp only [rename, List.map_map, Function.comp_def]
  · simp only [rename, List.map_map, Function.comp_def]
  · simp only [rename, List.map_map, Function.comp_def, traceColumns, List.map_filterMap, Option.map_map]
  · simp only [rename, List.map_map, Function.comp_def]
  · simp only [rename, List.map_map, Function.comp_def]

/-! ### C112 -/

/-- A model of numbers for the web export. -/
def exWeb : Export Num where
  instLabels := ["i1", "i2"]
  featLabels := ["f1", "f2"]
  algoLabels := ["a", "b"]
  nalgos := 2
  x := [[.fin 1, .fin 2], [.fin 3, .fin 4]]
  xRaw := [[.fin 5, .fin 6], [.fin 7, .fin 8]]
  y := [[.fin 11, .fin 12], [.fin 13, .fin 14]]
  yRaw := [[.fin 15, .fin 16], [.fin 17, .fin 18]]
  yBin := []
  numGood := [.fin 1, .fin 2]
  beta := []
  p := []
  z := []
  zEdge := []
  zEcorr := []
  idx := [0, 1]
  yHat := []
  selection0 := []
  best := []
  good := []
  traceSummary := []
  pilotSummary := []
  pythiaSummary := []

/-- **C112** is false: when a feature was dropped, only the colour table is written. -/
theorem C112_refuted : (saveWeb [] true { exWeb with featLabels := ["f1"], x := [[.fin 1], [.fin 3]] }).2 =
    some .valueError ∧
    (saveWeb [] true { exWeb with featLabels := ["f1"], x := [[.fin 1], [.fin 3]] }).1.map (·.1) =
      ["color_table.csv"] := by decide +kernel

/-- **C112, exactly when.**  The web export succeeds if and only if the arrays fit their names. -/
theorem C112_exact_partial (table : Frame Num) (e : Export Num) :
    (saveWeb table true e).2 = none ↔ FitsWeb e := by
  rw [← webActions_ok table e, ← perform_error]
  rfl

example : FitsWeb exWeb := (C112_exact_partial [] _).1 (by decide +kernel)

/-- **C112, no directory.**  Without a directory nothing is written and the error is a
`ValueError`. -/
theorem C112_directory_partial (table : Frame Num) (e : Export Num) :
    (saveWeb table false e).1 = [] ∧ (saveWeb table false e).2 = some .valueError := ⟨rfl, rfl⟩

/-- **C112, models of SIFTED.**  Whenever SIFTED returns fewer features than it was given, only the
colour table is written. -/
theorem C112_sifted_partial {β : Type} {lib : Sifted.Lib} {rho : List (List Num)} {thr : Num}
    {k nalgos : Nat} {x : List β} {labels : List String} {dense : Bool} {out : Sifted.Out β}
    (h : Sifted.sifted lib rho thr k nalgos x labels dense = .ok out)
    (hd : out.featLabels.length < x.length) (table : Frame Num) (e : Export Num)
    (hi : e.idx = out.idx) (hl : e.featLabels = out.featLabels) (hx : e.xRaw ≠ []) :
    (saveWeb table true e).2 ≠ none ∧ (saveWeb table true e).1 = [("color_table.csv", .frame table)] := by
  have hraw : ¬ ∃ w, rawFeatures "feature_raw_color.csv" colourScale e = .ok w := by
    rw [rawFeatures_ok colourScale_shape]
    rintro ⟨-, hf⟩
    obtain ⟨r, t, hr⟩ := List.exists_cons_of_ne_nil hx
    have := (hf r (by rw [hr]; simp)).2
    rw [hi, hl, Sifted.C105_partial h, List.length_range] at this
    omega
  cases hr : rawFeatures "feature_raw_color.csv" colourScale e with
  | ok w => exact absurd ⟨w, hr⟩ hraw
  | error er =>
    have : saveWeb table true e = ([("color_table.csv", .frame table)], some er) := by
      simp only [saveWeb, if_true, webActions, hr, perform]
    rw [this]
    exact ⟨by simp, rfl⟩

/-- **C112, the files.**  If everything fits, the files are these, in this order. -/
theorem C112_partial (table : Frame Num) (e : Export Num) (h : FitsWeb e) :
    (saveWeb table true e).1 =
      [ ("color_table.csv", .frame table),
        ("feature_raw_color.csv", .array ⟨e.featLabels, e.instLabels.zip
          (colourScale (e.xRaw.map fun r => e.idx.filterMap fun i => r[i]?))⟩),
        ("algorithm_raw_single_color.csv", .array ⟨e.algoLabels, e.instLabels.zip (colourScale e.yRaw)⟩),
        ("feature_process_color.csv", .array ⟨e.featLabels, e.instLabels.zip (colourScale e.x)⟩),
        ("algorithm_process_single_color.csv", .array ⟨e.algoLabels, e.instLabels.zip (colourScale e.y)⟩),
        ("algorithm_raw_color.csv", .array ⟨e.algoLabels, e.instLabels.zip (colourScaleG e.yRaw)⟩),
        ("algorithm_process_color.csv", .array ⟨e.algoLabels, e.instLabels.zip (colourScaleG e.y)⟩),
        ("good_algos_color.csv", .array ⟨["NumGoodAlgos"], e.instLabels.zip
          (colourScaleG (e.numGood.map fun v => [v]))⟩) ] := by
  have hraw : rawFeatures "feature_raw_color.csv" colourScale e = .ok ("feature_raw_color.csv",
      .array ⟨e.featLabels, e.instLabels.zip
        (colourScale (e.xRaw.map fun r => e.idx.filterMap fun i => r[i]?))⟩) := by
    obtain ⟨w, hw⟩ := (rawFeatures_ok (name := "feature_raw_color.csv") colourScale_shape).2 ⟨h.xRaw, h.idx⟩
    unfold rawFeatures at hw ⊢
    rw [takeColumns_ok _ _ (fun r hr => (h.idx r hr).1)] at hw ⊢
    exact writeArray_eq (writeArray_ok.1 ⟨w, hw⟩)
  change (perform (webActions table e)).1 = _
  unfold webActions
  rw [hraw, writeArray_eq ((colourScale_shape _ _ _).2 h.yRaw), writeArray_eq ((colourScale_shape _ _ _).2 h.x),
    writeArray_eq ((colourScale_shape _ _ _).2 h.y), writeArray_eq ((colourScaleG_shape _ _ _).2 h.yRaw),
    writeArray_eq ((colourScaleG_shape _ _ _).2 h.y),
    writeArray_eq ((colourScaleG_shape _ _ _).2 (asColumn_shape.2 h.numGood))]
  rfl

/-! ### C113 -/

/-- The property for a normalisation: finite columns that vary are mapped into [0, 1]. -/
def Normalises (f : List Num → Num → Num) : Prop :=
  ∀ col : List ℚ, Varies col → ∀ q ∈ col, ∃ r : ℚ, f (col.map Num.fin) (.fin q) = .fin r ∧ 0 ≤ r ∧ r ≤ 1

/-- **C113, features.**  The values of the feature plots are in [0, 1]. -/
theorem C113_features_partial : Normalises plotFeature := by
  intro col hv q hq
  obtain ⟨lo, hi, h1, h2, -, -, h3, h4⟩ := range_fin hv
  have hp : 0 < hi - lo := by linarith
  refine ⟨(q - lo) / (hi - lo), ?_, div_nonneg (by linarith [(h3 q hq).1]) hp.le,
    (div_le_one hp).2 (by linarith [(h3 q hq).2])⟩
  unfold plotFeature
  rw [h1, h2, Num.fin_sub, Num.fin_sub, Num.fin_div _ _ (by linarith)]

example : Varies [10, 20, 15] := ⟨10, by simp, 20, by simp, by norm_num⟩
example : ([10, 20, 15].map Num.fin).map (plotFeature ([10, 20, 15].map Num.fin)) =
    [.fin 0, .fin 1, .fin (1 / 2)] := by decide +kernel

/-- **C113, individual performance** is false: 10 and 20 are plotted as 9 and 19 (the minimum is
divided by the range, not the difference). -/
theorem C113_individual_refuted : ¬ Normalises plotIndividual := by
  intro h
  obtain ⟨r, h1, -, h2⟩ := h [10, 20] ⟨10, by simp, 20, by simp, by norm_num⟩ 10 (by simp)
  have h3 : plotIndividual ([10, 20].map Num.fin) (.fin 10) = .fin 9 := by decide +kernel
  rw [h3] at h1
  injection h1 with h1
  rw [← h1] at h2
  exact absurd h2 (by norm_num)

/-- **C113, global performance** is false for every logarithm: performances 0, 9 of one algorithm and
9, 99 of the other; 99 is plotted as 2. -/
theorem C113_global_refuted (lg : Num → Num) (h0 : lg (.fin 0) = .fin 0) (h1 : lg (.fin 9) = .fin 1)
    (h2 : lg (.fin 99) = .fin 2) :
    plotGlobal lg (finite [[0, 9], [9, 99]]) 1 (.fin 99) = .fin 2 := by
  have a : (finite [[0, 9], [9, 99]]).flatten.map lg = [.fin 0, .fin 1, .fin 1, .fin 2] := by
    simp [finite, h0, h1, h2]
  have b : (columnOf (finite [[0, 9], [9, 99]]) 1).map lg = [.fin 1, .fin 2] := by
    simp [columnOf, finite, h1, h2]
  unfold plotGlobal
  rw [a, b, h2]
  decide +kernel

/-- What is plotted instead of the normalised individual performance: the performance less the ratio of
the least performance of the algorithm and its range.  So the plot is a translation: differences of
performance are kept and nothing is scaled. -/
theorem C113_individual_partial (col : List ℚ) (hv : Varies col) : ∃ lo hi : ℚ, lo ∈ col ∧ hi ∈ col ∧
    (∀ b ∈ col, lo ≤ b ∧ b ≤ hi) ∧ lo < hi ∧
    ∀ q : ℚ, plotIndividual (col.map Num.fin) (.fin q) = .fin (q - lo / (hi - lo)) := by
  obtain ⟨lo, hi, h1, h2, m1, m2, h3, h4⟩ := range_fin hv
  refine ⟨lo, hi, m1, m2, h3, h4, fun q => ?_⟩
  unfold plotIndividual
  rw [h1, h2, Num.fin_sub, Num.fin_div _ _ (by linarith), Num.fin_sub]

example : Varies [10, 20, 15] := ⟨10, by simp, 20, by simp, by norm_num⟩
example : ([10, 20, 15].map Num.fin).map (plotIndividual ([10, 20, 15].map Num.fin)) =
    [.fin 9, .fin 19, .fin 14] := by decide +kernel

/-- What is plotted as the global performance.  The logarithms are moved by the least logarithm of all
algorithms and divided by the range of the algorithm's own.  So no value is negative, the values of
one algorithm keep their order and span exactly 1, and they are in [0, 1] if and only if the least
logarithm of all is one of the algorithm's own. -/
theorem C113_global_partial (lg : Num → Num) (lgq : ℚ → ℚ) (hlg : ∀ q, lg (.fin q) = .fin (lgq q))
    (m : List (List ℚ)) (j : Nat) (col : List ℚ) (hw : ∀ row ∈ m, j < row.length)
    (hcol : ∀ i : Nat, col[i]? = (m[i]?).bind (·[j]?)) (hv : Varies (col.map lgq)) :
    ∃ g lo hi : ℚ, (∃ row ∈ m, ∃ q ∈ row, g = lgq q) ∧ (∀ row ∈ m, ∀ q ∈ row, g ≤ lgq q) ∧
      (∃ q ∈ col, lo = lgq q) ∧ (∃ q ∈ col, hi = lgq q) ∧ (∀ q ∈ col, lo ≤ lgq q ∧ lgq q ≤ hi) ∧
      lo < hi ∧ g ≤ lo ∧
      (∀ q ∈ col, plotGlobal lg (finite m) j (.fin q) = .fin ((lgq q - g) / (hi - lo)) ∧
        0 ≤ (lgq q - g) / (hi - lo)) ∧
      ((∀ q ∈ col, (lgq q - g) / (hi - lo) ≤ 1) ↔ g = lo) := by
  obtain ⟨lo, hi, h1, h2, m1, m2, h3, h4⟩ := range_fin hv
  have hc : (columnOf (finite m) j).map lg = (col.map lgq).map Num.fin := by
    have e : columnOf (finite m) j = col.map Num.fin := by
      apply List.ext_getElem?
      intro i
      have := hcol i
      simp only [columnOf, finite, List.getElem?_map, Option.map_map]
      cases hr : m[i]? with
      | none => rw [hr] at this; simp [this]
      | some row =>
        rw [hr] at this
        have hj := hw row (List.mem_of_getElem? hr)
        simp only [Option.bind_some, List.getElem?_eq_getElem hj] at this
        rw [this]
        simp [hj]
    rw [e, List.map_map, List.map_map]
    exact List.map_congr_left fun q _ => hlg q
  have hin : ∀ q ∈ col, ∃ row ∈ m, q ∈ row := by
    intro q hq
    obtain ⟨i, hi, rfl⟩ := List.mem_iff_getElem.1 hq
    have := hcol i
    rw [List.getElem?_eq_getElem hi] at this
    obtain ⟨row, hr, hq⟩ := Option.bind_eq_some_iff.1 this.symm
    exact ⟨row, List.mem_of_getElem? hr, List.mem_of_getElem? hq⟩
  have hf : (finite m).flatten.map lg = (m.flatten.map lgq).map Num.fin := by
    have e : (finite m).flatten = m.flatten.map Num.fin := by
      unfold finite
      rw [List.map_flatten]
    rw [e, List.map_map, List.map_map]
    exact List.map_congr_left fun q _ => hlg q
  obtain ⟨ql, hql, el⟩ := List.mem_map.1 m1
  obtain ⟨qh, hqh, eh⟩ := List.mem_map.1 m2
  obtain ⟨g, hg1, hg2, hg3⟩ : ∃ g, npMin ((m.flatten.map lgq).map Num.fin) = .fin g ∧
      g ∈ m.flatten.map lgq ∧ ∀ b ∈ m.flatten.map lgq, g ≤ b := by
    obtain ⟨row, hr, hq⟩ := hin ql hql
    have hm : lgq ql ∈ m.flatten.map lgq := List.mem_map_of_mem (List.mem_flatten.2 ⟨row, hr, hq⟩)
    cases hl : m.flatten.map lgq with
    | nil => rw [hl] at hm; cases hm
    | cons a l => exact npMin_fin a l
  have hgle : ∀ row ∈ m, ∀ q ∈ row, g ≤ lgq q := fun row hr q hq =>
    hg3 _ (List.mem_map_of_mem (List.mem_flatten.2 ⟨row, hr, hq⟩))
  have hgcol : ∀ q ∈ col, g ≤ lgq q := fun q hq => by
    obtain ⟨row, hr, hq⟩ := hin q hq
    exact hgle row hr q hq
  have hp : 0 < hi - lo := by linarith
  refine ⟨g, lo, hi, ?_, hgle, ⟨ql, hql, el.symm⟩, ⟨qh, hqh, eh.symm⟩,
    fun q hq => h3 _ (List.mem_map_of_mem hq), h4, by rw [← el]; exact hgcol ql hql, ?_, ?_⟩
  · obtain ⟨q, hq, e⟩ := List.mem_map.1 hg2
    obtain ⟨row, hr, hq⟩ := List.mem_flatten.1 hq
    exact ⟨row, hr, q, hq, e.symm⟩
  · intro q hq
    refine ⟨?_, div_nonneg (by linarith [hgcol q hq]) hp.le⟩
    unfold plotGlobal
    rw [hc, hf, h1, h2, hg1, hlg, Num.fin_sub, Num.fin_sub, Num.fin_div _ _ (by linarith)]
  · constructor
    · intro h
      have := (div_le_one hp).1 (h qh hqh)
      have h5 := hgcol ql hql
      rw [eh] at this
      rw [el] at h5
      linarith
    · intro e q hq
      rw [div_le_one hp, e]
      linarith [(h3 _ (List.mem_map_of_mem hq)).2]

-- two algorithms on three instances; the second never attains the least value (the function in place
-- of the logarithm is the identity)
example : (∀ row ∈ [[0, 4], [1, 6], [(2 : ℚ), 5]], 1 < row.length) ∧
    (∀ i : Nat, [(4 : ℚ), 6, 5][i]? = ([[(0 : ℚ), 4], [1, 6], [2, 5]][i]?).bind (·[1]?)) ∧
    Varies ([4, 6, 5].map id) ∧
    [4, 6, 5].map (fun q => plotGlobal id (finite [[0, 4], [1, 6], [2, 5]]) 1 (.fin q)) =
      [.fin 2, .fin 3, .fin (5 / 2)] := by
  refine ⟨by decide +kernel, ?_, ⟨4, by simp, 6, by simp, by norm_num⟩, by decide +kernel⟩
  intro i
  rcases i with _ | _ | _ | i <;> rfl

/-! ### C114 -/

/-- The property for the best algorithms `p`, counted from 1: every instance is drawn under the name
of its best algorithm. -/
def PortfolioDrawn (labels : List String) (p : List Int) : Prop :=
  ∀ (t k : Nat) (l : String), p[t]? = some (k + 1 : Int) → labels[k]? = some l →
    DrawnAs (portfolioGroups labels p false) t (printed l)

/-- **C114** is false: the instances of the last algorithm are not drawn at all, whatever the data. -/
theorem C114_refuted (labels : List String) (p : List Int) (fp : Bool) (t : Nat)
    (h : p[t]? = some (labels.length : Int)) : ∀ s, ¬ DrawnAs (portfolioGroups labels p fp) t s := by
  intro s hd
  obtain ⟨i, hi, -, hp, -⟩ := (drawnAs_iff _ _ _ _ _).1 hd
  rw [List.getD, h] at hp
  have hp : (labels.length : Int) = i := hp
  omega

/-- The property itself fails in a small case. -/
theorem C114_property_refuted : ¬ PortfolioDrawn ["a", "b"] [1, 2] := by
  intro h
  exact C114_refuted ["a", "b"] [1, 2] false 1 rfl _ (h 1 1 "b" rfl rfl)

/-- **C114, true part.**  The instances of every other algorithm are drawn under its name and under
no other.  Missing: the last algorithm. -/
theorem C114_partial (labels : List String) (p : List Int) (fp : Bool) (t k : Nat) (l : String)
    (h : p[t]? = some (k + 1 : Int)) (hl : labels[k]? = some l) (hk : k + 1 < labels.length) (s : String) :
    DrawnAs (portfolioGroups labels p fp) t s ↔ s = printed l := by
  rw [drawnAs_iff]
  have hg : groupLabel labels (k + 1) = printed l := by
    unfold groupLabel printed
    rw [if_neg (by omega)]
    simp [List.getD, hl]
  have ht : t < p.length := (List.getElem?_eq_some_iff.1 h).1
  constructor
  · rintro ⟨i, -, -, hp, rfl⟩
    rw [List.getD, h] at hp
    have hp : (k : Int) + 1 = i := hp
    rw [show i = k + 1 by omega, hg]
  · rintro rfl
    exact ⟨k + 1, hk, ht, by rw [List.getD, h]; simp, hg⟩

example : portfolioGroups ["algo_a", "algo_b", "algo_c"] [1, 2, 3, 1] false =
    [⟨"algo a", [0, 3], none⟩, ⟨"algo b", [1], none⟩] := by decide +kernel

/-- **C114, the predictions** (counted from 0 by PYTHIA): instances for which the first algorithm is
selected are drawn as `None`, those of any other algorithm under the name of the algorithm before. -/
theorem C114_predicted_refuted (labels : List String) (p : List Int) (fp : Bool) (t k : Nat)
    (h : p[t]? = some (k : Int)) (hk : k < labels.length) (s : String) :
    DrawnAs (portfolioGroups labels p fp) t s ↔
      s = if k = 0 then "None" else printed (labels.getD (k - 1) "") := by
  rw [drawnAs_iff]
  have ht : t < p.length := (List.getElem?_eq_some_iff.1 h).1
  constructor
  · rintro ⟨i, -, -, hp, rfl⟩
    rw [List.getD, h] at hp
    have hp : (k : Int) = i := hp
    rw [show i = k by omega]
    rfl
  · rintro rfl
    exact ⟨k, hk, ht, by rw [List.getD, h]; simp, rfl⟩

example : portfolioGroups ["algo_a", "algo_b"] [0, 1, 1] false =
    [⟨"None", [0], none⟩, ⟨"algo a", [1, 2], none⟩] := by decide +kernel

/-! ### C115 -/

/-- The property for the best algorithms `p`, counted from 1: the footprint drawn with an instance is
that of its best algorithm (algorithm `k` has footprint `best[k]`). -/
def FootprintsPaired (labels : List String) (p : List Int) : Prop :=
  ∀ g ∈ portfolioGroups labels p true, ∀ t ∈ g.instances, ∀ k : Nat, p[t]? = some (k + 1 : Int) →
    g.footprint = some k

/-- **C115** is false: whenever an instance is drawn with a best algorithm, the footprint drawn with it
is that of the following algorithm. -/
theorem C115_refuted (labels : List String) (p : List Int) (g : Group)
    (hg : g ∈ portfolioGroups labels p true) (t : Nat) (ht : t ∈ g.instances) (k : Nat)
    (h : p[t]? = some (k + 1 : Int)) : g.footprint = some (k + 1) := by
  obtain ⟨i, hi, hg⟩ := List.mem_filterMap.1 hg
  split at hg
  · cases hg
  · injection hg with hg
    subst hg
    obtain ⟨h1, h2⟩ := List.mem_filter.1 ht
    have h2 := of_decide_eq_true h2
    rw [List.getD, h] at h2
    have h2 : (k : Int) + 1 = i := h2
    simp only [if_true, Option.some.injEq]
    omega

/-- The property itself fails in a small case. -/
theorem C115_property_refuted : ¬ FootprintsPaired ["a", "b"] [1, 1] := by
  intro h
  have := h ⟨"a", [0, 1], some 1⟩ (by decide +kernel) 0 (by simp) 0 rfl
  cases this

/-- **C115, true part.**  With predictions, which are counted from 0, the footprint drawn is that of the
selected algorithm (although the name is not, `C114_predicted_refuted`). -/
theorem C115_partial (labels : List String) (p : List Int) (g : Group)
    (hg : g ∈ portfolioGroups labels p true) (t : Nat) (ht : t ∈ g.instances) (k : Nat)
    (h : p[t]? = some (k : Int)) : g.footprint = some k := by
  obtain ⟨i, hi, hg⟩ := List.mem_filterMap.1 hg
  split at hg
  · cases hg
  · injection hg with hg
    subst hg
    obtain ⟨h1, h2⟩ := List.mem_filter.1 ht
    have h2 := of_decide_eq_true h2
    rw [List.getD, h] at h2
    have h2 : (k : Int) = i := h2
    simp only [if_true, Option.some.injEq]
    omega

example : portfolioGroups ["algo_a", "algo_b"] [0, 1, 1] true =
    [⟨"None", [0], some 0⟩, ⟨"algo a", [1, 2], some 1⟩] := by decide +kernel

end Verif.Export
