import Verif.EndToEnd.PropsSpace
/-!
# C190: the order of the rows of the metadata table and the exported files
-/
set_option autoImplicit false
set_option linter.unusedSectionVars false

namespace Verif.EndToEnd

open Verif (Num)
open Verif.Pipeline (Stg Name outputs defaultStages runner modelOf)
open Verif.Metadata (Table Squeezed fromDataFrame)
open Verif.Preprocessing (Mat pick)
open Verif.Runner (Dict)
open Verif.Export (Export saveCsv onDisk Geometry)

variable {V G α : Type} {lower : String → String} {numeric : Squeezed V → Bool} {str : V → V}
  {num : V → Num} {env : Env V (Kept G)} {le : Nat → Late V (Kept G)} {te : Nat → TraceEnv G}
  {t : Table V} {labels : List V} {σ : List Nat} {d d' : Dict Name (Val V (Kept G))}
  {tx : Text V α} {outline : G → Geometry α} {files files' : List (String × Export.File α)}

/-! ### Specification -/

/-- The files with one line for each instance that do not come from PYTHIA. -/
def instanceFiles : List String :=
  ["coordinates.csv", "feature_raw.csv", "feature_process.csv", "algorithm_raw.csv",
    "algorithm_process.csv", "algorithm_bin.csv", "good_algos.csv", "beta_easy.csv", "portfolio.csv"]

/-- The files of PYTHIA's results. -/
def pythiaFiles : List String := ["algorithm_svm.csv", "portfolio_svm.csv", "svm_table.csv"]

/-- The files about the projection and the boundaries. -/
def spaceFiles : List String := ["bounds.csv", "bounds_prunned.csv", "projection_matrix.csv"]

/-- The file has the same headings and the same lines in both exports, in the second one in the order `τ`:
its line `k` is the former line `τ[k]`. -/
def LinesInOrder (τ : List Nat) (n : Nat) (files files' : List (String × Export.File α)) (file : String) :
    Prop :=
  ∃ tb : Export.Table α, onDisk files file = some (.array tb) ∧ tb.rows.length = n ∧
    onDisk files' file = some (.array ⟨tb.columns, pick tb.rows τ⟩)

/-! ### Lemmas -/

theorem pick_zip {β γ : Type} (l : List β) (m : List γ) (h : l.length = m.length) (is : List Nat) :
    pick (l.zip m) is = (pick l is).zip (pick m is) := by
  induction is with
  | nil => rfl
  | cons i is ih =>
    simp only [pick, List.filterMap_cons] at ih ⊢
    by_cases hi : i < l.length
    · have hi' : i < m.length := h ▸ hi
      simp [hi, hi', ih]
    · have hi' : ¬ i < m.length := h ▸ hi
      simp only [List.getElem?_eq_none (Nat.le_of_not_lt hi), List.getElem?_eq_none (Nat.le_of_not_lt hi'),
        List.getElem?_eq_none (show (l.zip m).length ≤ i by simp; omega), ih]

theorem lines_of {τ : List Nat} {n : Nat} {junk junk' : α × α} {e e' : Export α} (hF : Export.Fits e)
    (hF' : Export.Fits e') {file : String} {columns columns' : List String} {m m' : List (List α)}
    (h : (file, .array ⟨columns, e.instLabels.zip m⟩) ∈ Export.otherFiles e)
    (h' : (file, .array ⟨columns', e'.instLabels.zip m'⟩) ∈ Export.otherFiles e')
    (hc : columns' = columns) (hi : e'.instLabels = pick e.instLabels τ) (hm : m' = pick m τ)
    (hl : e.instLabels.length = n) (hml : m.length = n) :
    LinesInOrder τ n (saveCsv junk true e).files (saveCsv junk' true e').files file :=
  ⟨_, Export.onDisk_other junk e hF h, by simp [hl, hml], by
    rw [Export.onDisk_other junk' e' hF' h', pick_zip _ _ (hl.trans hml.symm), hc, hi, hm]⟩

theorem footFile_junk (junk junk' : α × α) (l : List String) (fps : List (Option (Geometry α)))
    (s : String) (i : Nat) : Export.footFile junk l fps s i = Export.footFile junk' l fps s i := by
  unfold Export.footFile
  simp only [Export.boundaries_eq]

theorem onDisk_foot {junk : α × α} {e : Export α} (hF : Export.Fits e) {file : String}
    (hn : file ∉ Export.fixedNames) :
    onDisk (saveCsv junk true e).files file = onDisk (Export.footFiles junk e) file := by
  rw [Export.saveCsv_files junk e hF, Export.onDisk_append,
    Export.onDisk_none (Export.otherFiles e) file (by rw [Export.otherFiles_names]; exact hn)]
  rfl

/-- The values of a table in another order. -/
theorem table_inOrder {τ : List Nat} {n : Nat} {v v' : Option (Val V (Kept G))} {m m' : Mat Num}
    (h : SameInOrder τ n v v') (hm : v = some (.table m)) (hm' : v' = some (.table m')) :
    m.rows.length = n ∧ m' = ⟨m.ncols, pick m.rows τ⟩ := by
  obtain ⟨w, h1, h2, h3⟩ := h
  rw [hm] at h1
  cases h1
  rw [hm'] at h3
  cases h3
  exact ⟨h2, rfl⟩

theorem verdicts_inOrder {τ : List Nat} {n : Nat} {v v' : Option (Val V (Kept G))} {m m' : List (List Bool)}
    (h : SameInOrder τ n v v') (hm : v = some (.verdicts m)) (hm' : v' = some (.verdicts m')) :
    m.length = n ∧ m' = pick m τ := by
  obtain ⟨w, h1, h2, h3⟩ := h
  rw [hm] at h1
  cases h1
  rw [hm'] at h3
  cases h3
  exact ⟨h2, rfl⟩

theorem counts_inOrder {τ : List Nat} {n : Nat} {v v' : Option (Val V (Kept G))} {m m' : List Nat}
    (h : SameInOrder τ n v v') (hm : v = some (.counts m)) (hm' : v' = some (.counts m')) :
    m.length = n ∧ m' = pick m τ := by
  obtain ⟨w, h1, h2, h3⟩ := h
  rw [hm] at h1
  cases h1
  rw [hm'] at h3
  cases h3
  exact ⟨h2, rfl⟩

theorem flags_inOrder {τ : List Nat} {n : Nat} {v v' : Option (Val V (Kept G))} {m m' : List Bool}
    (h : SameInOrder τ n v v') (hm : v = some (.flags m)) (hm' : v' = some (.flags m')) :
    m.length = n ∧ m' = pick m τ := by
  obtain ⟨w, h1, h2, h3⟩ := h
  rw [hm] at h1
  cases h1
  rw [hm'] at h3
  cases h3
  exact ⟨h2, rfl⟩

theorem labels_inOrder {τ : List Nat} {n : Nat} {v v' : Option (Val V (Kept G))} {m m' : List V}
    (h : SameInOrder τ n v v') (hm : v = some (.labels m)) (hm' : v' = some (.labels m')) :
    m.length = n ∧ m' = pick m τ := by
  obtain ⟨w, h1, h2, h3⟩ := h
  rw [hm] at h1
  cases h1
  rw [hm'] at h3
  cases h3
  exact ⟨h2, rfl⟩

/-! ### C190 -/

/-- **C190.**  Two runs of the whole pipeline and the exports of their Models, the second on the table with
its rows in another order.  If SIFTED selects the same features, the files about the projection and the
boundaries are the same, and the files about the instances have the same lines, in one order `τ` for all
files.  If PYTHIA's predictions and recommendations are the same for each instance, then so are its
two files about the instances; and then, or if the footprints are those of the experimental data, all
other files except PYTHIA's table are the same: each footprint, and the table of the footprints. -/
theorem C190_files (hc : CompleteTrace env le te) (hb : OrderBlindLate le te)
    (ho : Ordinary lower env t labels) (hσ : σ.Perm (List.range t.nrows))
    (htr : Prelim.OrderBlind env.tr)
    (hnum : numeric (.series (pick labels σ)) = numeric (.series labels))
    (h : Succeeds lower numeric str num env t d)
    (h' : Succeeds lower numeric str num env (reordered σ t) d')
    (hsel : d' .selvars = d .selvars)
    (hs : SavedAll tx outline d files) (hs' : SavedAll tx outline d' files') :
    ∃ (n : Nat) (τ : List Nat), τ.Perm (List.range n) ∧
      (∀ file ∈ instanceFiles, LinesInOrder τ n files files' file) ∧
      (∀ file ∈ spaceFiles, onDisk files' file = onDisk files file ∧ (onDisk files file).isSome) ∧
      (SameInOrder τ n (d .y_hat) (d' .y_hat) ∧ SameInOrder τ n (d .selection0) (d' .selection0) →
        ∀ file ∈ ["algorithm_svm.csv", "portfolio_svm.csv"], LinesInOrder τ n files files' file) ∧
      (((te 0).useSim = true → SameInOrder τ n (d .y_hat) (d' .y_hat) ∧
          SameInOrder τ n (d .selection0) (d' .selection0)) →
        ∀ file, file ∉ instanceFiles → file ∉ pythiaFiles → onDisk files' file = onDisk files file) := by
  have halgo : d' .algo_labels = d .algo_labels := by
    obtain ⟨_, _, _, _, halgo, _⟩ := C165_rows_partial ho hσ htr hnum h h'
    exact halgo
  have hfeat : d' .feat_labels = d .feat_labels := by
    obtain ⟨_, _, _, _, _, hx⟩ := C165_rows_partial ho hσ htr hnum h h'
    exact (hx hsel).1
  obtain ⟨n, τ, hτ, hrows, hspace, hfoot⟩ := C187_space hc hb ho hσ htr hnum h h' hsel
  obtain ⟨_, _, o0, _, _, sel0, tr⟩ := traced ho h
  obtain ⟨_, _, o0', _, _, sel0', tr'⟩ := traced (ordinary_reordered ho hσ) h'
  have hidx : sel0'.idx = sel0.idx := by
    obtain ⟨_, _, g⟩ := tr.sifted
    obtain ⟨_, _, g'⟩ := tr'.sifted
    rw [Sifted.C105_partial g, Sifted.C105_partial g']
    have := (table_inOrder (hrows .x_raw (by decide)) tr.x_raw tr'.x_raw).2
    simp [Prelim.columns, this]
  obtain ⟨junk, start, rest, late, e, m, hm, ht, hl, he, herr, rfl⟩ := hs
  obtain ⟨junk', start', rest', late', e', m', hm', ht', hl', he', herr', rfl⟩ := hs'
  have hF := (Export.C82_exact_partial junk e).1 herr
  have hF' := (Export.C82_exact_partial junk' e').1 herr'
  obtain ⟨inst, x, y, xr, yr, yb, ng, beta, p, e1, e2, e3, e4, e5, e6, e7, e8, e9, e10, e11, e12, e13, e14,
    e15, e16, e17, e18, e19, e20, e21⟩ := exportOf_eq hm he
  obtain ⟨inst', x', y', xr', yr', yb', ng', beta', p', f1, f2, f3, f4, f5, f6, f7, f8, f9, f10, f11, f12,
    f13, f14, f15, f16, f17, f18, f19, f20, f21⟩ := exportOf_eq hm' he'
  obtain ⟨r1, r2, r3, r4, r5, r6, -⟩ := exportOf_rest he
  obtain ⟨r1', r2', r3', r4', r5', r6', -⟩ := exportOf_rest he'
  obtain ⟨z, ps, ze, zc, yh, sel, pys, l1, l2, l3, l4, l5, l6, l7, l8, l9, l10, l11, l12, l13, -⟩ :=
    lateOf_eq hm hl
  obtain ⟨z', ps', ze', zc', yh', sel', pys', m1, m2, m3, m4, m5, m6, m7, m8, m9, m10, m11, m12, m13, -⟩ :=
    lateOf_eq hm' hl'
  obtain ⟨s1, s2, s3, yn, s4, s5⟩ := exportOf_trace he
  obtain ⟨s1', s2', s3', yn', s4', s5'⟩ := exportOf_trace he'
  obtain ⟨q1, q2, q3⟩ := lateOf_trace hl
  obtain ⟨q1', q2', q3'⟩ := lateOf_trace hl'
  obtain ⟨good, best, f, t1, t2, t3, t4, t5, t6⟩ := traceOf_eq hm ht
  obtain ⟨good', best', f', u1, u2, u3, u4, u5, u6⟩ := traceOf_eq hm' ht'
  -- the two exports compared
  have hfl : e'.featLabels = e.featLabels := by
    rw [e2, f2] at hfeat; simpa using hfeat
  have hal : e'.algoLabels = e.algoLabels := by
    rw [e3, f3] at halgo; simpa using halgo
  have hid : e'.idx = e.idx := by
    have h1 := tr.idx
    have h2 := tr'.idx
    rw [e12] at h1
    rw [f12] at h2
    simp only [Option.some.injEq, Val.counts.injEq] at h1 h2
    rw [h1, h2, hidx]
  obtain ⟨n1, rfl⟩ := labels_inOrder (hrows .inst_labels (by decide)) e1 f1
  obtain ⟨n2, rfl⟩ := table_inOrder (hrows .x (by decide)) e4 f4
  obtain ⟨n3, rfl⟩ := table_inOrder (hrows .y (by decide)) e5 f5
  obtain ⟨n4, rfl⟩ := table_inOrder (hrows .x_raw (by decide)) e6 f6
  obtain ⟨n5, rfl⟩ := table_inOrder (hrows .y_raw (by decide)) e7 f7
  obtain ⟨n6, rfl⟩ := verdicts_inOrder (hrows .y_bin (by decide)) e8 f8
  obtain ⟨n7, rfl⟩ := counts_inOrder (hrows .num_good_algos (by decide)) e9 f9
  obtain ⟨n8, rfl⟩ := flags_inOrder (hrows .beta (by decide)) e10 f10
  obtain ⟨n9, rfl⟩ := counts_inOrder (hrows .p (by decide)) e11 f11
  obtain ⟨n10, rfl⟩ := table_inOrder (hrows .z (by decide)) l1 m1
  have hin : e'.instLabels = pick e.instLabels τ := by
    rw [e13, f13, Preprocessing.pick_map]
  have hil : e.instLabels.length = n := by rw [e13, List.length_map, n1]
  have line : ∀ {file : String} {columns columns' : List String} {m m' : List (List α)},
      (file, .array ⟨columns, e.instLabels.zip m⟩) ∈ Export.otherFiles e →
      (file, .array ⟨columns', e'.instLabels.zip m'⟩) ∈ Export.otherFiles e' →
      columns' = columns → m.length = n → m' = pick m τ →
      LinesInOrder τ n (saveCsv junk true e).files (saveCsv junk' true e').files file :=
    fun g g' k1 k2 k3 => lines_of hF hF' g g' k1 hin k3 hil k2
  have same : ∀ {file : String} {g : Export.File α}, (file, g) ∈ Export.otherFiles e →
      (file, g) ∈ Export.otherFiles e' →
      onDisk (saveCsv junk' true e').files file = onDisk (saveCsv junk true e).files file ∧
        (onDisk (saveCsv junk true e).files file).isSome := by
    intro file g k1 k2
    rw [Export.onDisk_other junk e hF k1, Export.onDisk_other junk' e' hF' k2]
    exact ⟨rfl, rfl⟩
  have hedge : e'.zEdge = e.zEdge := by
    have := hspace .z_edge (by decide)
    rw [l3, m3] at this
    cases this
    rw [r2, r2', l9, m9]
  have hecorr : e'.zEcorr = e.zEcorr := by
    have := hspace .z_ecorr (by decide)
    rw [l4, m4] at this
    cases this
    rw [r3, r3', l10, m10]
  have hps : e'.pilotSummary = e.pilotSummary := by
    have := hspace .pilot_summary (by decide)
    rw [l2, m2] at this
    cases this
    rw [r6, r6', l13, m13]
  have hspaceFiles : ∀ file ∈ spaceFiles,
      onDisk (saveCsv junk' true e').files file = onDisk (saveCsv junk true e).files file ∧
        (onDisk (saveCsv junk true e).files file).isSome := by
    intro file hfile
    simp only [spaceFiles, List.mem_cons, List.not_mem_nil, or_false] at hfile
    rcases hfile with rfl | rfl | rfl
    · exact same (g := .array ⟨["z_1", "z_2"], (Export.bindLabels e.zEdge.length).zip e.zEdge⟩)
        (by simp [Export.otherFiles]) (by simp [Export.otherFiles, hedge])
    · exact same (g := .array ⟨["z_1", "z_2"], (Export.bindLabels e.zEcorr.length).zip e.zEcorr⟩)
        (by simp [Export.otherFiles]) (by simp [Export.otherFiles, hecorr])
    · exact same (g := .frame (Export.rename "0" "Row" e.pilotSummary))
        (by simp [Export.otherFiles]) (by simp [Export.otherFiles, hps])
  refine ⟨n, τ, hτ, ?_, hspaceFiles, ?_, ?_⟩
  · intro file hfile
    simp only [instanceFiles, List.mem_cons, List.not_mem_nil, or_false] at hfile
    rcases hfile with rfl | rfl | rfl | rfl | rfl | rfl | rfl | rfl | rfl
    · exact line (m := e.z) (m' := e'.z) (columns := ["z_1", "z_2"]) (columns' := ["z_1", "z_2"])
        (by simp [Export.otherFiles]) (by simp [Export.otherFiles]) rfl
        (by rw [r1, l8, List.length_map, n10]) (by rw [r1, l8, r1', m8, Preprocessing.pick_map])
    · exact line (m := e.xRaw.map fun r => e.idx.filterMap fun i => r[i]?)
        (m' := e'.xRaw.map fun r => e'.idx.filterMap fun i => r[i]?)
        (columns := e.featLabels) (columns' := e'.featLabels)
        (by simp [Export.otherFiles]) (by simp [Export.otherFiles]) hfl
        (by rw [List.length_map, e16, List.length_map, n4])
        (by rw [hid, e16, f16, Preprocessing.pick_map, Preprocessing.pick_map])
    · exact line (m := e.x) (m' := e'.x) (columns := e.featLabels) (columns' := e'.featLabels)
        (by simp [Export.otherFiles]) (by simp [Export.otherFiles]) hfl
        (by rw [e14, List.length_map, n2]) (by rw [e14, f14, Preprocessing.pick_map])
    · exact line (m := e.yRaw) (m' := e'.yRaw) (columns := e.algoLabels) (columns' := e'.algoLabels)
        (by simp [Export.otherFiles]) (by simp [Export.otherFiles]) hal
        (by rw [e17, List.length_map, n5]) (by rw [e17, f17, Preprocessing.pick_map])
    · exact line (m := e.y) (m' := e'.y) (columns := e.algoLabels) (columns' := e'.algoLabels)
        (by simp [Export.otherFiles]) (by simp [Export.otherFiles]) hal
        (by rw [e15, List.length_map, n3]) (by rw [e15, f15, Preprocessing.pick_map])
    · exact line (m := e.yBin) (m' := e'.yBin) (columns := e.algoLabels) (columns' := e'.algoLabels)
        (by simp [Export.otherFiles]) (by simp [Export.otherFiles]) hal
        (by rw [e18, List.length_map, n6]) (by rw [e18, f18, Preprocessing.pick_map])
    · exact line (m := e.numGood.map fun v => [v]) (m' := e'.numGood.map fun v => [v])
        (columns := ["NumGoodAlgos"]) (columns' := ["NumGoodAlgos"])
        (by simp [Export.otherFiles]) (by simp [Export.otherFiles]) rfl
        (by rw [List.length_map, e19, List.length_map, n7])
        (by rw [e19, f19, Preprocessing.pick_map, Preprocessing.pick_map])
    · exact line (m := e.beta.map fun v => [v]) (m' := e'.beta.map fun v => [v])
        (columns := ["IsBetaEasy"]) (columns' := ["IsBetaEasy"])
        (by simp [Export.otherFiles]) (by simp [Export.otherFiles]) rfl
        (by rw [List.length_map, e20, List.length_map, n8])
        (by rw [e20, f20, Preprocessing.pick_map, Preprocessing.pick_map])
    · exact line (m := e.p.map fun v => [v]) (m' := e'.p.map fun v => [v])
        (columns := ["Best_Algorithm"]) (columns' := ["Best_Algorithm"])
        (by simp [Export.otherFiles]) (by simp [Export.otherFiles]) rfl
        (by rw [List.length_map, e21, List.length_map, n9])
        (by rw [e21, f21, Preprocessing.pick_map, Preprocessing.pick_map])
  · rintro ⟨v1, v2⟩ file hfile
    obtain ⟨n11, rfl⟩ := verdicts_inOrder v1 l5 m5
    obtain ⟨n12, rfl⟩ := counts_inOrder v2 l6 m6
    simp only [List.mem_cons, List.not_mem_nil, or_false] at hfile
    rcases hfile with rfl | rfl
    · exact line (m := e.yHat) (m' := e'.yHat) (columns := e.algoLabels) (columns' := e'.algoLabels)
        (by simp [Export.otherFiles]) (by simp [Export.otherFiles]) hal
        (by rw [r4, l11, List.length_map, n11]) (by rw [r4, l11, r4', m11, Preprocessing.pick_map])
    · exact line (m := e.selection0.map fun v => [v]) (m' := e'.selection0.map fun v => [v])
        (columns := ["Best_Algorithm"]) (columns' := ["Best_Algorithm"])
        (by simp [Export.otherFiles]) (by simp [Export.otherFiles]) rfl
        (by rw [List.length_map, r5, l12, List.length_map, n12])
        (by rw [r5, l12, r5', m12, Preprocessing.pick_map, Preprocessing.pick_map])
  · intro hsim file h1 h2
    have hfoot := hfoot hsim
    have hgood : e'.good = e.good := by
      have := hfoot .good (by decide)
      rw [t1, u1] at this
      cases this
      rw [s1, s1', q1, q1', t4, u4]
    have hbest : e'.best = e.best := by
      have := hfoot .best (by decide)
      rw [t2, u2] at this
      cases this
      rw [s2, s2', q2, q2', t5, u5]
    have htrs : e'.traceSummary = e.traceSummary := by
      have := hfoot .trace_summary (by decide)
      rw [t3, u3] at this
      cases this
      rw [s3, s3', q3, q3', t6, u6]
    have hna : e'.nalgos = e.nalgos := by
      rw [readPart_attr (modelOf_parts hm).1.1 "y" .y rfl, e5] at s4
      rw [readPart_attr (modelOf_parts hm').1.1 "y" .y rfl, f5] at s4'
      cases s4
      cases s4'
      rw [s5, s5']
    by_cases hfix : file ∈ Export.fixedNames
    · have : file ∈ spaceFiles ∨ file = "footprint_performance.csv" := by
        revert h1 h2
        simp only [Export.fixedNames, List.mem_cons, List.not_mem_nil, or_false] at hfix
        rcases hfix with rfl | rfl | rfl | rfl | rfl | rfl | rfl | rfl | rfl | rfl | rfl | rfl | rfl | rfl | rfl |
          rfl <;> decide
      rcases this with hf | rfl
      · exact (hspaceFiles file hf).1
      · exact (same (g := .frame (Export.rename "Algorithm" "Row"
          (Export.traceColumns.filterMap fun i => e.traceSummary[i]?)))
          (by simp [Export.otherFiles]) (by simp [Export.otherFiles, htrs])).1
    · rw [onDisk_foot hF hfix, onDisk_foot hF' hfix]
      unfold Export.footFiles
      simp only [hna, hal, hbest, hgood, footFile_junk junk' junk]

/-! ### An example -/

/-- The output of the run on the six instances in the order `σ` and the files, `none` if something raises. -/
def spaceSaved (σ : List Nat) :
    Option (Dict Name (Val Nat (Kept (List (ℚ × ℚ)))) × List (String × Export.File Entry)) :=
  (spaceRun σ).toOption.bind fun d => (modelOf d ()).toOption.bind fun m =>
    (traceOf lateText dotsOutline lateRest m).bind fun rest => (lateOf lateText rest m).bind fun late =>
      (exportOf lateText late m).bind fun e =>
        if (saveCsv (.word "", .word "") true e).error.isNone then
          some (d, (saveCsv (.word "", .word "") true e).files) else none

theorem space_saved {σ : List Nat} {d : Dict Name (Val Nat (Kept (List (ℚ × ℚ))))}
    {files : List (String × Export.File Entry)} (h : spaceSaved σ = some (d, files)) :
    Succeeds id (fun _ => false) id lateNum spaceEnv (reordered σ traceTable) d ∧
      SavedAll lateText dotsOutline d files := by
  unfold spaceSaved at h
  cases hr : spaceRun σ with
  | error e => rw [hr] at h; cases h
  | ok d' =>
    rw [hr] at h
    simp only [Except.toOption, Option.bind_some] at h
    cases hm : modelOf d' () with
    | error e => rw [hm] at h; cases h
    | ok m =>
      rw [hm] at h
      dsimp only [Option.bind_some] at h
      cases ht : traceOf lateText dotsOutline lateRest m with
      | none => rw [ht] at h; cases h
      | some rest =>
      rw [ht] at h
      simp only [Option.bind_some] at h
      cases hl : lateOf lateText rest m with
      | none => rw [hl] at h; cases h
      | some late =>
      rw [hl] at h
      simp only [Option.bind_some] at h
      cases he : exportOf lateText late m with
      | none => rw [he] at h; cases h
      | some e =>
        rw [he] at h
        simp only [Option.bind_some] at h
        by_cases herr : (saveCsv (.word "", .word "") true e).error.isNone
        · rw [if_pos herr] at h
          simp only [Option.some.injEq, Prod.mk.injEq] at h
          obtain ⟨rfl, rfl⟩ := h
          exact ⟨space_succeeds σ hr, _, _, _, _, _, m, hm, ht, hl, he, by simpa using herr, rfl⟩
        · rw [if_neg herr] at h
          cases h

/-- Non-vacuity: for the six instances of `PropsSpace` and their reverse both exports succeed (the other
hypotheses are met by the example there); the lines of the coordinates are reversed. -/
example : (∃ d files, Succeeds id (fun _ => false) id lateNum spaceEnv (reordered [0, 1, 2, 3, 4, 5] traceTable) d ∧
      SavedAll lateText dotsOutline d files ∧
      shapeOf files "coordinates.csv" = some (2, [nums [3, 1], nums [12, 5], nums [7, 2], nums [9, 4],
        nums [4, 1], nums [11, 3]])) ∧
    (∃ d files, Succeeds id (fun _ => false) id lateNum spaceEnv (reordered [5, 4, 3, 2, 1, 0] traceTable) d ∧
      SavedAll lateText dotsOutline d files ∧
      shapeOf files "coordinates.csv" = some (2, [nums [11, 3], nums [4, 1], nums [9, 4], nums [7, 2],
        nums [12, 5], nums [3, 1]])) := by
  have e1 : ((spaceSaved [0, 1, 2, 3, 4, 5]).bind fun p => shapeOf p.2 "coordinates.csv") =
      some (2, [nums [3, 1], nums [12, 5], nums [7, 2], nums [9, 4], nums [4, 1], nums [11, 3]]) := by
    decide +kernel
  have e2 : ((spaceSaved [5, 4, 3, 2, 1, 0]).bind fun p => shapeOf p.2 "coordinates.csv") =
      some (2, [nums [11, 3], nums [4, 1], nums [9, 4], nums [7, 2], nums [12, 5], nums [3, 1]]) := by
    decide +kernel
  constructor
  · cases hd : spaceSaved [0, 1, 2, 3, 4, 5] with
    | none => rw [hd] at e1; cases e1
    | some p =>
      rw [hd] at e1
      exact ⟨p.1, p.2, (space_saved hd).1, (space_saved hd).2, e1⟩
  · cases hd : spaceSaved [5, 4, 3, 2, 1, 0] with
    | none => rw [hd] at e2; cases e2
    | some p =>
      rw [hd] at e2
      exact ⟨p.1, p.2, (space_saved hd).1, (space_saved hd).2, e2⟩

end Verif.EndToEnd
