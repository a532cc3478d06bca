import Verif.Export.Lemmas
import Verif.Export.ColourLemmas
import Verif.Sifted.Props
import Verif.Pipeline.PropsRows
import Verif.Cloister.PropsBox
/-!
# Properties C80-C83 and C110-C115: exported files, colours, plots and the archive
-/
set_option autoImplicit false
set_option linter.unusedSectionVars false

namespace Verif.Export

open Verif (Num)

/-! ### C80 -/

/-- A square, with or without a hole. -/
def square (holes : List (List (Int × Int))) : Geometry Int :=
  .polygon ⟨[(0, 0), (4, 0), (4, 4), (0, 4), (0, 0)], holes⟩

/-- The property: different polygons have different files, i.e. the polygon can be restored. -/
def Restorable : Prop :=
  ∀ (junk : Int × Int) (g h : Geometry Int), boundaries junk g = boundaries junk h → g.parts = h.parts

/-- **C80** is false: a hole leaves no trace in the file. -/
theorem C80_refuted : ¬ Restorable := by
  intro h
  have h := h (0, 0) (square []) (square [[(1, 1), (2, 1), (2, 2), (1, 1)]]) rfl
  have h := congrArg (List.map fun p : Polygon Int => p.holes.length) h
  exact absurd h (by decide)

/-- **C80, one polygon.**  The file lists the vertices of the exterior in order, each once; adding
the first again closes the boundary.  Missing: holes. -/
theorem C80_polygon_partial {α : Type} (junk : α × α) (v : α × α) (body : List (α × α))
    (holes : List (List (α × α))) :
    boundaries junk (.polygon ⟨v :: (body ++ [v]), holes⟩) = v :: body := by
  rw [boundaries_eq]
  change (v :: (body ++ [v])).dropLast = _
  rw [← List.cons_append, List.dropLast_concat]

/-- **C80, all geometries.**  The exterior rings of every polygon and multi-polygon are restored by
the reader `readRings`.  Missing: holes, and the file does not say where a ring ends. -/
theorem C80_exteriors_partial {α : Type} [DecidableEq α] (junk : α × α) (g : Geometry α)
    (h : ∀ p ∈ g.parts, ClosedRing p.exterior) :
    readRings none (boundaries junk g) = g.parts.map (·.exterior) := by
  rw [boundaries_eq, coords_parts, readRings_flatten]
  intro r hr
  obtain ⟨p, hp, rfl⟩ := List.mem_map.1 hr
  exact h p hp

/-- Two triangles that touch in a vertex. -/
def triangles : Geometry Int :=
  .multi [⟨[(0, 0), (2, 0), (1, 1), (0, 0)], []⟩, ⟨[(2, 0), (4, 0), (3, 1), (2, 0)], []⟩]

example : boundaries (9, 9) triangles =
    [(0, 0), (2, 0), (1, 1), (0, 0), (2, 0), (4, 0), (3, 1)] := rfl
example : ∀ p ∈ triangles.parts, ClosedRing p.exterior := by
  intro p hp
  have hp : p ∈ [_, _] := hp
  simp only [List.mem_cons, List.not_mem_nil, or_false] at hp
  rcases hp with rfl | rfl
  · exact ⟨(0, 0), [(2, 0), (1, 1)], rfl, by decide⟩
  · exact ⟨(2, 0), [(4, 0), (3, 1)], rfl, by decide⟩
example : readRings none (boundaries (9, 9) triangles) = triangles.parts.map (·.exterior) := by
  decide +kernel

/-! ### C81 -/

/-- The property for one matrix: every column that varies is coloured by `colourScale`. -/
def ColumnsColoured (m : List (List Num)) : Prop :=
  ∀ j, (∀ r ∈ m, j < r.length) → (∃ a ∈ columnOf m j, ∃ b ∈ columnOf m j, a.lt b = true) →
    ∀ v ∈ columnOf (colourScale m) j, ∃ k : ℤ, v = .fin k ∧ 0 ≤ k ∧ k ≤ 255

/-- **C81** is false with a missing value: the whole column has undefined colours. -/
theorem C81_refuted : ¬ ColumnsColoured [[.fin 1], [.nan], [.fin 3]] := by
  intro h
  have h := h 0 (by decide) ⟨.fin 1, by decide, .fin 3, by decide, by decide +kernel⟩ .nan
    (by decide +kernel)
  obtain ⟨k, hk, -⟩ := h
  cases hk

/-- **C81, by column.**  Every column of finite values that varies is coloured. -/
theorem C81_columns_partial (m : List (List ℚ)) (j : Nat) (hj : ∀ r ∈ m, j < r.length)
    (h : Varies (ratColumn m j)) : Coloured (ratColumn m j) (columnOf (colourScale (finite m)) j) := by
  have hj' : ∀ r ∈ finite m, j < r.length := by
    intro r hr
    obtain ⟨s, hs, rfl⟩ := List.mem_map.1 hr
    simpa using hj s hs
  rw [colourScale_column _ _ hj', columnOf_finite m j hj]
  exact coloured_of (f := fun q => ⌊q⌋) (fun a b => Int.floor_le_floor) (fun k => Int.floor_intCast k) h
    (fun q => rfl)

/-- **C81, globally.**  Every matrix of finite values that varies is coloured as a whole. -/
theorem C81_global_partial (m : List (List ℚ)) (h : Varies m.flatten) :
    Coloured m.flatten (colourScaleG (finite m)).flatten := by
  rw [colourScaleG_flatten]
  have : (finite m).flatten = m.flatten.map Num.fin := by simp [finite, List.map_flatten]
  rw [this]
  exact coloured_of (f := roundEven) (fun a b => roundEven_mono) roundEven_int h (fun q => rfl)

/-- **C81, the effect of a missing value.**  All colours of its column are undefined, on the global
scale all colours of the matrix. -/
theorem C81_missing_partial (m : List (List Num)) :
    (∀ j, (∀ r ∈ m, j < r.length) → .nan ∈ columnOf m j →
      ∀ v ∈ columnOf (colourScale m) j, v = .nan) ∧
    (.nan ∈ m.flatten → ∀ v ∈ (colourScaleG m).flatten, v = .nan) := by
  constructor
  · intro j hj h v hv
    rw [colourScale_column _ _ hj] at hv
    obtain ⟨w, -, rfl⟩ := List.mem_map.1 hv
    rw [scaled_nan h]
    rfl
  · intro h v hv
    rw [colourScaleG_flatten] at hv
    obtain ⟨w, -, rfl⟩ := List.mem_map.1 hv
    rw [scaled_nan h]
    rfl

/-- **C81, the effect of a constant column.**  Its colours are undefined as well. -/
theorem C81_constant_partial (m : List (List ℚ)) (j : Nat) (hj : ∀ r ∈ m, j < r.length) (q : ℚ)
    (h : ∀ v ∈ ratColumn m j, v = q) : ∀ v ∈ columnOf (colourScale (finite m)) j, v = .nan := by
  intro v hv
  have hj' : ∀ r ∈ finite m, j < r.length := by
    intro r hr
    obtain ⟨s, hs, rfl⟩ := List.mem_map.1 hr
    simpa using hj s hs
  rw [colourScale_column _ _ hj', columnOf_finite m j hj] at hv
  obtain ⟨w, hw, rfl⟩ := List.mem_map.1 hv
  obtain ⟨a, ha, rfl⟩ := List.mem_map.1 hw
  generalize ratColumn m j = l at h ha
  rcases l with _ | ⟨c, l⟩
  · cases ha
  obtain ⟨lo, h1, h2, -⟩ := npMin_fin c l
  obtain ⟨hi, h3, h4, -⟩ := npMax_fin c l
  unfold scaled
  rw [h1, h3, h lo h2, h hi h4, h a ha, Num.fin_sub, sub_self]
  rfl

/-- Column 1 varies, column 0 is constant. -/
def exColours : List (List ℚ) := [[2, 10], [2, 30], [2, 20]]

example : Varies (ratColumn exColours 1) := ⟨10, by decide, 30, by decide, by decide +kernel⟩
example : columnOf (colourScale (finite exColours)) 1 = [.fin 0, .fin 255, .fin 127] := by decide +kernel
example : (colourScaleG (finite exColours)).flatten =
    [.fin 0, .fin 73, .fin 0, .fin 255, .fin 0, .fin 164] := by decide +kernel
example : ∀ v ∈ ratColumn exColours 0, v = 2 := by decide
example : Num.nan ∈ columnOf [[.fin 1], [.nan], [.fin 3]] 0 := by decide

/-! ### C82 -/

/-- A model of two instances, two features and two algorithms. -/
def exExport : Export Int where
  instLabels := ["i1", "i2"]
  featLabels := ["f1", "f2"]
  algoLabels := ["a_1", "a_2"]
  nalgos := 2
  x := [[1, 2], [3, 4]]
  xRaw := [[5, 6], [7, 8]]
  y := [[11, 12], [13, 14]]
  yRaw := [[15, 16], [17, 18]]
  yBin := [[1, 0], [1, 1]]
  numGood := [1, 2]
  beta := [0, 1]
  p := [1, 2]
  z := [[21, 22], [23, 24]]
  zEdge := [[0, 0], [9, 0], [0, 9]]
  zEcorr := [[0, 0], [8, 0], [0, 8]]
  idx := [0, 1]
  yHat := [[1, 0], [0, 1]]
  selection0 := [0, 1]
  best := [some (square []), none]
  good := [some triangles, some (square [])]
  traceSummary := ["Algorithm", "b", "c", "d", "e", "f", "g", "h", "i", "j", "k"].map fun s => (s, [1, 2])
  pilotSummary := [("0", [1, 2]), ("f1", [3, 4]), ("f2", [5, 6])]
  pythiaSummary := [("Algorithms", [1, 2]), ("Avg", [3, 4])]

theorem exExport_fits : Fits exExport :=
  (csvActions_ok (0, 0) _).1 (perform_error.1 (by decide +kernel))

/-- The same after SIFTED dropped the second feature: one column and label, all features in `idx`. -/
def exDropped : Export Int :=
  { exExport with featLabels := ["f1"], x := [[1], [3]] }

/-- The property for one model. -/
def Exports {α : Type} (e : Export α) : Prop :=
  ∀ junk, (saveCsv junk true e).error = none ∧ ∀ n ∈ fixedNames, n ∈ (saveCsv junk true e).files.map (·.1)

/-- **C82** is false: when a feature is dropped, the export stops at the raw features. -/
theorem C82_refuted : ¬ Exports exDropped := by
  intro h
  exact absurd (h (0, 0)).1 (by decide +kernel)

example : (saveCsv (0, 0) true exDropped).error = some .valueError ∧
    (saveCsv (0, 0) true exDropped).files.map (·.1) =
      ["footprint_a_1_best.csv", "footprint_a_1_good.csv", "footprint_a_2_good.csv",
       "coordinates.csv", "bounds.csv", "bounds_prunned.csv"] := by decide +kernel

/-- **C82, exactly when.**  The export to a directory succeeds if and only if every array fits its
names. -/
theorem C82_exact_partial {α : Type} (junk : α × α) (e : Export α) :
    (saveCsv junk true e).error = none ↔ Fits e := by
  rw [← csvActions_ok junk e, ← perform_error]
  rfl

/-- **C82, true part.**  If everything fits, all files are written.  Missing: models of runs in which
SIFTED drops a feature, CLOISTER finds no boundary or Prelim takes a subset (`C82_sifted_partial`,
`C82_boundary_partial`, `C82_subset_partial`). -/
theorem C82_partial {α : Type} (e : Export α) (h : Fits e) : Exports e := by
  intro junk
  have he := (C82_exact_partial junk e).2 h
  refine ⟨he, fun n hn => ?_⟩
  have hp : (perform (csvActions junk e)).2 = none := he
  have hf := perform_files hp
  have : ∀ n ∈ fixedNames, ∃ a ∈ csvActions junk e, ∀ f, a = .ok f → f.1 = n := by
    have hw : ∀ (name : String) (d : List (List α)) (c r : List String) (f),
        writeArray name d c r = .ok f → f.1 = name := by
      intro name d c r f hf
      unfold writeArray at hf
      split at hf
      · injection hf with hf
        rw [← hf]
      · cases hf
    have hr : ∀ f, rawFeatures "feature_raw.csv" id e = .ok f → f.1 = "feature_raw.csv" := by
      intro f hf
      unfold rawFeatures at hf
      split at hf
      · cases hf
      · exact hw _ _ _ _ f hf
    have ht : ∀ f, traceAction e = .ok f → f.1 = "footprint_performance.csv" := by
      intro f hf
      unfold traceAction at hf
      split at hf
      · cases hf
      · injection hf with hf
        rw [← hf]
    unfold csvActions fixedNames
    simp only [List.mem_append, List.mem_cons, List.not_mem_nil, or_false, forall_eq_or_imp, forall_eq]
    refine ⟨?_, ?_, ?_, ?_, ?_, ?_, ?_, ?_, ?_, ?_, ?_, ?_, ?_, ?_, ?_, ?_⟩
    · exact ⟨_, .inr (.inl rfl), hw _ _ _ _⟩
    · exact ⟨_, .inr (.inr (.inl rfl)), fun f hf => writePoints_name hf⟩
    · exact ⟨_, .inr (.inr (.inr (.inl rfl))), fun f hf => writePoints_name hf⟩
    · exact ⟨_, .inr (.inr (.inr (.inr (.inl rfl)))), hr⟩
    · exact ⟨_, .inr (.inr (.inr (.inr (.inr (.inl rfl))))), hw _ _ _ _⟩
    · exact ⟨_, .inr (.inr (.inr (.inr (.inr (.inr (.inl rfl)))))), hw _ _ _ _⟩
    · exact ⟨_, .inr (.inr (.inr (.inr (.inr (.inr (.inr (.inl rfl))))))), hw _ _ _ _⟩
    · exact ⟨_, .inr (.inr (.inr (.inr (.inr (.inr (.inr (.inr (.inl rfl)))))))), hw _ _ _ _⟩
    · exact ⟨_, .inr (.inr (.inr (.inr (.inr (.inr (.inr (.inr (.inr (.inl rfl))))))))), hw _ _ _ _⟩
    · exact ⟨_, .inr (.inr (.inr (.inr (.inr (.inr (.inr (.inr (.inr (.inr (.inl rfl)))))))))), hw _ _ _ _⟩
    · exact ⟨_, .inr (.inr (.inr (.inr (.inr (.inr (.inr (.inr (.inr (.inr (.inr (.inl rfl))))))))))), hw _ _ _ _⟩
    · exact ⟨_, .inr (.inr (.inr (.inr (.inr (.inr (.inr (.inr (.inr (.inr (.inr (.inr (.inl rfl)))))))))))), hw _ _ _ _⟩
    · exact ⟨_, .inr (.inr (.inr (.inr (.inr (.inr (.inr (.inr (.inr (.inr (.inr (.inr (.inr (.inl rfl))))))))))))), hw _ _ _ _⟩
    · exact ⟨_, .inr (.inr (.inr (.inr (.inr (.inr (.inr (.inr (.inr (.inr (.inr (.inr (.inr (.inr (.inl rfl)))))))))))))), ht⟩
    · exact ⟨_, .inr (.inr (.inr (.inr (.inr (.inr (.inr (.inr (.inr (.inr (.inr (.inr (.inr (.inr (.inr (.inl rfl))))))))))))))),
        fun f hf => by injection hf with hf; rw [← hf]⟩
    · exact ⟨_, .inr (.inr (.inr (.inr (.inr (.inr (.inr (.inr (.inr (.inr (.inr (.inr (.inr (.inr (.inr (.inr rfl))))))))))))))),
        fun f hf => by injection hf with hf; rw [← hf]⟩
  obtain ⟨a, ha, hn'⟩ := this n hn
  rw [hf] at ha
  obtain ⟨f, hf1, rfl⟩ := List.mem_map.1 ha
  exact List.mem_map.2 ⟨f, hf1, hn' f rfl⟩

example : Fits exExport := exExport_fits

/-- **C82, models of SIFTED.**  Whenever SIFTED returns fewer features than it was given, the export
of the model with its `idx` and labels raises, and besides footprints at most the coordinates and
bounds are written. -/
theorem C82_sifted_partial {α β : Type} {lib : Sifted.Lib} {rho : List (List Num)} {thr : Num}
    {k nalgos : Nat} {x : List β} {labels : List String} {dense : Bool} {out : Sifted.Out β}
    (h : Sifted.sifted lib rho thr k nalgos x labels dense = .ok out)
    (hd : out.featLabels.length < x.length) (junk : α × α) (e : Export α)
    (hi : e.idx = out.idx) (hl : e.featLabels = out.featLabels) (hx : e.xRaw ≠ []) :
    (saveCsv junk true e).error ≠ none ∧
    ∀ n ∈ (saveCsv junk true e).files.map (·.1),
      n ∈ ["coordinates.csv", "bounds.csv", "bounds_prunned.csv"] ∨ n ∉ fixedNames := by
  have hraw : ¬ ∃ w, rawFeatures "feature_raw.csv" id e = .ok w := by
    rw [rawFeatures_ok hasShape_id]
    rintro ⟨-, hf⟩
    obtain ⟨r, t, hr⟩ := List.exists_cons_of_ne_nil hx
    have := (hf r (by rw [hr]; simp)).2
    rw [hi, hl, Sifted.C105_partial h, List.length_range] at this
    omega
  constructor
  · intro he
    have hf := (C82_exact_partial junk e).1 he
    exact hraw ((rawFeatures_ok hasShape_id).2 ⟨hf.xRaw, hf.idx⟩)
  · intro n hn
    obtain ⟨f, hf, rfl⟩ := List.mem_map.1 hn
    exact files_before_raw junk e hraw f hf

/-- SIFTED does drop features. -/
example : Sifted.exRun.toOption.map (fun o => decide (o.featLabels.length < 7)) = some true := by
  decide +kernel

/-- **C82, models without boundary.**  When the corners all project to one line, CLOISTER finds no hull and
the run goes on, but the export of its result raises; besides footprints only the coordinates are
written. -/
theorem C82_boundary_partial {α : Type} {m : Nat} (qhull : List (Fin 2 → ℚ) → Option (List Nat))
    (hq : Cloister.Qhull qhull) (pearson : Fin m → Fin m → Num × Num) (pThr cThr : Num)
    (A : Fin 2 → Fin m → ℚ) (r : Fin m → ℚ) (rs : List (Fin m → ℚ))
    (hc : Collinear ℚ (Cloister.pointSet ((Cloister.xEdge r rs).map (Cloister.project A))))
    (junk : α × α) (e : Export α) (f : (Fin 2 → ℚ) → List α)
    (he : e.zEdge = (Cloister.cloister qhull pearson pThr cThr A r rs).1.map f) :
    (saveCsv junk true e).error ≠ none ∧
    ∀ n ∈ (saveCsv junk true e).files.map (·.1), n = "coordinates.csv" ∨ n ∉ fixedNames := by
  have hnil : e.zEdge = [] := by
    rw [he]
    have := (hq.fails _).2 hc
    simp only [Cloister.cloister, Cloister.hullPoints, this, List.map_nil]
  constructor
  · intro h
    exact ((C82_exact_partial junk e).1 h).zEdge.1 hnil
  · intro n hn
    obtain ⟨f, hf, rfl⟩ := List.mem_map.1 hn
    exact files_before_bounds junk e hnil f hf

/-- A single feature: the two corners are on a line, whatever their positions. -/
example (A : Fin 2 → Fin 1 → ℚ) (r : Fin 1 → ℚ) (rs : List (Fin 1 → ℚ)) :
    Collinear ℚ (Cloister.pointSet ((Cloister.xEdge r rs).map (Cloister.project A))) := by
  have h : Cloister.pointSet ((Cloister.xEdge r rs).map (Cloister.project A)) =
      {Cloister.project A (Cloister.edge r rs 0), Cloister.project A (Cloister.edge r rs 1)} := by
    ext p
    change p ∈ [Cloister.project A (Cloister.edge r rs 0), Cloister.project A (Cloister.edge r rs 1)] ↔ _
    simp
  rw [h]
  exact collinear_pair ℚ _ _

/-- **C82, models of a subset.**  When there are fewer rows than labels (`C26_exact_partial`), the
export raises. -/
theorem C82_subset_partial {α : Type} (junk : α × α) (e : Export α)
    (h : e.z.length ≠ e.instLabels.length) : (saveCsv junk true e).error ≠ none := by
  intro he
  exact h ((C82_exact_partial junk e).1 he).z.1

/-- A run with a subset gives such a model: two rows of `z` and three labels. -/
example : ∀ d, Runner.contents (Runner.runAll (Pipeline.runner Pipeline.defaultStages
      Pipeline.defaultSchedule (Pipeline.rowRun Pipeline.subsetEnv)) Runner.State.init
      (Pipeline.rowArgs [7, 8, 9])) = .ok d →
    d .z = some (.inst [7, 9]) ∧ d .inst_labels = some (.inst [7, 8, 9]) := by
  intro d hd
  have h := (Pipeline.run_rows _ [7, 8, 9] Pipeline.defaultStages (.refl _) Pipeline.listOrder _
    Pipeline.default_once d hd).2
  simp only [Pipeline.evalNames, List.map_cons, List.map_nil, List.replicate, List.cons_append,
    List.nil_append, List.cons.injEq, and_true] at h
  exact ⟨h.2.2.2.2.2.2.2.2.2.2.1, h.2.2.2.2.2.2.2.2.2.2.2.2.2.2⟩

/-- **C82, no directory.**  Without a directory nothing is written and the error is a `ValueError`. -/
theorem C82_directory_partial {α : Type} (junk : α × α) (e : Export α) :
    (saveCsv junk false e).files = [] ∧ (saveCsv junk false e).error = some .valueError := ⟨rfl, rfl⟩

/-! ### C83 -/

/-- The property for one output directory: every file that is not ignored is in the archive. -/
def Archived {β : Type} (zipName : String) (files : List (Entry β)) : Prop :=
  ∀ f ∈ files, f.name ≠ ".gitignore" → f.name ≠ zipName →
    onDisk (zipEntries zipName files) ("output/" ++ f.name) = some f.content

/-- **C83** is false: of two files with one name in two directories only one survives. -/
theorem C83_refuted : ¬ Archived "out.zip"
    [⟨["run1"], "coordinates.csv", 1⟩, ⟨["run2"], "coordinates.csv", 2⟩] := by
  intro h
  have h := h ⟨["run1"], "coordinates.csv", 1⟩ (by simp) (by decide) (by decide)
  exact absurd h (by decide +kernel)

/-- **C83, true part.**  If the names of the files that are not ignored differ, unpacking restores
all of them.  Missing: equal names in different directories. -/
theorem C83_partial {β : Type} (zipName : String) (files : List (Entry β))
    (h : ((files.filter fun f => decide (f.name ≠ ".gitignore" ∧ f.name ≠ zipName)).map (·.name)).Nodup) :
    Archived zipName files := by
  intro f hf h1 h2
  have hfilter : (files.filter fun f => !(f.name = ".gitignore" || f.name = zipName)) =
      files.filter fun f => decide (f.name ≠ ".gitignore" ∧ f.name ≠ zipName) := by
    refine List.filter_congr fun g _ => ?_
    by_cases a : g.name = ".gitignore" <;> by_cases b : g.name = zipName <;> simp [a, b]
  refine onDisk_of_nodup ?_ ?_
  · unfold zipEntries
    rw [hfilter, List.map_map]
    have : ((fun x : String × β => x.1) ∘ fun f : Entry β => ("output/" ++ f.name, f.content)) =
        (fun s => "output/" ++ s) ∘ fun f : Entry β => f.name := rfl
    rw [this, ← List.map_map]
    refine h.map ?_
    intro a b hab
    have := congrArg String.toList hab
    simp only [String.toList_append] at this
    exact String.toList_inj.1 (List.append_cancel_left this)
  · unfold zipEntries
    rw [hfilter]
    exact List.mem_map.2 ⟨f, List.mem_filter.2 ⟨hf, by simp [h1, h2]⟩, rfl⟩

example : (([⟨[], "coordinates.csv", 1⟩, ⟨[], "out.zip", 7⟩, ⟨["plots"], "a.png", 2⟩,
    ⟨["plots"], ".gitignore", 7⟩, ⟨[], ".gitignore", 7⟩] : List (Entry Nat)).filter
      fun f => decide (f.name ≠ ".gitignore" ∧ f.name ≠ "out.zip")).map (·.name) =
    ["coordinates.csv", "a.png"] := by decide +kernel

/-- **C83, nothing else.**  The archive contains no ignored file and nothing that is not in the
directory, whatever the names. -/
theorem C83_contents_partial {β : Type} (zipName : String) (files : List (Entry β)) (n : String) (v : β)
    (h : onDisk (zipEntries zipName files) n = some v) :
    ∃ f ∈ files, n = "output/" ++ f.name ∧ f.content = v ∧ f.name ≠ ".gitignore" ∧ f.name ≠ zipName := by
  unfold onDisk at h
  obtain ⟨a, ha, rfl⟩ := Option.map_eq_some_iff.1 h
  have hm := List.mem_of_find?_eq_some ha
  have hn := List.find?_some ha
  rw [List.mem_reverse] at hm
  obtain ⟨f, hf, rfl⟩ := List.mem_map.1 hm
  obtain ⟨hf1, hf2⟩ := List.mem_filter.1 hf
  simp only [Bool.not_eq_true', Bool.or_eq_false_iff, decide_eq_false_iff_not] at hf2
  exact ⟨f, hf1, (of_decide_eq_true hn).symm, rfl, hf2.1, hf2.2⟩

end Verif.Export
