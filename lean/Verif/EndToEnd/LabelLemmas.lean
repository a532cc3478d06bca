import Verif.EndToEnd.TraceLemmas
import Verif.EndToEnd.Lemmas
import Verif.EndToEnd.SpecLabels
import Verif.Metadata.Props
/-! The stages carry labels and sources along without looking at them. -/
set_option autoImplicit false
set_option linter.unusedSectionVars false

namespace Verif.EndToEnd

open Verif (Num)
open Verif.Pipeline (Stg Name inputs outputs runner)
open Verif.Preprocessing (Mat)
open Verif.Metadata (Table Squeezed Begins)
open Verif.Runner (Dict override applyAll applyStage RunError Pipeline)

variable {V V' W G : Type}

/-- A value with its labels and sources replaced. -/
def Val.relabel (f : V → V') (g : Option (List V) → Option (List V')) : Val V W → Val V' W
  | .names l => .names l
  | .labels l => .labels (l.map f)
  | .sources s => .sources (g s)
  | .table m => .table m
  | .verdicts l => .verdicts l
  | .numbers l => .numbers l
  | .counts l => .counts l
  | .flags l => .flags l
  | .dense b => .dense b
  | .frame t => .frame t
  | .other w => .other w

/-- Outputs with their labels and sources replaced. -/
def relabelOut (f : V → V') (g : Option (List V) → Option (List V')) (out : List (Name × Val V W)) : List (Name × Val V' W) :=
  out.map fun p => (p.1, p.2.relabel f g)

section inversion
variable {f : V → V'} {g : Option (List V) → Option (List V')} {v : Val V W}

theorem relabel_names {l : List String} : v.relabel f g = .names l ↔ v = .names l := by
  cases v <;> simp [Val.relabel]
theorem relabel_labels {l : List V'} : v.relabel f g = .labels l ↔ ∃ l', v = .labels l' ∧ l'.map f = l := by
  cases v <;> simp [Val.relabel]
theorem relabel_sources {s : Option (List V')} :
    v.relabel f g = .sources s ↔ ∃ s' : Option (List V), v = .sources s' ∧ g s' = s := by
  cases v <;> simp [Val.relabel]
theorem relabel_table {m : Mat Num} : v.relabel f g = .table m ↔ v = .table m := by
  cases v <;> simp [Val.relabel]
theorem relabel_verdicts {l : List (List Bool)} : v.relabel f g = .verdicts l ↔ v = .verdicts l := by
  cases v <;> simp [Val.relabel]
theorem relabel_numbers {l : List Num} : v.relabel f g = .numbers l ↔ v = .numbers l := by
  cases v <;> simp [Val.relabel]
theorem relabel_counts {l : List Nat} : v.relabel f g = .counts l ↔ v = .counts l := by
  cases v <;> simp [Val.relabel]
theorem relabel_flags {l : List Bool} : v.relabel f g = .flags l ↔ v = .flags l := by
  cases v <;> simp [Val.relabel]
theorem relabel_dense {b : Bool} : v.relabel f g = .dense b ↔ v = .dense b := by
  cases v <;> simp [Val.relabel]

end inversion

/-! ### The late stages -/

theorem pilotOut_relabel (f : V → V') (g : Option (List V) → Option (List V')) {le : Late V W} {le' : Late V' W}
    (h : le'.fill = le.fill) {p n q : Nat} (gap : Fin p → Fin q → Bool) (o : Pilot.Out ℚ p n q) :
    pilotOut le' gap o = relabelOut f g (pilotOut le gap o) := by
  obtain ⟨x0, alpha, eoptim, perf, -⟩ := o
  unfold pilotOut
  rw [h]
  cases x0 <;> cases alpha <;> cases eoptim <;> cases perf <;> rfl

theorem runPilot_relabel (f : V → V') (g : Option (List V) → Option (List V')) {le : Late V W} {le' : Late V' W}
    (h1 : le'.pilotOpts = le.pilotOpts) (h2 : ∀ {p n q : Nat} (x : Matrix (Fin p) (Fin n) ℚ),
      le'.pilotLib (q := q) x = le.pilotLib x) (h3 : le'.fill = le.fill) (vs : List (Val V W)) :
    runPilot le' (vs.map (Val.relabel f g)) = (runPilot le vs).map (relabelOut f g) := by
  unfold runPilot
  split
  · rename_i x y feat o h
    simp only [List.map_eq_cons_iff, List.map_eq_nil_iff, relabel_table, relabel_names] at h
    obtain ⟨_, _, rfl, rfl, _, _, rfl, rfl, _, _, rfl, rfl, o', _, rfl, -, rfl⟩ := h
    dsimp only
    split
    · rw [h1, h2]
      cases Pilot.pilotGaps (le.pilotLib (entries x x.rows.length x.ncols))
          (entries x x.rows.length x.ncols) (entries y x.rows.length y.ncols)
          (gapsOf y x.rows.length y.ncols) feat (le.pilotOpts x.ncols y.ncols) with
      | error e => rfl
      | ok o => exact congrArg Except.ok (pilotOut_relabel f g h3 _ o)
    · rfl
  · rename_i h
    split
    · rename_i x y feat o
      exact (h x y feat (o.relabel f g) rfl).elim
    · rfl

theorem runCloister_relabel (f : V → V') (g : Option (List V) → Option (List V')) {le : Late V W} {le' : Late V' W}
    (h1 : le'.qhull = le.qhull) (h2 : ∀ {m : Nat} (l : List (Fin m → ℚ)), le'.pearson l = le.pearson l)
    (h3 : le'.pThr = le.pThr) (h4 : le'.cThr = le.cThr) (vs : List (Val V W)) :
    runCloister le' (vs.map (Val.relabel f g)) = (runCloister le vs).map (relabelOut f g) := by
  unfold runCloister
  split
  · rename_i x a o h
    simp only [List.map_eq_cons_iff, List.map_eq_nil_iff, relabel_table] at h
    obtain ⟨_, _, rfl, rfl, _, _, rfl, rfl, o', _, rfl, -, rfl⟩ := h
    dsimp only
    split
    · rw [h1, h3, h4]
      cases List.ofFn (entries x x.rows.length x.ncols) with
      | nil => rfl
      | cons r l =>
        dsimp only
        rw [h2]
        split <;> rfl
    · rfl
  · rename_i h
    split
    · rename_i x a o
      exact (h x a (o.relabel f g) rfl).elim
    · rfl

theorem runPythia_relabel (f : V → V') (g : Option (List V) → Option (List V')) {le : Late V W} {le' : Late V' W}
    (h1 : le'.pythiaLib = le.pythiaLib) (h2 : le'.fitted = le.fitted) (h3 : le'.fill = le.fill)
    (h4 : le'.useWeights = le.useWeights) (vs : List (Val V W)) :
    runPythia le' (vs.map (Val.relabel f g)) = (runPythia le vs).map (relabelOut f g) := by
  unfold runPythia
  split
  · rename_i z y b best algo o1 o2 h
    simp only [List.map_eq_cons_iff, List.map_eq_nil_iff, relabel_table, relabel_names, relabel_verdicts,
      relabel_numbers] at h
    obtain ⟨_, _, rfl, rfl, _, _, rfl, rfl, _, _, rfl, rfl, _, _, rfl, rfl, _, _, rfl, rfl, o', _, rfl, -,
      o'', _, rfl, -, rfl⟩ := h
    dsimp only
    rw [h1, h2, h4]
    cases Pythia.weightMatrix le.useWeights b.length y.ncols y.rows with
    | error e => rfl
    | ok w =>
      dsimp only
      cases Pythia.pythia le.pythiaLib y.ncols algo y.rows b best (le.fitted z y b) with
      | error e => rfl
      | ok o =>
        dsimp only
        unfold pythiaOut
        rw [h3]
        rfl
  · rename_i h
    split
    · rename_i z y b best algo o1 o2
      exact (h z y b best algo (o1.relabel f g) (o2.relabel f g) rfl).elim
    · rfl

theorem runTrace_relabel (f : V → V') (g : Option (List V) → Option (List V')) (te : TraceEnv G) (vs : List (Val V (Kept G))) :
    runTrace te (vs.map (Val.relabel f g)) = (runTrace te vs).map (relabelOut f g) := by
  unfold runTrace
  split
  · rename_i z sel p beta algo yHat yBin o1 o2 h
    simp only [List.map_eq_cons_iff, List.map_eq_nil_iff, relabel_table, relabel_names, relabel_verdicts,
      relabel_counts, relabel_flags] at h
    obtain ⟨_, _, rfl, rfl, _, _, rfl, rfl, _, _, rfl, rfl, _, _, rfl, rfl, _, _, rfl, rfl, _, _, rfl, rfl,
      _, _, rfl, rfl, o', _, rfl, -, o'', _, rfl, -, rfl⟩ := h
    dsimp only
    generalize (if te.useSim then yHat else yBin) = yb
    generalize (if te.useSim then sel else p) = q
    split
    · cases footprints te (z.rows.map place) yb q beta algo <;> rfl
    · rfl
  · rename_i h
    split
    · rename_i z sel p beta algo yHat yBin o1 o2
      exact (h z sel p beta algo yHat yBin (o1.relabel f g) (o2.relabel f g) rfl).elim
    · rfl

/-! ### The first three stages -/

theorem mask_map {α β : Type} (f : α → β) (l : List α) (idx : List Bool) :
    Preprocessing.mask (l.map f) idx = (Preprocessing.mask l idx).map f := by
  simp only [Preprocessing.mask, List.map_map]
  rw [← List.map_id idx, List.zip_map, List.filter_map, List.map_map, List.map_id]
  rfl

theorem mask_map' {α β : Type} (f : α → β) (l : List α) (idx : List Bool) :
    Prelim.mask (l.map f) idx = (Prelim.mask l idx).map f := by
  simp only [Prelim.mask, List.map_map]
  rw [← List.map_id idx, List.zip_map, List.filter_map, List.map_map, List.map_id]
  rfl

/-- Sources are replaced row by row, or dropped. -/
structure Carries (g : Option (List V) → Option (List V')) : Prop where
  mask : ∀ s idx, g (s.map (Preprocessing.mask · idx)) = (g s).map (Preprocessing.mask · idx)
  mask' : ∀ s idx, g (s.map (Prelim.mask · idx)) = (g s).map (Prelim.mask · idx)

theorem carries_map (g : V → V') : Carries (fun s : Option (List V) => s.map (·.map g)) :=
  ⟨fun s idx => by simp only [Option.map_map, Function.comp_def, mask_map],
    fun s idx => by simp only [Option.map_map, Function.comp_def, mask_map']⟩

theorem carries_none : Carries (fun _ : Option (List V) => (none : Option (List V'))) :=
  ⟨fun _ _ => rfl, fun _ _ => rfl⟩

/-- The data of Preprocessing with labels and sources replaced. -/
def relabelData {X L : Type} (f : V → V') (g : Option (List V) → Option (List V')) (d : Preprocessing.Data X L V V) : Preprocessing.Data X L V' V' :=
  ⟨d.x, d.y, g d.s, d.feat, d.inst.map f⟩

theorem preprocessing_relabel {X L : Type} [DecidableEq L] (f : V → V') (g : Option (List V) → Option (List V')) (hg : Carries g) (nan : X → Bool)
    (d : Preprocessing.Data X L V V) (algo : List L) (feats algos : Option (List L)) :
    Preprocessing.run nan (relabelData f g d) algo feats algos =
      (Preprocessing.run nan d algo feats algos).map fun o => ⟨relabelData f g o.data, o.algo⟩ := by
  have rows : ∀ d : Preprocessing.Data X L V V,
      Preprocessing.removeRows nan (relabelData f g d) = relabelData f g (Preprocessing.removeRows nan d) := by
    intro d
    unfold Preprocessing.removeRows
    dsimp only [relabelData]
    split
    · simp only [mask_map, hg.mask]
    · rfl
  have cols : ∀ d : Preprocessing.Data X L V V,
      Preprocessing.removeCols nan (relabelData f g d) = relabelData f g (Preprocessing.removeCols nan d) := by
    intro d
    unfold Preprocessing.removeCols
    dsimp only [relabelData]
    split <;> rfl
  have miss : ∀ d : Preprocessing.Data X L V V,
      Preprocessing.removeMissing nan (relabelData f g d) =
        (Preprocessing.removeMissing nan d).map (relabelData f g) := by
    intro d
    unfold Preprocessing.removeMissing
    rw [rows, cols]
    dsimp only
    have : (relabelData f g (Preprocessing.removeCols nan (Preprocessing.removeRows nan d))).x =
      (Preprocessing.removeCols nan (Preprocessing.removeRows nan d)).x := rfl
    rw [this]
    split <;> rfl
  unfold Preprocessing.run
  have e1 : Preprocessing.select (relabelData f g d).x (relabelData f g d).feat feats =
    Preprocessing.select d.x d.feat feats := rfl
  have e2 : Preprocessing.select (relabelData f g d).y algo algos =
    Preprocessing.select d.y algo algos := rfl
  rw [e1, e2]
  cases Preprocessing.select d.x d.feat feats with
  | error e => rfl
  | ok p =>
    obtain ⟨x, feat⟩ := p
    cases Preprocessing.select d.y algo algos with
    | error e => rfl
    | ok p =>
      obtain ⟨y, algo⟩ := p
      dsimp only
      have := miss { d with x := x, y := y, feat := feat }
      change Preprocessing.removeMissing nan (relabelData f g { d with x := x, y := y, feat := feat }) = _
        at this
      have e3 : ({ relabelData f g d with x := x, y := y, feat := feat } : Preprocessing.Data X L V' V') =
        relabelData f g { d with x := x, y := y, feat := feat } := rfl
      rw [e3, this]
      cases Preprocessing.removeMissing nan { d with x := x, y := y, feat := feat } <;> rfl

theorem runPreprocessing_relabel (f : V → V') (g : Option (List V) → Option (List V')) (hg : Carries g) {env : Env V W} {env' : Env V' W}
    (h1 : env'.feats = env.feats) (h2 : env'.algos = env.algos) (vs : List (Val V W)) :
    runPreprocessing env' (vs.map (Val.relabel f g)) = (runPreprocessing env vs).map (relabelOut f g) := by
  unfold runPreprocessing
  split
  · rename_i feat algo inst s x y o h
    simp only [List.map_eq_cons_iff, List.map_eq_nil_iff, relabel_table, relabel_names, relabel_labels,
      relabel_sources] at h
    obtain ⟨_, _, rfl, rfl, _, _, rfl, rfl, _, _, rfl, ⟨inst, rfl, rfl⟩, _, _, rfl, ⟨s, rfl, rfl⟩, _, _, rfl,
      rfl, _, _, rfl, rfl, o', _, rfl, -, rfl⟩ := h
    dsimp only
    rw [h1, h2]
    have := preprocessing_relabel f g hg Num.isNan ⟨x, y, s, feat, inst⟩ algo env.feats env.algos
    simp only [relabelData] at this
    rw [this]
    cases Preprocessing.run Num.isNan ⟨x, y, s, feat, inst⟩ algo env.feats env.algos <;> rfl
  · rename_i h
    split
    · rename_i feat algo inst s x y o
      exact (h feat algo (inst.map f) (g s) x y (o.relabel f g) rfl).elim
    · rfl

theorem filter_relabel {X Y B N T P : Type} (f : V → V') (g : Option (List V) → Option (List V')) (hg : Carries g) (o : Prelim.SubsetOpts)
    (tests : Filter.Tests (X × Y × B)) (n : Nat) (split : Option (List Nat)) (file : Option (List Int))
    (a : Prelim.Arrays X Y B N T P V V) :
    Prelim.filter o tests n split file { a with inst := a.inst.map f, s := g a.s } =
      (Prelim.filter o tests n split file a).map fun r =>
        ({ r.1 with inst := r.1.inst.map f, s := g r.1.s },
          r.2.map fun b => { b with inst := b.inst.map f, s := g b.s }) := by
  unfold Prelim.filter
  have : Prelim.subsetIndex o tests n split file
      { a with inst := a.inst.map f, s := g a.s } =
      Prelim.subsetIndex o tests n split file a := rfl
  rw [this]
  cases Prelim.subsetIndex o tests n split file a with
  | error e => rfl
  | ok m =>
    dsimp only
    split
    · simp only [mask_map', ← hg.mask', Except.map]
      split <;> rfl
    · rfl

theorem runPrelim_relabel (f : V → V') (g : Option (List V) → Option (List V')) (hg : Carries g) {env : Env V W} {env' : Env V' W}
    (h1 : env'.prelim = env.prelim) (h2 : env'.tr = env.tr) (h3 : env'.subset = env.subset)
    (h4 : env'.tests = env.tests) (h5 : env'.split = env.split) (h6 : env'.file = env.file)
    (h7 : env'.junk = env.junk) (h8 : env'.mid = env.mid) (h9 : env'.fit = env.fit) (vs : List (Val V W)) :
    runPrelim env' (vs.map (Val.relabel f g)) = (runPrelim env vs).map (relabelOut f g) := by
  unfold runPrelim
  split
  · rename_i x y xRaw yRaw s inst o1 o2 h
    simp only [List.map_eq_cons_iff, List.map_eq_nil_iff, relabel_table, relabel_labels,
      relabel_sources] at h
    obtain ⟨_, _, rfl, rfl, _, _, rfl, rfl, _, _, rfl, rfl, _, _, rfl, rfl, _, _, rfl, ⟨s, rfl, rfl⟩, _, _,
      rfl, ⟨inst, rfl, rfl⟩, o', _, rfl, -, o'', _, rfl, -, rfl⟩ := h
    dsimp only
    unfold recorded
    rw [h1, h2, h3, h4, h5, h6, h7, h8, h9]
    cases Prelim.rows env.prelim y.rows with
    | none => cases Prelim.outY env.prelim env.tr y.ncols y.rows <;> rfl
    | some outs =>
      cases Prelim.outY env.prelim env.tr y.ncols y.rows with
      | none => rfl
      | some ys =>
        dsimp only
        have := filter_relabel f g hg env.subset env.tests x.ncols env.split env.file
          { x := rowsOf x.rows.length
              (Prelim.outX env.prelim env.junk env.tr (Prelim.columns x.ncols x.rows))
            y := rowsOf y.rows.length ys
            xRaw := xRaw.rows
            yRaw := Prelim.yRawOut env.prelim (fun _ => yRaw.rows) 0 0
            yBin := outs.map (·.yBin), beta := outs.map (·.beta), numGood := outs.map (·.numGood)
            yBest := outs.map (·.yBest), p := outs.map (·.p), inst, s }
        simp only at this
        rw [this]
        generalize Prelim.filter env.subset env.tests x.ncols env.split env.file
          { x := rowsOf x.rows.length
              (Prelim.outX env.prelim env.junk env.tr (Prelim.columns x.ncols x.rows))
            y := rowsOf y.rows.length ys
            xRaw := xRaw.rows
            yRaw := Prelim.yRawOut env.prelim (fun _ => yRaw.rows) 0 0
            yBin := outs.map (·.yBin), beta := outs.map (·.beta), numGood := outs.map (·.numGood)
            yBest := outs.map (·.yBest), p := outs.map (·.p), inst, s } = r
        cases r with
        | error e => rfl
        | ok r =>
          obtain ⟨a, dense⟩ := r
          cases dense <;> rfl
  · rename_i h
    split
    · rename_i x y xRaw yRaw s inst o1 o2
      exact (h x y xRaw yRaw (g s) (inst.map f) (o1.relabel f g) (o2.relabel f g) rfl).elim
    · rfl

theorem runSifted_relabel (f : V → V') (g : Option (List V) → Option (List V')) {env : Env V W} {env' : Env V' W}
    (h1 : env'.lib = env.lib) (h2 : env'.pearson = env.pearson) (h3 : env'.thr = env.thr)
    (h4 : env'.clusters = env.clusters) (h5 : env'.subset = env.subset) (h6 : env'.fill = env.fill)
    (vs : List (Val V W)) :
    runSifted env' (vs.map (Val.relabel f g)) = (runSifted env vs).map (relabelOut f g) := by
  unfold runSifted
  split
  · rename_i x y yb v2 v3 v4 v5 v6 v7 v8 feat v9 o1 o2 b o3 h
    simp only [List.map_eq_cons_iff, List.map_eq_nil_iff, relabel_table, relabel_names,
      relabel_verdicts, relabel_dense] at h
    obtain ⟨_, _, rfl, rfl, _, _, rfl, rfl, _, _, rfl, rfl, w2, _, rfl, rfl, w3, _, rfl, rfl, w4, _, rfl,
      rfl, w5, _, rfl, rfl, w6, _, rfl, rfl, w7, _, rfl, rfl, w8, _, rfl, rfl, _, _, rfl, rfl, w9, _, rfl,
      rfl, u1, _, rfl, -, u2, _, rfl, -, _, _, rfl, rfl, u3, _, rfl, -, rfl⟩ := h
    dsimp only
    have hcorr : correlations env' x y yb = correlations env x y yb := by
      unfold correlations
      rw [h1, h2, h3]
    rw [hcorr, h1, h3, h4, h5]
    cases correlations env x y yb with
    | error e => rfl
    | ok c =>
    dsimp only
    cases Sifted.sifted (env.lib x y yb) ((c.map (·.rho)).getD []) env.thr env.clusters y.ncols
        (Prelim.columns x.ncols x.rows) feat (env.subset.byDensity && b) with
    | error e => rfl
    | ok o =>
      change Except.ok _ = Except.ok _
      unfold grounds
      rw [h6]
      cases c <;> cases hs : o.silhouettes <;> cases hcl : o.clust <;>
        simp [relabelOut, Val.relabel]
  · rename_i h
    split
    · rename_i x y v1 v2 v3 v4 v5 v6 v7 v8 feat v9 o1 o2 b o3
      exact (h x y _ _ _ _ _ _ _ _ feat _ _ _ b _ rfl).elim
    · rfl

/-! ### The pipeline -/

/-- The last stages with other types of labels. -/
def Late.retype (le : Late V (Kept G)) (te : TraceEnv G) : Late V' (Kept G) where
  pilotLib := le.pilotLib
  pilotOpts := le.pilotOpts
  pearson := le.pearson
  qhull := le.qhull
  pThr := le.pThr
  cThr := le.cThr
  pythiaLib := le.pythiaLib
  useWeights := le.useWeights
  fitted := le.fitted
  fill := le.fill
  trace := runTrace te

/-- The stages with other types of labels. -/
def Env.retype (env : Env V (Kept G)) (le : Nat → Late V (Kept G)) (te : Nat → TraceEnv G) :
    Env V' (Kept G) where
  feats := env.feats
  algos := env.algos
  prelim := env.prelim
  junk := env.junk
  tr := env.tr
  mid := env.mid
  fit := env.fit
  subset := env.subset
  tests := env.tests
  split := env.split
  file := env.file
  lib := env.lib
  pearson := env.pearson
  thr := env.thr
  clusters := env.clusters
  fill := env.fill
  rest k s vs := runLate ((le k).retype (te k)) s vs

theorem runLate_relabel (f : V → V') (g : Option (List V) → Option (List V')) {le : Late V' (Kept G)} {te : TraceEnv G}
    (ht : le.trace = runTrace te) (s : Stg) (vs : List (Val V (Kept G))) :
    runLate le s (vs.map (Val.relabel f g)) = (runLate (le.retype te) s vs).map (relabelOut f g) := by
  cases s with
  | pilot => exact runPilot_relabel f g (le := le.retype te) rfl (fun _ => rfl) rfl vs
  | pythia => exact runPythia_relabel f g (le := le.retype te) rfl rfl rfl rfl vs
  | cloister => exact runCloister_relabel f g (le := le.retype te) rfl (fun _ => rfl) rfl rfl vs
  | trace =>
    change le.trace _ = _
    rw [ht]
    exact runTrace_relabel f g te vs
  | _ => rfl

theorem run_relabel (f : V → V') (g : Option (List V) → Option (List V')) (hg : Carries g) {env : Env V' (Kept G)} {le : Nat → Late V' (Kept G)}
    {te : Nat → TraceEnv G} (hc : CompleteTrace env le te) (k : Nat) (s : Stg)
    (vs : List (Val V (Kept G))) :
    run env k s (vs.map (Val.relabel f g)) =
      (run (env.retype le te) k s vs).map (relabelOut f g) := by
  cases s with
  | preprocessing => exact runPreprocessing_relabel f g hg (env := env.retype le te) rfl rfl vs
  | prelim =>
    exact runPrelim_relabel f g hg (env := env.retype le te) rfl rfl rfl rfl rfl rfl rfl rfl rfl vs
  | sifted => exact runSifted_relabel f g (env := env.retype le te) rfl rfl rfl rfl rfl rfl vs
  | _ => exact (hc.stages _ _ _).trans (runLate_relabel f g (hc.trace k) _ vs)

/-- A dictionary with labels and sources replaced. -/
def relabelDict (f : V → V') (g : Option (List V) → Option (List V')) (d : Dict Name (Val V W)) : Dict Name (Val V' W) :=
  fun n => (d n).map (Val.relabel f g)

theorem override_relabel (f : V → V') (g : Option (List V) → Option (List V')) (d : Dict Name (Val V W)) (out : List (Name × Val V W)) :
    override (relabelDict f g d) (relabelOut f g out) = relabelDict f g (override d out) := by
  funext n
  unfold override relabelDict relabelOut
  rw [← List.map_reverse, List.find?_map]
  simp only [Function.comp_def]
  cases out.reverse.find? (fun p => decide (p.1 = n)) <;> rfl

theorem applyAll_relabel (f : V → V') (g : Option (List V) → Option (List V')) (hg : Carries g) {env : Env V' (Kept G)} {le : Nat → Late V' (Kept G)}
    {te : Nat → TraceEnv G} (hc : CompleteTrace env le te) (sched : List (List Stg)) :
    ∀ (ss : List Stg) (k : Nat) (d : Dict Name (Val V (Kept G))),
    applyAll ⟨sched, fun s => (inputs s).map Prod.fst, run env⟩ k ss (relabelDict f g d) =
      (applyAll ⟨sched, fun s => (inputs s).map Prod.fst, run (env.retype le te)⟩ k ss d).map
        (relabelDict f g) := by
  intro ss
  induction ss with
  | nil => intro k d; rfl
  | cons s ss ih =>
    intro k d
    have one : applyStage ⟨sched, fun s => (inputs s).map Prod.fst, run env⟩ k s (relabelDict f g d) =
        (applyStage ⟨sched, fun s => (inputs s).map Prod.fst, run (env.retype le te)⟩ k s d).map
          (relabelDict f g) := by
      unfold applyStage
      dsimp only
      have e1 : ((inputs s).map Prod.fst).find? (fun n => ((relabelDict f g d) n).isNone) =
          ((inputs s).map Prod.fst).find? (fun n => (d n).isNone) := by
        congr 1
        funext n
        simp [relabelDict]
      have e2 : ((inputs s).map Prod.fst).filterMap (relabelDict f g d) =
          (((inputs s).map Prod.fst).filterMap d).map (Val.relabel f g) := by
        rw [List.map_filterMap]
        rfl
      rw [e1, e2, run_relabel f g hg hc]
      cases ((inputs s).map Prod.fst).find? (fun n => (d n).isNone) with
      | some n => rfl
      | none =>
        dsimp only
        cases run (env.retype le te) k s (((inputs s).map Prod.fst).filterMap d) with
        | error e => rfl
        | ok out =>
          change Except.ok (override _ (relabelOut f g out)) = Except.ok _
          rw [override_relabel]
    simp only [applyAll]
    rw [one]
    cases applyStage ⟨sched, fun s => (inputs s).map Prod.fst, run (env.retype le te)⟩ k s d with
    | error e => rfl
    | ok d' => exact ih (k + 1) d'

/-! ### The initial values -/

/-- The rows of a matrix given by named columns. -/
def rowsIn (n : Nat) (cols : List (String × List Num)) : List (List Num) :=
  (List.range n).map fun i => cols.filterMap fun c => c.2[i]?

theorem numbersOf_loc (lower : String → String) (num : V → Num) (p : String) (t : Table V) :
    ((t.loc fun s => Metadata.hasPrefix p (lower s)).cols.map Prod.fst =
        (numbersOf lower num p t).map Prod.fst) ∧
      (t.loc fun s => Metadata.hasPrefix p (lower s)).toNumpy.map (·.map num) =
        rowsIn t.nrows (numbersOf lower num p t) := by
  have e : (t.loc fun s => Metadata.hasPrefix p (lower s)).cols =
      t.cols.filter fun c => @decide (Begins lower p c.1) (Classical.propDecidable _) := by
    simp only [Table.loc]
    apply List.filter_congr
    intro c _
    rw [Bool.eq_iff_iff, Metadata.hasPrefix_iff]
    exact (@decide_eq_true_iff _ (Classical.propDecidable _)).symm
  unfold numbersOf
  constructor
  · rw [e, List.map_map]; rfl
  · unfold Table.toNumpy rowsIn Table.row
    rw [e, List.map_map]
    apply List.map_congr_left
    intro i _
    simp only [Function.comp_def, List.map_filterMap, List.filterMap_map, List.getElem?_map]

/-- The initial values with the numbers of rows for labels and sources. -/
def baseArgs (n : Nat) (feats algos : List (String × List Num)) (fill : Name → W) :
    Dict Name (Val (Fin n) W)
  | .feature_names => some (.names (feats.map Prod.fst))
  | .algorithm_names => some (.names (algos.map Prod.fst))
  | .instance_labels => some (.labels (List.finRange n))
  | .instance_sources => some (.sources (some (List.finRange n)))
  | .features => some (.table ⟨feats.length, rowsIn n feats⟩)
  | .algorithms => some (.table ⟨algos.length, rowsIn n algos⟩)
  | m => if m ∈ Pipeline.initial.map Prod.fst then some (.other (fill m)) else none

theorem squeeze_single {t : Table V} {name : String} {l : List V} (h : t.cols = [(name, l)])
    (hn : t.nrows ≠ 1) : t.squeeze = .series l := by
  unfold Table.squeeze
  rw [h]
  dsimp only
  split
  · rename_i h' ; exact absurd h' hn
  · rfl

theorem args_base {lower : String → String} {numeric : Squeezed V → Bool} {str : V → V} {num : V → Num}
    {env : Env V W} {t : Table V} {labels L : List V} {sources : Option (List V)}
    (hn : t.nrows ≠ 1) (hl : ∃ name, (t.cols.filter fun c => lower c.1 == "instances") = [(name, labels)])
    (hs : SourcesAre lower t sources) (hL : L = if numeric (.series labels) then labels.map str else labels)
    {f : Fin t.nrows → V} {g : Option (List (Fin t.nrows)) → Option (List V)}
    (hf : (List.finRange t.nrows).map f = L) (hg : g (some (List.finRange t.nrows)) = sources) :
    args env num (Metadata.fromDataFrame lower numeric str t) =
      relabelDict f g (baseArgs t.nrows (numbersOf lower num "feature_" t)
        (numbersOf lower num "algo_" t) env.fill) := by
  have hlab : (Metadata.fromDataFrame lower numeric str t).labels = .series L := by
    obtain ⟨name, hl⟩ := hl
    simp only [Metadata.fromDataFrame]
    rw [squeeze_single (t := t.loc (Metadata.isName lower)) (l := labels) (name := name) hl hn]
    rw [hL]
    split <;> rfl
  have esrc : (Metadata.fromDataFrame lower numeric str t).sources = sources.map .series := by
    simp only [Metadata.fromDataFrame]
    cases sources with
    | none =>
      have : (t.cols.any fun c => Metadata.isSource lower c.1) = false := by
        rw [List.any_eq_false]
        intro c hc h
        have hm : c ∈ t.cols.filter fun c => lower c.1 == "source" := List.mem_filter.2 ⟨hc, h⟩
        rw [hs] at hm
        cases hm
      rw [this]; rfl
    | some s =>
      obtain ⟨name, hs⟩ := hs
      have : (t.cols.any fun c => Metadata.isSource lower c.1) = true := by
        rw [List.any_eq_true]
        have hm : (name, s) ∈ t.cols.filter fun c => lower c.1 == "source" := by rw [hs]; simp
        exact ⟨_, (List.mem_filter.1 hm).1, (List.mem_filter.1 hm).2⟩
      rw [this]
      rw [if_pos rfl, squeeze_single (t := t.loc (Metadata.isSource lower)) (l := s) (name := name) hs hn]
      rfl
  have ef := numbersOf_loc lower num "feature_" t
  have ea := numbersOf_loc lower num "algo_" t
  funext n
  unfold args relabelDict baseArgs
  cases n with
  | feature_names => exact congrArg (fun l => some (Val.names l)) ef.1
  | algorithm_names => exact congrArg (fun l => some (Val.names l)) ea.1
  | instance_labels => dsimp only; rw [hlab]; simp only [Option.map_some, Val.relabel, hf]
  | instance_sources =>
    dsimp only; rw [esrc]
    simp only [Option.map_some, Val.relabel, hg]
    cases sources <;> rfl
  | features =>
    dsimp only
    simp only [Option.map_some, Val.relabel, Option.some.injEq, Val.table.injEq, Mat.mk.injEq]
    refine ⟨?_, ef.2⟩
    have := congrArg List.length ef.1
    rw [List.length_map, List.length_map] at this
    exact (List.length_map _).trans this
  | algorithms =>
    dsimp only
    simp only [Option.map_some, Val.relabel, Option.some.injEq, Val.table.injEq, Mat.mk.injEq]
    refine ⟨?_, ea.2⟩
    have := congrArg List.length ea.1
    rw [List.length_map, List.length_map] at this
    exact (List.length_map _).trans this
  | _ =>
    dsimp only
    split <;> rfl

/-! ### Two relabellings of the same value -/

theorem map_finRange {n : Nat} {L : List V} (h : L.length = n) :
    ∃ f : Fin n → V, (List.finRange n).map f = L := by
  subst h
  exact ⟨fun i => L[i], by simp⟩

theorem places {n : Nat} {f f' : Fin n → V} (idx : List (Fin n)) :
    SamePlaces ((List.finRange n).map f) ((List.finRange n).map f') (idx.map f) (idx.map f') := by
  refine ⟨idx.map Fin.val, ?_, ?_⟩ <;>
  · rw [List.map_map, List.map_map]
    apply List.map_congr_left
    intro i _
    simp

theorem alike_relabel {n : Nat} {f f' : Fin n → V} {g g' : Option (List (Fin n)) → Option (List V)}
    {S S' : Option (List V)}
    (hg : (∃ h h', S = some ((List.finRange n).map h) ∧ S' = some ((List.finRange n).map h') ∧
      g = (fun s => s.map (·.map h)) ∧ g' = fun s => s.map (·.map h')) ∨
      (g = fun _ => none) ∧ g' = fun _ => none) (v : Val (Fin n) W) :
    Alike ((List.finRange n).map f) ((List.finRange n).map f') S S' (v.relabel f g) (v.relabel f' g') := by
  cases v with
  | labels l => exact places l
  | sources s =>
    rcases hg with ⟨h, h', rfl, rfl, rfl, rfl⟩ | ⟨rfl, rfl⟩
    · cases s with
      | none => trivial
      | some s => exact ⟨_, _, rfl, rfl, places s⟩
    · trivial
  | _ => rfl

/-- `run_all` as the stages applied to the initial values. -/
theorem contents_apply {env : Env V W} {order : List Stg} {π : Builder.SetOrder Stg}
    {sched : List (List Stg)} (horder : order.Perm Pipeline.defaultStages)
    (hs : Pipeline.buildDefault order π = .ok sched)
    (ops : List (Runner.Op Stg Name (Val V W))) (d : Dict Name (Val V W)) :
    Runner.contents (Runner.runAll (runner order sched (run env))
      (Runner.exec (runner order sched (run env)) ops).st d) =
      applyAll ⟨sched, fun s => (inputs s).map Prod.fst, run env⟩
        (Runner.exec (runner order sched (run env)) ops).st.calls.length sched.flatten d := by
  have hB := (Pipeline.builderOf_tables order horder).1
  have hP : (runner order sched (run env)).Proper := Runner.built_proper hB hs _
  obtain ⟨g1, -⟩ := Runner.runFrom_apply hP (Runner.exec_inv hP.once ops) d sched []
    (by simp [Runner.pipelineOf, runner])
  change Runner.contents (Runner.runFrom _ _ _ sched.flatten) = _
  rw [g1, Pipeline.runner_eq order horder]

end Verif.EndToEnd
