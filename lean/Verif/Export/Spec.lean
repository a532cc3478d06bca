import Verif.Export.Model
/-!
# What is claimed of the exported files, colours and plots
-/
set_option autoImplicit false

namespace Verif.Export

open Verif (Num)

/-! ### Footprints -/

/-- A simple closed ring: it ends where it begins and visits its first vertex nowhere else. -/
def ClosedRing {α : Type} (r : List (α × α)) : Prop := ∃ v body, r = v :: (body ++ [v]) ∧ v ∉ body

/-- A reader of footprint files: rings are read one after another, a ring ends at the second visit
of its first vertex or with the file.  The state is the ring being read: its first vertex and all its
vertices so far. -/
def readRings {α : Type} [DecidableEq α] : Option (α × List α) → List α → List (List α)
  | none, [] => []
  | some (v, seen), [] => [seen ++ [v]]
  | none, p :: l => readRings (some (p, [p])) l
  | some (v, seen), p :: l =>
      if p = v then (seen ++ [v]) :: readRings none l else readRings (some (v, seen ++ [p])) l

/-- The polygons of a geometry. -/
def Geometry.parts {α : Type} : Geometry α → List (Polygon α)
  | .polygon p => [p]
  | .multi ps => ps
  | .other => []

/-! ### Files -/

/-- A matrix with `n` rows and `k` columns. -/
def HasShape {α : Type} (m : List (List α)) (n k : Nat) : Prop := m.length = n ∧ ∀ r ∈ m, r.length = k

/-- Every array of the model fits the names of its rows and columns. -/
structure Fits {α : Type} (e : Export α) : Prop where
  best : ∀ i < e.nalgos, ∃ fp, e.best[i]? = some fp ∧ (fp.isSome → i < e.algoLabels.length)
  good : ∀ i < e.nalgos, ∃ fp, e.good[i]? = some fp ∧ (fp.isSome → i < e.algoLabels.length)
  z : HasShape e.z e.instLabels.length 2
  zEdge : e.zEdge ≠ [] ∧ HasShape e.zEdge e.zEdge.length 2
  zEcorr : e.zEcorr ≠ [] ∧ HasShape e.zEcorr e.zEcorr.length 2
  xRaw : e.xRaw.length = e.instLabels.length
  idx : ∀ r ∈ e.xRaw, (∀ i ∈ e.idx, i < r.length) ∧ e.idx.length = e.featLabels.length
  x : HasShape e.x e.instLabels.length e.featLabels.length
  yRaw : HasShape e.yRaw e.instLabels.length e.algoLabels.length
  y : HasShape e.y e.instLabels.length e.algoLabels.length
  yBin : HasShape e.yBin e.instLabels.length e.algoLabels.length
  numGood : e.numGood.length = e.instLabels.length
  beta : e.beta.length = e.instLabels.length
  p : e.p.length = e.instLabels.length
  yHat : HasShape e.yHat e.instLabels.length e.algoLabels.length
  selection0 : e.selection0.length = e.instLabels.length
  trace : 11 ≤ e.traceSummary.length

/-- The same for the arrays of the web export. -/
structure FitsWeb (e : Export Num) : Prop where
  xRaw : e.xRaw.length = e.instLabels.length
  idx : ∀ r ∈ e.xRaw, (∀ i ∈ e.idx, i < r.length) ∧ e.idx.length = e.featLabels.length
  x : HasShape e.x e.instLabels.length e.featLabels.length
  yRaw : HasShape e.yRaw e.instLabels.length e.algoLabels.length
  y : HasShape e.y e.instLabels.length e.algoLabels.length
  numGood : e.numGood.length = e.instLabels.length

/-- The names of the files other than footprints. -/
def fixedNames : List String :=
  ["coordinates.csv", "bounds.csv", "bounds_prunned.csv", "feature_raw.csv", "feature_process.csv",
   "algorithm_raw.csv", "algorithm_process.csv", "algorithm_bin.csv", "good_algos.csv",
   "beta_easy.csv", "portfolio.csv", "algorithm_svm.csv", "portfolio_svm.csv",
   "footprint_performance.csv", "projection_matrix.csv", "svm_table.csv"]

/-- The content that the property claims of an array file: the named columns and, in the order of the
rows, each row under its name. -/
def Holds {α : Type} (files : List (String × File α)) (name : String) (columns rows : List String)
    (cells : Nat → Nat → Option α) : Prop :=
  ∃ t : Table α, onDisk files name = some (.array t) ∧ t.columns = columns ∧
    t.rows.map (·.1) = rows ∧
    ∀ (i j : Nat), i < rows.length → j < columns.length →
      ∃ v, (t.rows[i]?.bind fun r => r.2[j]?) = some v ∧ cells i j = some v

/-- The names of the points of a boundary: `bnd_pnt_` and the number of the point, from 1. -/
def PointNames (rows : List String) : Prop :=
  ∀ i : Nat, i < rows.length → rows[i]? = some ("bnd_pnt_" ++ toString (i + 1))

/-! ### Colours -/

/-- `out` are colours for the values `vals`: integers from 0 to 255 in the order of the values, 0 for
the least value and 255 for the greatest. -/
def Coloured (vals : List ℚ) (out : List Num) : Prop :=
  ∃ ks : List ℤ, out = ks.map (fun k : ℤ => Num.fin (k : ℚ)) ∧ ks.length = vals.length ∧
    (∀ k ∈ ks, 0 ≤ k ∧ k ≤ 255) ∧
    (∀ (i j : Nat) (a b : ℚ) (k l : ℤ), vals[i]? = some a → vals[j]? = some b → ks[i]? = some k →
      ks[j]? = some l → a ≤ b → k ≤ l) ∧
    (∀ (i : Nat) (a : ℚ) (k : ℤ), vals[i]? = some a → ks[i]? = some k → (∀ b ∈ vals, a ≤ b) → k = 0) ∧
    (∀ (i : Nat) (a : ℚ) (k : ℤ), vals[i]? = some a → ks[i]? = some k → (∀ b ∈ vals, b ≤ a) → k = 255)

/-- A matrix of finite numbers. -/
def finite (m : List (List ℚ)) : List (List Num) := m.map fun r => r.map Num.fin

/-- Column `j` of a matrix of finite numbers. -/
def ratColumn (m : List (List ℚ)) (j : Nat) : List ℚ := m.map fun r => r.getD j 0

/-- A list with two different values. -/
def Varies (l : List ℚ) : Prop := ∃ a ∈ l, ∃ b ∈ l, a < b

/-! ### Plots -/

/-- Instance `t` is drawn with the label `s`. -/
def DrawnAs (groups : List Group) (t : Nat) (s : String) : Prop :=
  ∃ g ∈ groups, g.label = s ∧ t ∈ g.instances

/-- The name of an algorithm as printed in plots: underscores are blanks. -/
def printed (s : String) : String := s.map fun ch => if ch = '_' then ' ' else ch

end Verif.Export
