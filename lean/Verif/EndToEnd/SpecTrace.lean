import Verif.EndToEnd.SpecSvm
import Verif.EndToEnd.Footprints
import Verif.Trace.Spec
/-!
# Specification of the exported footprints
-/
set_option autoImplicit false

namespace Verif.EndToEnd

open Verif (Num)
open Verif.Export (onDisk Holds Geometry)
open Verif.Pythia (share)

variable {V W α G : Type}

/-- The last four stages of the pipeline are PILOT, CLOISTER, PYTHIA and TRACE, whose libraries may behave
differently in each execution `k`; the geometry keeps the laws of plane geometry, and every algorithm is
finished once. -/
structure CompleteTrace (env : Env V (Kept G)) (le : Nat → Late V (Kept G)) (te : Nat → TraceEnv G) :
    Prop where
  stages : ∀ k s vs, env.rest k s vs = runLate (le k) s vs
  trace : ∀ k, (le k).trace = runTrace (te k)
  laws : ∀ k, Trace.Laws (te k).geo
  order : ∀ k n, ((te k).order n).Perm (List.range n)

/-- `files` are what a successful `save_to_csv` of the Model made from the output `d` leaves behind, all
stages included. -/
def SavedAll (tx : Text V α) (outline : G → Geometry α)
    (d : Runner.Dict Pipeline.Name (Val V (Kept G))) (files : List (String × Export.File α)) : Prop :=
  ∃ (junk : α × α) (start rest late e : Export.Export α) (m : Pipeline.ModelObj (Val V (Kept G)) Unit),
    Pipeline.modelOf d () = .ok m ∧ traceOf tx outline start m = some rest ∧
    lateOf tx rest m = some late ∧ exportOf tx late m = some e ∧
    (Export.saveCsv junk true e).error = none ∧ (Export.saveCsv junk true e).files = files

/-- The area of a region; a missing region has none. -/
def areaOf (geo : Trace.Geo G (Fin 2 → ℚ) ℚ) : Option G → ℚ
  | none => 0
  | some g => geo.area g

/-- The instances among the first `n` that lie in the region; `x i` is the place of instance `i`. -/
def inRegion (geo : Trace.Geo G (Fin 2 → ℚ) ℚ) (n : Nat) (x : Nat → Fin 2 → ℚ) : Option G → List Nat
  | none => []
  | some g => (List.range n).filter fun i => geo.contains g (x i)

/-- The instances of the region per unit of area; 0 without area. -/
def densityOf (geo : Trace.Geo G (Fin 2 → ℚ) ℚ) (n : Nat) (x : Nat → Fin 2 → ℚ) (r : Option G) : ℚ :=
  if areaOf geo r = 0 then 0 else (inRegion geo n x r).length / areaOf geo r

/-- The share of the instances of the region that satisfy `sel`; 0 if there is none. -/
def purityOf (geo : Trace.Geo G (Fin 2 → ℚ) ℚ) (n : Nat) (x : Nat → Fin 2 → ℚ) (sel : Nat → Bool)
    (r : Option G) : ℚ := share (inRegion geo n x r) sel

/-- A quantity relative to that of the whole space, or itself if that is 0. -/
def relative (a b : ℚ) : ℚ := if b = 0 then a else a / b

/-- The region formed by the instances `sel`: there is one exactly if they have three different places. -/
def FormedBy (geo : Trace.Geo G (Fin 2 → ℚ) ℚ) (n : Nat) (x : Nat → Fin 2 → ℚ) (sel : Nat → Bool)
    (r : Option G) : Prop :=
  r.isSome ↔ 3 ≤ (geo.unique (((List.range n).filter sel).map x)).length

/-- The file of a region: none if there is no region; else it lists points, named in order, from which the
exteriors of the polygons of the region can be read, if they are closed rings. -/
def Outlined [DecidableEq α] (outline : G → Geometry α) (files : List (String × Export.File α))
    (file : String) : Option G → Prop
  | none => onDisk files file = none
  | some g => ∃ (t : Export.Table α) (vs : List (α × α)), onDisk files file = some (.array t) ∧
      t.columns = ["z_1", "z_2"] ∧ Export.PointNames (t.rows.map (·.1)) ∧
      t.rows.map (·.2) = vs.map (fun q => [q.1, q.2]) ∧
      ((∀ p ∈ (outline g).parts, Export.ClosedRing p.exterior) →
        Export.readRings none vs = (outline g).parts.map (·.exterior))

/-- The headings of `footprint_performance.csv`. -/
def footprintHeadings : List String :=
  ["Row", "Area_Good_Normalised", "Density_Good_Normalised", "Purity_Good", "Area_Best_Normalised",
    "Density_Best_Normalised", "Purity_Best"]

/-- The line `j` of the table `f` describes the region `r` of the instances `sel` under the three headings,
relative to the region `s` of the whole space. -/
structure Describes (tx : Text V α) (geo : Trace.Geo G (Fin 2 → ℚ) ℚ) (f : Export.Frame α)
    (area density purity : String) (j n : Nat) (x : Nat → Fin 2 → ℚ) (sel : Nat → Bool)
    (r s : Option G) : Prop where
  area : Under f area j (tx.num (.fin (relative (areaOf geo r) (areaOf geo s))))
  density : Under f density j (tx.num (.fin (relative (densityOf geo n x r) (densityOf geo n x s))))
  purity : Under f purity j (tx.num (.fin (purityOf geo n x sel r)))

/-- `footprint_performance.csv` and the files of the footprints belong together and to the places `x` of the
`n` instances: algorithm `j` is good on the instances `good j` and best on the instances `best j`. -/
structure Footprints [DecidableEq α] (tx : Text V α) (geo : Trace.Geo G (Fin 2 → ℚ) ℚ)
    (outline : G → Geometry α) (files : List (String × Export.File α)) (algos : List String) (n : Nat)
    (x : Nat → Fin 2 → ℚ) (good best : Nat → Nat → Bool) : Prop where
  table : ∃ f, onDisk files "footprint_performance.csv" = some (.frame f) ∧
    f.map (·.1) = footprintHeadings ∧ ("Row", algos.map tx.word) ∈ f ∧
    ∃ s, FormedBy geo n x (fun _ => true) s ∧
      ∀ (j : Nat) (a : String), algos[j]? = some a → ∃ g b,
        FormedBy geo n x (good j) g ∧ FormedBy geo n x (best j) b ∧
        Describes tx geo f "Area_Good_Normalised" "Density_Good_Normalised" "Purity_Good" j n x
          (good j) g s ∧
        Describes tx geo f "Area_Best_Normalised" "Density_Best_Normalised" "Purity_Best" j n x
          (best j) b s ∧
        Outlined outline files (Export.footprintName a "good") g ∧
        Outlined outline files (Export.footprintName a "best") b

/-- The numbers in `portfolio.csv`. -/
def Portfolio (tx : Text V α) (files : List (String × Export.File α)) (names : List String)
    (p : Nat → Nat) : Prop :=
  Holds files "portfolio.csv" ["Best_Algorithm"] names fun i _ => some (tx.count (p i))

end Verif.EndToEnd
