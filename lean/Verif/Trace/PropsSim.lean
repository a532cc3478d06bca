import Verif.Trace.Model
import Verif.Pythia.Props
/-!
# C61 with UseSim on: TRACE uses PYTHIA's selection
-/
set_option autoImplicit false

namespace Verif.Trace

open Verif (Num)
open Verif.Pythia (Recommended AnyGood)

/-- The instances from which TRACE builds the best footprint of algorithm `i` with UseSim on:
`selection0` is passed as `p`, trace.py:290-299. -/
def simMask (out : Pythia.Out) (i : Nat) : List Bool := bestMask out.selection0.vals i

/-- **C61** is false with UseSim on as well: an instance for which no algorithm is selected is used
for the footprint of the first algorithm. -/
theorem C61_sim_refuted : ∃ (lib : Pythia.Lib) (labels : List String) (y : List (List Num))
    (yBin : List (List Bool)) (yBest : List Num) (fitted : Nat → Except Pythia.Err Pythia.SvmRes)
    (out : Pythia.Out), Pythia.pythia lib 2 labels y yBin yBest fitted = .ok out ∧
    ∃ (k : Nat) (row : List Bool), out.trained.yHat[k]? = some row ∧
      (∀ i, ¬ Recommended out.trained.precision row i) ∧ (simMask out 0)[k]? = some true := by
  obtain ⟨lib, labels, y, yBin, yBest, fitted, out, h, i, j, r1, r2, h1, h2, h3, h4, h5⟩ :=
    Pythia.C65_refuted
  refine ⟨lib, labels, y, yBin, yBest, fitted, out, h, j, r2, h2, fun i hi => h4 hi.any, ?_⟩
  have := ((Pythia.C65_partial (s := 0) h h2).2).2 (.inr h4)
  simp [simMask, bestMask, this]

/-- **C61, UseSim on, the true part.**  For every algorithm but the first the footprint is built
from exactly the instances for which PYTHIA recommends it; for the first one, from these and the
instances without recommendation. -/
theorem C61_sim_partial {lib : Pythia.Lib} {n : Nat} {labels : List String} {y : List (List Num)}
    {yBin : List (List Bool)} {yBest : List Num}
    {fitted : Nat → Except Pythia.Err Pythia.SvmRes} {out : Pythia.Out}
    (h : Pythia.pythia lib n labels y yBin yBest fitted = .ok out) {k : Nat} {row : List Bool}
    (hrow : out.trained.yHat[k]? = some row) :
    (∀ i, 0 < i → ((simMask out i)[k]? = some true ↔ Recommended out.trained.precision row i)) ∧
    ((simMask out 0)[k]? = some true ↔
      Recommended out.trained.precision row 0 ∨ ¬ AnyGood out.trained.precision row) := by
  have e : ∀ i, (simMask out i)[k]? = some true ↔ out.selection0.vals[k]? = some i := by
    intro i
    unfold simMask bestMask
    rw [List.getElem?_map]
    rcases out.selection0.vals[k]? with _ | v <;> simp
  refine ⟨fun i hi => ?_, ?_⟩
  · rw [e]
    exact (Pythia.C65_partial h hrow).1 hi
  · rw [e]
    exact (Pythia.C65_partial (s := 0) h hrow).2

/-- In the run on three instances, the footprint of the first algorithm uses the first and the
third instance although the algorithm is recommended for the first one only. -/
example : Pythia.exRun.toOption.map (fun o => [simMask o 0, simMask o 1]) =
    some [[true, false, true], [false, true, false]] := by decide +kernel

end Verif.Trace
