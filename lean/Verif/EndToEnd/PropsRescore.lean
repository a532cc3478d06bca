import Verif.EndToEnd.RescoreLemmas
import Verif.EndToEnd.PropsRecompute
/-!
# C202: the processed performances from the raw ones
-/
set_option autoImplicit false
set_option linter.unusedSectionVars false

namespace Verif.EndToEnd

open Verif (Num)
open Verif.Pipeline (Name outputs)
open Verif.Metadata (Table Squeezed)
open Verif.Runner (Dict)

variable {V W : Type} {lower : String → String} {numeric : Squeezed V → Bool} {str : V → V}
  {num : V → Num} {env : Env V W} {t : Table V} {d : Dict Name (Val V W)}

/-- **C202.** After a successful run, with or without a subset of the instances, each processed performance that is
not NaN can be computed from the Model alone: from the raw performance of the same instance and algorithm in `y_raw`,
the best performance of the instance, and the quantities recorded at the position of the algorithm. -/
theorem C202_rescored {power : Num → Num → Num} (hfit : FitsBy env.tr env.fit power)
    (htup : ∀ k s vs out, env.rest k s vs = .ok out → out.map Prod.fst = (outputs s).map Prod.fst)
    (h : Succeeds lower numeric str num env t d) :
    ∃ raw y best, d .y_raw = some (.table raw) ∧ d .y = some (.table y) ∧ d .y_best = some (.numbers best) ∧
      y.rows.length = raw.rows.length ∧ (∀ r ∈ y.rows, r.length = raw.ncols) ∧
      ∀ k j v, At y.rows k j v → v.isNan = false → ∃ g w b, Gauged d j g ∧ At raw.rows k j w ∧
        best[k]? = some b ∧ v = g.place env.prelim.norm env.prelim.absPerf env.prelim.maxPerf power b w :=
  rescored hfit htup h

/-- Both with and without normalisation; the second environment measures performances relative to the best. -/
def relativeEnv : Env Nat (Kept (List (ℚ × ℚ))) :=
  { rulerEnv with prelim := { rulerEnv.prelim with norm := false, absPerf := false, epsilon := .fin (1 / 2) } }

theorem relative_complete : CompleteTrace relativeEnv (allLate false) (exTrace false) where
  stages _ _ _ := rfl
  trace _ := rfl
  laws _ := dots_laws
  order _ _ := List.reverse_perm _

example : FitsBy rulerEnv.tr rulerEnv.fit (fun _ v => v - 1) ∧ rulerEnv.prelim.norm = true ∧
    (∀ k s vs out, rulerEnv.rest k s vs = .ok out → out.map Prod.fst = (outputs s).map Prod.fst) ∧
    (∃ d, Succeeds id (fun _ => false) id lateNum rulerEnv
      (cleanTable [4, 1, 5, 3, 3, 4] [2, 5, 1, 0, 2, 6]) d) ∧
    FitsBy relativeEnv.tr relativeEnv.fit (fun _ v => v - 1) ∧ relativeEnv.prelim.norm = false ∧
    (∀ k s vs out, relativeEnv.rest k s vs = .ok out → out.map Prod.fst = (outputs s).map Prod.fst) ∧
    ∃ d, Succeeds id (fun _ => false) id lateNum relativeEnv
      (cleanTable [4, 1, 5, 3, 3, 4] [2, 5, 1, 0, 2, 6]) d := by
  obtain ⟨d, -, h⟩ := cleanRun_succeeds (env := rulerEnv)
    (t := cleanTable [4, 1, 5, 3, 3, 4] [2, 5, 1, 0, 2, 6]) (by decide +kernel)
  obtain ⟨d', -, h'⟩ := cleanRun_succeeds (env := relativeEnv)
    (t := cleanTable [4, 1, 5, 3, 3, 4] [2, 5, 1, 0, 2, 6]) (by decide +kernel)
  exact ⟨fun _ _ => rfl, rfl, ruler_complete.complete.tuples, ⟨d, h⟩, fun _ _ => rfl, rfl,
    relative_complete.complete.tuples, d', h'⟩

end Verif.EndToEnd
