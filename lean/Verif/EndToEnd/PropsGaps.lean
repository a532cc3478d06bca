import Verif.EndToEnd.GapsLemmas
import Verif.EndToEnd.PropsTries
/-!
# C215: the projection with missing performances
-/
set_option autoImplicit false
set_option linter.unusedSectionVars false

namespace Verif.EndToEnd

open Verif (Num)
open Verif.Pipeline (Name outputs defaultStages runner)
open Verif.Metadata (Table Squeezed fromDataFrame)
open Verif.Runner (Dict RunError)

variable {V W : Type} {lower : String → String} {numeric : Squeezed V → Bool} {str : V → V}
  {num : V → Num} {env : Env V W} {le : Nat → Late V W} {t : Table V} {d : Dict Name (Val V W)}

/-- **C215 (part): the tries.**  In numerical mode, whatever is missing among the performances, every try of PILOT fits
all features and exactly the performances in the Model that are numbers: the value recorded in `eoptim` is the mean
over the instances of the mean squared difference between the values present and their reconstructions, for the
matrices whose rounded entries are recorded in `alpha`, and it is no more than that of the starting point in `X0`.
Missing: the performances in the Model need not have all the numbers of the table (`C215_refuted`), and the
error (`C215_error_refuted`). -/
theorem C215_fitted_partial (hc : Complete env le) (hm : ∀ k n q, ((le k).pilotOpts n q).analytic = false)
    {round : ℚ → ℚ}
    (hr : ∀ k p n q (x : Matrix (Fin p) (Fin n) ℚ) v, ((le k).pilotLib (q := q) x).half v = round v)
    (hh : ∀ v, round (round v) = round v)
    (hd : ∀ k p n q (x : Matrix (Fin p) (Fin n) ℚ), Descends ((le k).pilotLib (q := q) x))
    (h : Succeeds lower numeric str num env t d) :
    ∃ perf, d .perf = some (.numbers perf) ∧ 0 < perf.length ∧ ∀ i < perf.length, Fitted d round i :=
  fitted_all hc hm hr hh hd h

/-- **C215 (part): without normalisation** each performance is processed on its own: with an absolute measure it is
left alone, with a relative one it is compared with the best performance of the instance. -/
theorem C215_plain_partial
    (htup : ∀ k s vs out, env.rest k s vs = .ok out → out.map Prod.fst = (outputs s).map Prod.fst)
    (hn : env.prelim.norm = false) (h : Succeeds lower numeric str num env t d) :
    ∃ raw y best, d .y_raw = some (.table raw) ∧ d .y = some (.table y) ∧ d .y_best = some (.numbers best) ∧
      y.rows.length = raw.rows.length ∧ ∀ (k j : Nat) w, j < raw.ncols → At raw.rows k j w → ∃ b, best[k]? = some b ∧
        At y.rows k j (if env.prelim.absPerf then w else if env.prelim.maxPerf then 1 - w / b else 1 - b / w) :=
  unwiped htup hn h

/-- **C215 (part): with normalisation** one missing performance is enough to make all processed performances of all
algorithms on all instances missing, so that the projection is fitted to the features alone. -/
theorem C215_wiped_partial
    (htup : ∀ k s vs out, env.rest k s vs = .ok out → out.map Prod.fst = (outputs s).map Prod.fst)
    (hn : env.prelim.norm = true) (h : Succeeds lower numeric str num env t d) {raw : Preprocessing.Mat Num}
    (hraw : d .y_raw = some (.table raw)) {k j : Nat} (hj : j < raw.ncols) (hm : At raw.rows k j .nan) :
    ∃ y, d .y = some (.table y) ∧ y.rows.length = raw.rows.length ∧
      ∀ r ∈ y.rows, r.length = raw.ncols ∧ ∀ v ∈ r, v = .nan :=
  wiped htup hn h hraw hj hm

/-- **C215 (part): the error** in the Model is NaN as soon as a performance in the Model is missing. -/
theorem C215_error_partial (hc : Complete env le) (h : Succeeds lower numeric str num env t d)
    (hm : ¬ NoneMissing d) : d .error = some (.numbers [.nan]) := by
  obtain ⟨k, x, y, feat, o, hx, hy, f1, f2, f3, hp, hall⟩ := pilot_all hc h
  have hg : Pilot.anyGap (gapsOf y x.rows.length y.ncols) = true := by
    cases hg : Pilot.anyGap (gapsOf y x.rows.length y.ncols) with
    | true => rfl
    | false => exact absurd ⟨y, hy, noNan_of_noGap f2 f3 hg⟩ hm
  exact hall .error _ (by simp [pilotOut, Pilot.gapError, hg, orNan])

/-- **C215 (part): in analytic mode** no Model with a missing performance is ever built. -/
theorem C215_analytic_partial (hc : Complete env le) (hm : ∀ k n q, ((le k).pilotOpts n q).analytic = true)
    (h : Succeeds lower numeric str num env t d) : NoneMissing d := by
  obtain ⟨k, x, y, feat, o, hx, hy, f1, f2, f3, hp, hall⟩ := pilot_all hc h
  exact ⟨y, hy, noNan_of_noGap f2 f3 ((Pilot.pilotGaps_ok hp).2 (hm k _ _))⟩

/-! ### Examples -/

/-- The number 9 stands for a missing value. -/
def holeNum (n : Nat) : Num := if n = 9 then .nan else .fin n

/-- The run on a table with missing values. -/
def gapRun (env : Env Nat (Kept (List (ℚ × ℚ)))) (t : Table Nat) :
    Except (RunError Name Err) (Dict Name (Val Nat (Kept (List (ℚ × ℚ))))) :=
  Runner.contents (Runner.runAll (runner defaultStages Pipeline.defaultSchedule (run env))
    Runner.State.init (args env holeNum (fromDataFrame id (fun _ => false) id t)))

theorem gapRun_succeeds {env : Env Nat (Kept (List (ℚ × ℚ)))} {t : Table Nat}
    (h : raisedIn (gapRun env t) = 0) :
    ∃ d, gapRun env t = .ok d ∧ Succeeds id (fun _ => false) id holeNum env t d := by
  cases hd : gapRun env t with
  | error e =>
    exfalso
    rw [hd] at h
    revert h
    unfold raisedIn
    split <;> simp_all
  | ok d =>
    exact ⟨d, rfl, defaultStages, Pipeline.listOrder, Pipeline.defaultSchedule, [], .refl _,
      Pipeline.default_once, hd⟩

/-- Six instances; on the second one the second algorithm has no performance. -/
def gapTable : Table Nat := cleanTable [4, 1, 5, 3, 3, 4] [2, 9, 1, 1, 2, 1]

/-- Is there a number at this place of an array, or NaN? -/
def numberAt (d : Dict Name (Val Nat (Kept (List (ℚ × ℚ))))) (n : Name) (k j : Nat) : Option Bool :=
  match d n with
  | some (.table y) => (y.rows[k]?.bind fun r => r[j]?).bind fun v => match v with
    | .fin _ => some true
    | .nan => some false
    | _ => none
  | _ => none

theorem numberAt_some {d : Dict Name (Val Nat (Kept (List (ℚ × ℚ))))} {n : Name} {k j : Nat} {b : Bool}
    (h : numberAt d n k j = some b) : ∃ y v, d n = some (.table y) ∧ At y.rows k j v ∧
      (b = true → ∃ q, v = .fin q) ∧ (b = false → v = .nan) := by
  unfold numberAt at h
  split at h
  · rename_i y hy
    obtain ⟨v, hv, hb⟩ := Option.bind_eq_some_iff.1 h
    obtain ⟨r, hr, hv⟩ := Option.bind_eq_some_iff.1 hv
    refine ⟨y, v, hy, ⟨r, hr, hv⟩, ?_, ?_⟩ <;> rintro rfl <;> cases v <;> simp at hb ⊢
  · cases h

/-- A run with normalisation on the table: `y_raw` has a number where `y` has none. -/
theorem gap_norm : ∃ d, Succeeds id (fun _ => false) id holeNum normEnv gapTable d ∧
    numberAt d .y_raw 0 0 = some true ∧ numberAt d .y_raw 1 1 = some false ∧ numberAt d .y 0 0 = some false := by
  obtain ⟨d, h0, h⟩ := gapRun_succeeds (env := normEnv) (t := gapTable) (by decide +kernel)
  have h2 : (gapRun normEnv gapTable).toOption.map (fun d => (numberAt d .y_raw 0 0, numberAt d .y_raw 1 1,
    numberAt d .y 0 0)) = some (some true, some false, some false) := by decide +kernel
  rw [h0] at h2
  simp only [Except.toOption, Option.map_some, Option.some.injEq, Prod.mk.injEq] at h2
  exact ⟨d, h, h2.1, h2.2.1, h2.2.2⟩

/-- A run without normalisation: only the missing performance is missing. -/
theorem gap_plain : ∃ d, Succeeds id (fun _ => false) id holeNum (allEnv false) gapTable d ∧
    numberAt d .y_raw 1 1 = some false ∧ numberAt d .y 1 1 = some false ∧ numberAt d .y 0 1 = some true := by
  obtain ⟨d, h0, h⟩ := gapRun_succeeds (env := allEnv false) (t := gapTable) (by decide +kernel)
  have h2 : (gapRun (allEnv false) gapTable).toOption.map (fun d => (numberAt d .y_raw 1 1, numberAt d .y 1 1,
    numberAt d .y 0 1)) = some (some false, some false, some true) := by decide +kernel
  rw [h0] at h2
  simp only [Except.toOption, Option.map_some, Option.some.injEq, Prod.mk.injEq] at h2
  exact ⟨d, h, h2.1, h2.2.1, h2.2.2⟩

theorem gap_missing {d : Dict Name (Val Nat (Kept (List (ℚ × ℚ))))} {k j : Nat} (h : numberAt d .y k j = some false) :
    ¬ NoneMissing d := by
  rintro ⟨y, hy, hn⟩
  obtain ⟨y', v, hy', ⟨r, hr, hv⟩, hnan⟩ := numberAt_some h
  rw [hy, Option.some.injEq, Val.table.injEq] at hy'
  subst hy'
  exact hn r (List.mem_of_getElem? hr) _ (List.mem_of_getElem? hv) (hnan.2 rfl)

example : Complete (allEnv false) (allLate false) ∧
    (∀ k n q, ((allLate false k).pilotOpts n q).analytic = false) ∧
    (∀ k p n q (x : Matrix (Fin p) (Fin n) ℚ) v, ((allLate false k).pilotLib (q := q) x).half v = id v) ∧
    (∀ k p n q (x : Matrix (Fin p) (Fin n) ℚ), Descends ((allLate false k).pilotLib (q := q) x)) ∧
    (allEnv false).prelim.norm = false ∧
    ∃ d, Succeeds id (fun _ => false) id holeNum (allEnv false) gapTable d ∧ ¬ NoneMissing d := by
  obtain ⟨d, h, -, h2, -⟩ := gap_plain
  exact ⟨(all_complete false).complete, fun _ _ _ => rfl, fun _ _ _ _ _ _ => rfl,
    fun _ _ _ _ _ _ _ => ⟨rfl, le_refl _⟩, rfl, d, h, gap_missing h2⟩

example : (∀ k s vs out, normEnv.rest k s vs = .ok out → out.map Prod.fst = (outputs s).map Prod.fst) ∧
    normEnv.prelim.norm = true ∧ ∃ d raw, Succeeds id (fun _ => false) id holeNum normEnv gapTable d ∧
      d .y_raw = some (.table raw) ∧ At raw.rows 1 1 .nan := by
  obtain ⟨d, h, -, h2, -⟩ := gap_norm
  obtain ⟨raw, v, e, ha, hv⟩ := numberAt_some h2
  obtain rfl := hv.2 rfl
  exact ⟨norm_complete.complete.tuples, rfl, d, raw, h, e, ha⟩

/-- In analytic mode the table without a gap gives a Model, the table with the gap an exception in PILOT. -/
example : Complete squareEnv squareLate ∧ (∀ k n q, ((squareLate k).pilotOpts n q).analytic = true) ∧
    (∃ d, Succeeds id (fun _ => false) id holeNum squareEnv (cleanTable [4, 1, 5, 3, 3, 4] [2, 0, 1, 1, 2, 1]) d) ∧
    (match gapRun squareEnv gapTable with
      | .error (.stage (.pilot .valueError)) => true
      | _ => false) = true := by
  obtain ⟨d, -, h⟩ := gapRun_succeeds (env := squareEnv) (t := cleanTable [4, 1, 5, 3, 3, 4] [2, 0, 1, 1, 2, 1])
    (by decide +kernel)
  exact ⟨square_complete.complete, fun _ _ _ => rfl, ⟨d, h⟩, by decide +kernel⟩

/-- A misfit over the values present: one instance with the features 1 and 0, of two performances only the second
is there. -/
example : misfit (p := 1) (n := 2) (q := 2) (fun _ => ![1, 0]) (fun _ => ![.nan, .fin 5]) (fun k j => if k.val = j.val
    then 1 else 0) (fun _ _ => 1) (fun _ _ => 2) = ((1 - 1) ^ 2 + (0 - 1) ^ 2 + (5 - 2) ^ 2) / 3 := by decide +kernel

/-- **C215** is false: with normalisation, the performances that are projected lack numbers that the table has. -/
theorem C215_refuted : ¬ ∀ (lower : String → String) (numeric : Squeezed Nat → Bool) (str : Nat → Nat)
    (num : Nat → Num) (env : Env Nat (Kept (List (ℚ × ℚ)))) (le : Nat → Late Nat (Kept (List (ℚ × ℚ))))
    (te : Nat → TraceEnv (List (ℚ × ℚ))) (t : Table Nat) (d : Dict Name (Val Nat (Kept (List (ℚ × ℚ))))),
    CompleteTrace env le te → Succeeds lower numeric str num env t d → AllUsed d := by
  intro h
  obtain ⟨d, h1, h2, -, h3⟩ := gap_norm
  obtain ⟨raw, v, e, ha, hv⟩ := numberAt_some h2
  obtain ⟨y, w, e', ⟨r, hr, hw⟩, hnan⟩ := numberAt_some h3
  obtain ⟨q, rfl⟩ := hv.1 rfl
  obtain ⟨u, r', hr', hu⟩ := h _ _ _ _ _ _ _ _ _ norm_complete h1 raw y e e' 0 0 q ha
  rw [hr, Option.some.injEq] at hr'
  subst hr'
  rw [hw, Option.some.injEq] at hu
  subst hu
  exact absurd (hnan.2 rfl) (by simp)

/-- **C215** is false for the error, too: it is not a number although the coordinates are. -/
theorem C215_error_refuted : ¬ ∀ (lower : String → String) (numeric : Squeezed Nat → Bool) (str : Nat → Nat)
    (num : Nat → Num) (env : Env Nat (Kept (List (ℚ × ℚ)))) (le : Nat → Late Nat (Kept (List (ℚ × ℚ))))
    (te : Nat → TraceEnv (List (ℚ × ℚ))) (t : Table Nat) (d : Dict Name (Val Nat (Kept (List (ℚ × ℚ))))),
    CompleteTrace env le te → Succeeds lower numeric str num env t d → ∃ e, d .error = some (.numbers [.fin e]) := by
  intro h
  obtain ⟨d, h1, -, h2, -⟩ := gap_plain
  obtain ⟨e, he⟩ := h _ _ _ _ _ _ _ _ _ (all_complete false) h1
  rw [C215_error_partial (all_complete false).complete h1 (gap_missing h2)] at he
  cases he

end Verif.EndToEnd
