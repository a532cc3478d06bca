import Verif.EndToEnd.TriesLemmas
import Verif.EndToEnd.PropsRecompute
/-!
# C203, C204: the error and the tries of PILOT in the Model
-/
set_option autoImplicit false
set_option linter.unusedSectionVars false

namespace Verif.EndToEnd

open Verif (Num)
open Verif.Pipeline (Name outputs)
open Verif.Metadata (Table Squeezed)
open Verif.Runner (Dict)

variable {V W : Type} {lower : String → String} {numeric : Squeezed V → Bool} {str : V → V}
  {num : V → Num} {env : Env V W} {le : Nat → Late V W} {t : Table V} {d : Dict Name (Val V W)}

/-! ### C203 -/

/-- **C203 (part).** In analytic mode the error in the Model is what is left of the features and performances in the
Model when they are reconstructed from the coordinates.  Missing: numerical mode, where it fails
(`C203_refuted`, `C203_numerical_partial`). -/
theorem C203_analytic_partial (hc : Complete env le) (hm : ∀ k n q, ((le k).pilotOpts n q).analytic = true)
    (h : Succeeds lower numeric str num env t d) : Explained d := by
  obtain ⟨k, x, y, feat, o, hx, hy, f1, f2, f3, hp, hall⟩ := pilot_all hc h
  have hg := (Pilot.pilotGaps_ok hp).2 (hm k _ _)
  have f2' := isFinite_of f2 (noNan_of_noGap f2 f3 hg)
  rw [Pilot.pilotGaps_none _ hg] at hp
  obtain ⟨-, -, hcc, he⟩ := Pilot.C76_analytic (hm k _ _) hp
  refine ⟨_, _, _, _, _, o.z, o.b, fun k j => o.c k (j.cast hcc.symm), stores_entries hx f1 rfl,
    stores_entries hy f2' f3, stores_tableOf (hall .z _ (by simp [pilotOut])),
    stores_tableOf (hall .b _ (by simp [pilotOut])), ?_, ?_⟩
  · obtain ⟨c, hc1, hc2, hc3, hc4⟩ := stores_tableOf (m := o.c) (hall .c _ (by simp [pilotOut]))
    exact ⟨c, hc1, by rw [hc2, hcc], hc3, fun i j => hc4 i (j.cast hcc.symm)⟩
  · rw [hall .error (.numbers [.fin o.error]) (by simp [pilotOut, Pilot.gapError_none hg, orNan]), he]
    rfl

/-- **C203 (part).** In numerical mode the error is what is left with the matrix that reconstructs the performances
from the coordinates, of which `c` in the Model lacks the column of the first algorithm, provided that no performance is missing. -/
theorem C203_numerical_partial (hc : Complete env le) (hm : ∀ k n q, ((le k).pilotOpts n q).analytic = false)
    (h : Succeeds lower numeric str num env t d) (hn : NoneMissing d) :
    ∃ (p n q : Nat) (x : Matrix (Fin p) (Fin n) ℚ) (y : Matrix (Fin p) (Fin q) ℚ) (z : Matrix (Fin p) (Fin 2) ℚ)
      (b : Matrix (Fin n) (Fin 2) ℚ) (c : Matrix (Fin 2) (Fin q) ℚ) (c' : Matrix (Fin 2) (Fin (q - 1)) ℚ),
      Stores d .x x ∧ Stores d .y y ∧ Stores d .z z ∧ Stores d .b b ∧ Stores d .c c' ∧
      (∀ i (j : Fin (q - 1)) (r : Fin q), r.val = j.val + 1 → c' i j = c i r) ∧
      d .error = some (.numbers [.fin (unexplained x y z b c)]) := by
  obtain ⟨k, x, y, feat, o, hx, hy, f1, f2, f3, hp, hall⟩ := pilot_all hc h
  obtain ⟨y', hy', hn⟩ := hn
  rw [hy, Option.some.injEq, Val.table.injEq] at hy'
  subst hy'
  have hg := noGap f2 f3 hn
  have f2' := isFinite_of f2 hn
  rw [Pilot.pilotGaps_none _ hg] at hp
  obtain ⟨-, -, coef, he, hcoef⟩ := Pilot.C76_numerical (hm k _ _) hp
  obtain ⟨-, -, -, -, -, -, -, -, -, -, -, -, -, -, -, -, ⟨hcc, -⟩, -⟩ := Pilot.numerical_ok (hm k _ _) hp
  refine ⟨_, _, _, _, _, o.z, o.b, coef, fun k j => o.c k (j.cast hcc.symm), stores_entries hx f1 rfl,
    stores_entries hy f2' f3, stores_tableOf (hall .z _ (by simp [pilotOut])),
    stores_tableOf (hall .b _ (by simp [pilotOut])), ?_, ?_, ?_⟩
  · obtain ⟨c, hc1, hc2, hc3, hc4⟩ := stores_tableOf (m := o.c) (hall .c _ (by simp [pilotOut]))
    exact ⟨c, hc1, by rw [hc2, hcc], hc3, fun i j => hc4 i (j.cast hcc.symm)⟩
  · intro i j r hr
    exact hcoef i (j.cast hcc.symm) r hr
  · rw [hall .error (.numbers [.fin o.error]) (by simp [pilotOut, Pilot.gapError_none hg, orNan]), he]
    rfl

/-- PILOT in analytic mode with the identity as eigenvectors and inverse. -/
def squareLate (k : Nat) : Late Nat (Kept (List (ℚ × ℚ))) :=
  { allLate false k with
    pilotLib := fun _ => ⟨fun _ => (fun i => i.val, 1), fun _ => List.finRange _, fun _ => some 1, id,
      fun f g => (g, f g), fun _ => some 0, fun _ => []⟩
    pilotOpts := fun _ _ => ⟨true, 1, none, none⟩ }

/-- The environment of the examples with PILOT in analytic mode. -/
def squareEnv : Env Nat (Kept (List (ℚ × ℚ))) :=
  { allEnv false with rest := fun k s vs => runLate (squareLate k) s vs }

theorem square_complete : CompleteTrace squareEnv squareLate (exTrace false) where
  stages _ _ _ := rfl
  trace _ := rfl
  laws _ := dots_laws
  order _ _ := List.reverse_perm _

example : Complete squareEnv squareLate ∧ (∀ k n q, ((squareLate k).pilotOpts n q).analytic = true) ∧
    ∃ d, Succeeds id (fun _ => false) id lateNum squareEnv
      (cleanTable [4, 1, 5, 3, 3, 4] [2, 0, 1, 1, 2, 1]) d := by
  obtain ⟨d, -, h⟩ := cleanRun_succeeds (env := squareEnv)
    (t := cleanTable [4, 1, 5, 3, 3, 4] [2, 0, 1, 1, 2, 1]) (by decide +kernel)
  exact ⟨square_complete.complete, fun _ _ _ => rfl, d, h⟩

/-- The number of columns of the performances in an output, if none is missing. -/
def scored (d : Dict Name (Val Nat (Kept (List (ℚ × ℚ))))) : Option Nat :=
  match d .y with
  | some (.table y) => if y.rows.all fun r => r.all fun v => !v.isNan then some y.ncols else none
  | _ => none

theorem scored_some {d : Dict Name (Val Nat (Kept (List (ℚ × ℚ))))} {n : Nat} (h : scored d = some n) :
    NoneMissing d ∧ ∃ y, d .y = some (.table y) ∧ y.ncols = n := by
  unfold scored at h
  split at h
  · rename_i y hy
    split at h
    · rename_i hall
      simp only [List.all_eq_true] at hall
      refine ⟨⟨y, hy, ?_⟩, y, hy, by simpa using h⟩
      rintro r hr v hv rfl
      exact absurd (hall r hr _ hv) (by decide)
    · cases h
  · cases h

example : Complete wideEnv (allLate false) ∧ (∀ k n q, ((allLate false k).pilotOpts n q).analytic = false) ∧
    ∃ d, Succeeds id (fun _ => false) id lateNum wideEnv wideTable d ∧ NoneMissing d := by
  obtain ⟨d, h0, h⟩ := cleanRun_succeeds (env := wideEnv) (t := wideTable) (by decide +kernel)
  have h2 : (cleanRun wideEnv wideTable).toOption.bind scored = some 2 := by decide +kernel
  rw [h0] at h2
  exact ⟨wide_complete.complete, fun _ _ _ => rfl, d, h, (scored_some h2).1⟩

/-- **C203** is false in numerical mode: with two algorithms the Model has a `c` with one column. -/
theorem C203_refuted : ¬ ∀ (lower : String → String) (numeric : Squeezed Nat → Bool) (str : Nat → Nat)
    (num : Nat → Num) (env : Env Nat (Kept (List (ℚ × ℚ)))) (le : Nat → Late Nat (Kept (List (ℚ × ℚ))))
    (te : Nat → TraceEnv (List (ℚ × ℚ))) (t : Table Nat) (d : Dict Name (Val Nat (Kept (List (ℚ × ℚ))))),
    CompleteTrace env le te → Succeeds lower numeric str num env t d → Explained d := by
  intro h
  obtain ⟨d, h0, h1⟩ := cleanRun_succeeds (env := wideEnv) (t := wideTable) (by decide +kernel)
  have h2 : (cleanRun wideEnv wideTable).toOption.bind scored = some 2 := by decide +kernel
  rw [h0] at h2
  obtain ⟨hnone, y0, hy0, hy1⟩ := scored_some (d := d) h2
  obtain ⟨p, n, q, x, y, z, b, c, -, ⟨ty, hy, rfl, -⟩, -, -, ⟨tc, htc, hq, -⟩, -⟩ :=
    h _ _ _ _ _ _ _ _ _ wide_complete h1
  obtain ⟨p', n', q', x', y', z', b', c', c'', -, ⟨ty', hy', rfl, hrows, hat⟩, -, -, ⟨tc', htc', hq', -⟩, -⟩ :=
    C203_numerical_partial wide_complete.complete (fun _ _ _ => rfl) h1 hnone
  rw [hy, Option.some.injEq, Val.table.injEq] at hy0
  subst hy0
  rw [hy, Option.some.injEq, Val.table.injEq] at hy'
  subst hy'
  rw [htc, Option.some.injEq, Val.table.injEq] at htc'
  subst htc'
  omega

/-! ### C204 -/

/-- **C204.** In numerical mode the projection matrix `a` and the matrix `b` in the Model are read off one column of
`alpha` in the Model, that of the try with the largest entry of `perf`, unless an entry is NaN.  Rounding
twice is taken to be the same as rounding once. -/
theorem C204_read_from_the_best (hc : Complete env le) (hm : ∀ k n q, ((le k).pilotOpts n q).analytic = false)
    (hh : ∀ k p n q (x : Matrix (Fin p) (Fin n) ℚ) v,
      ((le k).pilotLib (q := q) x).half (((le k).pilotLib (q := q) x).half v) = ((le k).pilotLib (q := q) x).half v)
    (h : Succeeds lower numeric str num env t d) :
    ∃ alpha perf i, d .alpha = some (.table alpha) ∧ d .perf = some (.numbers perf) ∧
      alpha.ncols = perf.length ∧ BestTry perf i ∧ ReadFrom d alpha.rows i := by
  obtain ⟨k, x, y, feat, o, hx, hy, f1, f2, f3, hp, hall⟩ := pilot_all hc h
  replace hp := (Pilot.pilotGaps_ok hp).1
  obtain ⟨x0, idx, guess, alpha, hx0, hlen, hlt, hg, hal, -, hperf, harg, -, ha, -, hb, -, -⟩ :=
    Pilot.numerical_ok (hm k _ _) hp
  have halpha := Pilot.numerical_alpha (hm k _ _) hp
  rw [← hx0] at halpha
  generalize hlib : ((le k).pilotLib (entries x x.rows.length x.ncols)).onGaps (entries x x.rows.length x.ncols)
    (entries y x.rows.length y.ncols) (gapsOf y x.rows.length y.ncols) = lib at *
  have hh' : ∀ v, lib.half (lib.half v) = lib.half v := by
    subst hlib
    exact hh k _ _ _ _
  simp only [hh'] at halpha
  obtain ⟨al, hal1, hal2, hal3⟩ : ∃ al, o.alpha = some al ∧
      al.length = ((le k).pilotOpts x.ncols y.ncols).nTries ∧ al[idx]? = some alpha := by
    refine ⟨_, halpha, by simp only [List.length_map, List.length_take]; omega, ?_⟩
    rw [List.getElem?_map, List.getElem?_take, if_pos hlt, hg, hal]
    rfl
  obtain ⟨pf, hpf1, hpf2, hpf3⟩ : ∃ pf, o.perf = some pf ∧
      pf.length = ((le k).pilotOpts x.ncols y.ncols).nTries ∧ Pilot.argmax pf = some idx :=
    ⟨_, hperf, by simp only [List.length_map, List.length_take]; omega, harg⟩
  refine ⟨columnsOf al, pf.map orNan, idx, hall .alpha _ (by simp [pilotOut, hal1]),
    hall .perf _ (by simp [pilotOut, hpf1]), by simp [columnsOf, hal2, hpf2], bestTry (by omega) hpf3,
    x.ncols, o.a, o.b, stores_tableOf (hall .a _ (by simp [pilotOut])),
    stores_tableOf (hall .b _ (by simp [pilotOut])), fun i j => ?_, fun j i => ?_⟩
  · rw [ha]
    exact at_columnsOf hal3 _
  · rw [hb]
    exact at_columnsOf hal3 _

example : Complete wideEnv (allLate false) ∧ (∀ k n q, ((allLate false k).pilotOpts n q).analytic = false) ∧
    (∀ k p n q (x : Matrix (Fin p) (Fin n) ℚ) v,
      ((allLate false k).pilotLib (q := q) x).half (((allLate false k).pilotLib (q := q) x).half v) =
        ((allLate false k).pilotLib (q := q) x).half v) ∧
    ∃ d, Succeeds id (fun _ => false) id lateNum wideEnv wideTable d := by
  obtain ⟨d, h, -⟩ := wide_run
  exact ⟨wide_complete.complete, fun _ _ _ => rfl, fun _ _ _ _ _ _ => rfl, d, h⟩

end Verif.EndToEnd
