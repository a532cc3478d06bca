import Verif.Pilot.PropsUnique
/-!
# C152: the order of the instances is irrelevant to PILOT
-/
set_option autoImplicit false
set_option linter.unusedSectionVars false

namespace Verif.Pilot

open Matrix

variable {K : Type} [Field K] [LinearOrder K] [IsStrictOrderedRing K] {p n q : Nat}

/-- The instances in another order: row `i` is the old row `ρ i`. -/
def reorder {r : Nat} (ρ : Equiv.Perm (Fin p)) (u : Matrix (Fin p) (Fin r) K) : Matrix (Fin p) (Fin r) K :=
  fun i => u (ρ i)

/-- The libraries with the data in another order: only the comparison of the distances before and
after the projection sees the instances, and it compares the distance of two instances with the
distance of the same two instances. -/
def Lib.reordered (lib : Lib K p n q) (ρ : Equiv.Perm (Fin p)) : Lib K p n q :=
  { lib with quality := fun z => lib.quality (reorder ρ.symm z) }

theorem xBar_reorder (ρ : Equiv.Perm (Fin p)) (x : Matrix (Fin p) (Fin n) K)
    (y : Matrix (Fin p) (Fin q) K) :
    xBar (reorder ρ x) (reorder ρ y) = (xBar x y).submatrix ρ id := rfl

theorem gram_rows {r s : Nat} (ρ : Equiv.Perm (Fin p)) (a : Matrix (Fin p) (Fin r) K)
    (b : Matrix (Fin p) (Fin s) K) :
    (a.submatrix ρ id).transpose * b.submatrix ρ id = a.transpose * b := by
  rw [transpose_submatrix, submatrix_mul_equiv]
  rfl

theorem errorFunction_rows (ρ : Equiv.Perm (Fin p)) (f : Matrix (Fin p) (Fin (n + q)) K) :
    errorFunction (f.submatrix ρ id) = errorFunction f := by
  funext alpha
  unfold errorFunction
  simp only
  congr 1
  refine Eq.trans ?_ (Equiv.sum_comp ρ _)
  refine Finset.sum_congr rfl fun i _ => ?_
  congr 1

theorem quality_rows (lib : Lib K p n q) (ρ : Equiv.Perm (Fin p)) (x : Matrix (Fin p) (Fin n) K)
    (a : Matrix (Fin 2) (Fin n) K) :
    (lib.reordered ρ).quality (reorder ρ x * a.transpose) = lib.quality (x * a.transpose) := by
  change lib.quality _ = _
  congr 1
  ext i k
  change ((reorder ρ x) * a.transpose) (ρ.symm i) k = _
  rw [mul_apply, mul_apply]
  refine Finset.sum_congr rfl fun j _ => ?_
  change x (ρ (ρ.symm i)) j * _ = _
  rw [Equiv.apply_symm_apply]

theorem numericalSolve_rows (lib : Lib K p n q) (ρ : Equiv.Perm (Fin p)) (x : Matrix (Fin p) (Fin n) K)
    (y : Matrix (Fin p) (Fin q) K) (x0 : List (Fin (len n q) → K)) (t : Nat) :
    numericalSolve (lib.reordered ρ) (reorder ρ x) (xBar (reorder ρ x) (reorder ρ y)) x0 t =
      numericalSolve lib x (xBar x y) x0 t := by
  unfold numericalSolve
  rw [xBar_reorder, errorFunction_rows]
  simp only [quality_rows]
  rfl

theorem sq_rows {r : Nat} (ρ : Equiv.Perm (Fin p)) (a b : Matrix (Fin p) (Fin r) K) :
    sumSquares (reorder ρ a) (reorder ρ b) = sumSquares a b := by
  unfold sumSquares
  exact Equiv.sum_comp ρ (fun i => ∑ j, (a i j - b i j) ^ 2)

theorem sq_cols {r : Nat} (ρ : Equiv.Perm (Fin p)) (a b : Matrix (Fin r) (Fin p) K) :
    sumSquares (a.submatrix id ρ) (b.submatrix id ρ) = sumSquares a b := by
  unfold sumSquares
  refine Finset.sum_congr rfl fun i _ => ?_
  exact Equiv.sum_comp ρ (fun j => (a i j - b i j) ^ 2)

theorem mul_rows {r s : Nat} (ρ : Equiv.Perm (Fin p)) (a : Matrix (Fin p) (Fin r) K)
    (b : Matrix (Fin r) (Fin s) K) : reorder ρ a * b = reorder ρ (a * b) := by
  ext i j
  rw [mul_apply]
  unfold reorder
  rw [mul_apply]

theorem analyticSolve_rows (lib : Lib K p n q) (ρ : Equiv.Perm (Fin p)) (x : Matrix (Fin p) (Fin n) K)
    (y : Matrix (Fin p) (Fin q) K) :
    analyticSolve (lib.reordered ρ) (reorder ρ x) (xBar (reorder ρ x) (reorder ρ y)) =
      (analyticSolve lib x (xBar x y)).map fun s => { s with z := reorder ρ s.z } := by
  have hx : reorder ρ x = x.submatrix ρ id := rfl
  rw [xBar_reorder, hx]
  generalize xBar x y = f
  unfold analyticSolve
  simp only [transpose_transpose, gram_rows]
  have e1 : ∀ d, leading (lib.reordered ρ) d = leading lib d := fun _ => rfl
  have e2 : ∀ m, (lib.reordered ρ).eig m = lib.eig m := fun _ => rfl
  have e3 : ∀ m, (lib.reordered ρ).inv m = lib.inv m := fun _ => rfl
  simp only [e1, e2, e3]
  cases leading lib (lib.eig (f.transpose * f)).1 with
  | none => rfl
  | some ij =>
    cases hr : lib.inv (x.transpose * x) with
    | none => rfl
    | some r =>
      simp only [Except.map]
      generalize leadingVectors (lib.eig (f.transpose * f)).2 ij = w
      have ha : w.transpose * (f.submatrix ρ id).transpose * (x.submatrix ρ id * r) =
          w.transpose * f.transpose * (x * r) := by
        rw [Matrix.mul_assoc, ← Matrix.mul_assoc (f.submatrix ρ id).transpose, gram_rows,
          Matrix.mul_assoc, Matrix.mul_assoc]
      rw [ha]
      generalize w.transpose * f.transpose * (x * r) = a
      rw [append_mul w _ _ _ (fun _ _ => rfl) (fun _ _ => rfl),
        append_mul w _ _ _ (fun _ _ => rfl) (fun _ _ => rfl)]
      have hh : w * (a * (x.submatrix ρ id).transpose) = (w * (a * x.transpose)).submatrix id ρ := by
        ext i j
        simp only [mul_apply, submatrix_apply, transpose_apply, id]
      have hf : (f.submatrix ρ id).transpose = f.transpose.submatrix id ρ := transpose_submatrix _ _ _
      rw [hh, hf, sq_cols]
      congr 2
      · congr 1
        funext j
        exact congrArg _ (sqCorr_comp (f.transpose j) ((w * (a * x.transpose)) j) ρ)

/-- The two outputs agree, instance by instance. -/
structure SameUpTo (ρ : Equiv.Perm (Fin p)) (out out' : Out K p n q) : Prop where
  points : out'.z = reorder ρ out.z
  a : out'.a = out.a
  b : out'.b = out.b
  cCols : out'.cCols = out.cCols
  c : HEq out'.c out.c
  error : out'.error = out.error
  alpha : out'.alpha = out.alpha
  eoptim : out'.eoptim = out.eoptim
  perf : out'.perf = out.perf
  summary : out'.summary = out.summary

/-- `pilot` in analytic mode, as one expression. -/
theorem pilot_analytic (lib : Lib K p n q) (x : Matrix (Fin p) (Fin n) K) (y : Matrix (Fin p) (Fin q) K)
    (labels : List String) (opts : Options K n q) (hm : opts.analytic = true) :
    pilot lib x y labels opts = (analyticSolve lib x (xBar x y)).bind fun s =>
      (summary s.a labels).map fun t =>
        { x0 := none, alpha := none, eoptim := none, perf := none, a := s.a, z := s.z,
          cCols := q, c := s.c, b := s.b, error := s.error, r2 := s.r2, summary := t } := by
  unfold pilot
  rw [if_pos hm]
  cases analyticSolve lib x (xBar x y) with
  | error e => rfl
  | ok s =>
    dsimp only [Except.bind]
    cases summary s.a labels <;> rfl

/-- What the numerical mode makes of the chosen try, pilot.py:263-329. -/
def finish (lib : Lib K p n q) (x : Matrix (Fin p) (Fin n) K) (y : Matrix (Fin p) (Fin q) K)
    (x0 : List (Fin (len n q) → K)) (s : Numerical K n q) (alpha : Fin (len n q) → K) (t : Summary K) :
    Out K p n q :=
  { x0 := some x0, alpha := some (s.alpha.map fun al i => lib.half (al i)),
    eoptim := some s.eoptim, perf := some s.perf, a := aOf alpha, z := x * (aOf alpha).transpose,
    cCols := q - 1, c := fun k j => bOf alpha ⟨n + 1 + j, by omega⟩ k,
    b := fun i => bOf alpha (Fin.castAdd q i),
    error := sumSquares (xBar x y) (x * (aOf alpha).transpose * (bOf alpha).transpose),
    r2 := List.ofFn (fun i => sqCorr (xBar x y i) (xBar x y i)) ++
      List.ofFn (fun i => sqCorr ((x * (aOf alpha).transpose * (bOf alpha).transpose) i)
        ((x * (aOf alpha).transpose * (bOf alpha).transpose) i)),
    summary := t }

/-- `pilot` in numerical mode, as one expression. -/
theorem pilot_numerical (lib : Lib K p n q) (x : Matrix (Fin p) (Fin n) K) (y : Matrix (Fin p) (Fin q) K)
    (labels : List String) (opts : Options K n q) (hm : opts.analytic = false) :
    pilot lib x y labels opts =
      if opts.alpha.any fun al => decide (al.1 = (len n q, 1)) then .error .unboundLocal
      else (numericalSolve lib x (xBar x y) (opts.x0.getD (lib.starts opts.nTries)) opts.nTries).bind fun s =>
        match s.alpha[s.idx]? with
        | none => .error .indexError
        | some alpha => (summary (aOf alpha) labels).map
            (finish lib x y (opts.x0.getD (lib.starts opts.nTries)) s alpha) := by
  unfold pilot
  rw [if_neg (by rw [hm]; simp)]
  dsimp only
  congr 1
  cases numericalSolve lib x (xBar x y) (opts.x0.getD (lib.starts opts.nTries)) opts.nTries with
  | error e => rfl
  | ok s =>
    dsimp only [Except.bind]
    cases s.alpha[s.idx]? with
    | none => rfl
    | some alpha =>
      dsimp only
      cases summary (aOf alpha) labels <;> rfl

theorem finish_rows (lib : Lib K p n q) (ρ : Equiv.Perm (Fin p)) (x : Matrix (Fin p) (Fin n) K)
    (y : Matrix (Fin p) (Fin q) K) (x0 : List (Fin (len n q) → K)) (s : Numerical K n q)
    (alpha : Fin (len n q) → K) (t : Summary K) :
    SameUpTo ρ (finish lib x y x0 s alpha t)
      (finish (lib.reordered ρ) (reorder ρ x) (reorder ρ y) x0 s alpha t) := by
  refine ⟨mul_rows ρ x _, rfl, rfl, rfl, HEq.rfl, ?_, rfl, rfl, rfl, rfl⟩
  unfold finish
  dsimp only
  rw [mul_rows, mul_rows]
  exact sq_rows ρ (xBar x y) _

/-- **C152** In both modes, listing the instances in another order gives the same projection,
errors and correlations, and the same points for the same instances; an exception is the same
exception. -/
theorem C152_instances (lib : Lib K p n q) (ρ : Equiv.Perm (Fin p)) (x : Matrix (Fin p) (Fin n) K)
    (y : Matrix (Fin p) (Fin q) K) (labels : List String) (opts : Options K n q) :
    (∀ e, pilot lib x y labels opts = .error e ↔
      pilot (lib.reordered ρ) (reorder ρ x) (reorder ρ y) labels opts = .error e) ∧
    ∀ out, pilot lib x y labels opts = .ok out →
      ∃ out', pilot (lib.reordered ρ) (reorder ρ x) (reorder ρ y) labels opts = .ok out' ∧
        SameUpTo ρ out out' ∧ (opts.analytic = true → out'.r2 = out.r2) := by
  cases hm : opts.analytic with
  | true =>
    rw [pilot_analytic _ _ _ _ _ hm, pilot_analytic _ _ _ _ _ hm, analyticSolve_rows]
    cases analyticSolve lib x (xBar x y) with
    | error e => exact ⟨fun e' => Iff.rfl, fun out h => by cases h⟩
    | ok s =>
      dsimp only [Except.bind, Except.map]
      cases summary s.a labels with
      | error e => exact ⟨fun e' => Iff.rfl, fun out h => by cases h⟩
      | ok t =>
        dsimp only
        refine ⟨fun e' => ⟨fun h => (by cases h), fun h => (by cases h)⟩, fun out h => ?_⟩
        injection h with h
        subst h
        exact ⟨_, rfl, ⟨rfl, rfl, rfl, rfl, HEq.rfl, rfl, rfl, rfl, rfl, rfl⟩, fun _ => rfl⟩
  | false =>
    rw [pilot_numerical _ _ _ _ _ hm, pilot_numerical _ _ _ _ _ hm, numericalSolve_rows]
    have hstart : (lib.reordered ρ).starts = lib.starts := rfl
    rw [hstart]
    generalize opts.x0.getD (lib.starts opts.nTries) = x0
    by_cases hal : (opts.alpha.any fun al => decide (al.1 = (len n q, 1))) = true
    · rw [if_pos hal, if_pos hal]
      exact ⟨fun e' => Iff.rfl, fun out h => by cases h⟩
    · rw [if_neg hal, if_neg hal]
      cases numericalSolve lib x (xBar x y) x0 opts.nTries with
      | error e => exact ⟨fun e' => Iff.rfl, fun out h => by cases h⟩
      | ok s =>
        dsimp only [Except.bind]
        cases s.alpha[s.idx]? with
        | none => exact ⟨fun e' => Iff.rfl, fun out h => by cases h⟩
        | some alpha =>
          dsimp only
          cases summary (aOf alpha) labels with
          | error e => exact ⟨fun e' => Iff.rfl, fun out h => by cases h⟩
          | ok t =>
            dsimp only [Except.map]
            refine ⟨fun e' => ⟨fun h => (by cases h), fun h => (by cases h)⟩, fun out h => ?_⟩
            injection h with h
            subst h
            exact ⟨_, rfl, finish_rows lib ρ x y x0 s alpha t, fun h => by cases h⟩

/-- The instances of the example in reverse order: the same projection, the points in reverse
order. -/
example :
    ((pilot exLib2 exX2 exY2 ["f", "g"] { analytic := true, nTries := 3, alpha := none, x0 := none }).toOption.map
      fun o => (o.a 0 1, o.error, List.ofFn fun i => (o.z i 0, o.z i 1))) =
      some (-1, 0, [(-2, -5 / 4), (2, -5 / 4), (-2, 5 / 4), (2, 5 / 4)]) ∧
    ((pilot (exLib2.reordered Fin.revPerm) (reorder Fin.revPerm exX2) (reorder Fin.revPerm exY2) ["f", "g"]
      { analytic := true, nTries := 3, alpha := none, x0 := none }).toOption.map
      fun o => (o.a 0 1, o.error, List.ofFn fun i => (o.z i 0, o.z i 1))) =
      some (-1, 0, [(2, 5 / 4), (-2, 5 / 4), (2, -5 / 4), (-2, -5 / 4)]) :=
  ⟨by decide +kernel, by decide +kernel⟩

end Verif.Pilot
