import Verif.Pilot.PropsRows
import Mathlib.LinearAlgebra.Matrix.ToLin
import Mathlib.LinearAlgebra.Dimension.StrongRankCondition
import Mathlib.LinearAlgebra.Dimension.Constructions
/-!
# C164: when PILOT returns a result
-/
set_option autoImplicit false
set_option linter.unusedSectionVars false

namespace Verif.Pilot

open Matrix

variable {K : Type} [Field K] [LinearOrder K] [IsStrictOrderedRing K] {p n q : Nat}

/-- PILOT returns a result. -/
def Returns (lib : Lib K p n q) (x : Matrix (Fin p) (Fin n) K) (y : Matrix (Fin p) (Fin q) K)
    (labels : List String) (opts : Options K n q) : Prop :=
  ∃ out, pilot lib x y labels opts = .ok out

/-- **C164** is false: with one or two instances the numerical mode raises a `ValueError`, whatever
the data and the libraries. -/
theorem C164_refuted (lib : Lib K p n q) (x : Matrix (Fin p) (Fin n) K) (y : Matrix (Fin p) (Fin q) K)
    (labels : List String) (opts : Options K n q) (hm : opts.analytic = false) (ha : opts.alpha = none)
    (h0 : opts.x0 = none) (ht : 0 < opts.nTries) (hs : (lib.starts opts.nTries).length = opts.nTries)
    (hp : p ≤ 2) : pilot lib x y labels opts = .error .valueError := by
  rw [pilot_numerical _ _ _ _ _ hm, ha, h0]
  have hn : numericalSolve lib x (xBar x y) (lib.starts opts.nTries) opts.nTries = .error .valueError := by
    unfold numericalSolve
    rw [if_pos ⟨by omega, ht⟩, if_neg (by omega)]
  change Except.bind (numericalSolve lib x (xBar x y) (lib.starts opts.nTries) opts.nTries) _ = _
  rw [hn]
  rfl

theorem numericalSolve_isOk (lib : Lib K p n q) (x : Matrix (Fin p) (Fin n) K)
    (xbar : Matrix (Fin p) (Fin (n + q)) K) (x0 : List (Fin (len n q) → K)) (t : Nat)
    (hp : 3 ≤ p) (ht : 0 < t) (hl : t ≤ x0.length) :
    ∃ s alpha, numericalSolve lib x xbar x0 t = .ok s ∧ s.alpha[s.idx]? = some alpha := by
  unfold numericalSolve
  rw [if_neg (by omega), if_neg (by omega)]
  dsimp only
  have hne : (x0.take t).map (fun guess => lib.bfgs (errorFunction xbar) guess) ≠ [] := by
    intro h
    have := congrArg List.length h
    simp only [List.length_map, List.length_take, List.length_nil] at this
    omega
  generalize (x0.take t).map (fun guess => lib.bfgs (errorFunction xbar) guess) = results at hne
  obtain ⟨idx, hidx⟩ := argmax_isSome
    (l := results.map fun r => lib.quality (x * (aOf r.1).transpose)) (by simpa using hne)
  rw [hidx]
  have hlt := argmax_lt hidx
  rw [List.length_map] at hlt
  refine ⟨_, fun i => lib.half ((results[idx]).1 i), rfl, ?_⟩
  dsimp only
  rw [List.getElem?_map, List.getElem?_eq_getElem hlt]
  rfl

/-- **C164, the numerical mode.**  It returns a result exactly when there are three instances, one
try, as many starting points as tries, one label per feature, and no pre-calculated `alpha` of the
right shape. -/
theorem C164_numerical_partial (lib : Lib K p n q) (x : Matrix (Fin p) (Fin n) K)
    (y : Matrix (Fin p) (Fin q) K) (labels : List String) (opts : Options K n q)
    (hm : opts.analytic = false) :
    Returns lib x y labels opts ↔
      3 ≤ p ∧ 1 ≤ opts.nTries ∧ labels.length = n ∧
      (∀ given, opts.x0 = some given → opts.nTries ≤ given.length) ∧
      (opts.x0 = none → opts.nTries ≤ (lib.starts opts.nTries).length) ∧
      ∀ shape values, opts.alpha = some (shape, values) → shape ≠ (2 * (n + q) + 2 * n, 1) := by
  unfold Returns
  rw [pilot_numerical _ _ _ _ _ hm]
  by_cases hal : (opts.alpha.any fun al => decide (al.1 = (len n q, 1))) = true
  · rw [if_pos hal]
    constructor
    · rintro ⟨out, h⟩
      cases h
    · rintro ⟨-, -, -, -, -, h⟩
      exfalso
      rcases ha : opts.alpha with _ | ⟨shape, values⟩
      · rw [ha] at hal
        cases hal
      · rw [ha] at hal
        exact h shape values ha (by simpa using hal)
  · rw [if_neg hal]
    have hal' : ∀ shape values, opts.alpha = some (shape, values) → shape ≠ (2 * (n + q) + 2 * n, 1) := by
      intro shape values ha he
      apply hal
      rw [ha]
      simp [he, len]
    have hx : ((∀ given, opts.x0 = some given → opts.nTries ≤ given.length) ∧
        (opts.x0 = none → opts.nTries ≤ (lib.starts opts.nTries).length)) ↔
        opts.nTries ≤ (opts.x0.getD (lib.starts opts.nTries)).length := by
      rcases opts.x0 with _ | given
      · simp
      · simp
    constructor
    · rintro ⟨out, h⟩
      have hnum : 3 ≤ p ∧ 1 ≤ opts.nTries ∧
          opts.nTries ≤ (opts.x0.getD (lib.starts opts.nTries)).length := by
        by_contra hc
        have he : ∃ e, numericalSolve lib x (xBar x y) (opts.x0.getD (lib.starts opts.nTries))
            opts.nTries = .error e := by
          unfold numericalSolve
          by_cases h1 : p < 3 ∧ 0 < opts.nTries
          · rw [if_pos h1]
            exact ⟨_, rfl⟩
          · rw [if_neg h1]
            by_cases h2 : (opts.x0.getD (lib.starts opts.nTries)).length < opts.nTries
            · rw [if_pos h2]
              exact ⟨_, rfl⟩
            · rw [if_neg h2]
              have h0 : opts.nTries = 0 := by omega
              rw [h0]
              exact ⟨_, rfl⟩
        obtain ⟨e, he⟩ := he
        rw [he] at h
        cases h
      refine ⟨hnum.1, hnum.2.1, ?_, (hx.2 hnum.2.2).1, (hx.2 hnum.2.2).2, hal'⟩
      by_contra hlab
      cases hs : numericalSolve lib x (xBar x y) (opts.x0.getD (lib.starts opts.nTries)) opts.nTries with
      | error e =>
        rw [hs] at h
        cases h
      | ok s =>
        rw [hs] at h
        dsimp only [Except.bind] at h
        cases ha : s.alpha[s.idx]? with
        | none =>
          rw [ha] at h
          cases h
        | some alpha =>
          rw [ha] at h
          dsimp only at h
          unfold summary at h
          rw [if_neg hlab] at h
          cases h
    · rintro ⟨h3, h1, hlab, hg, hn, -⟩
      obtain ⟨s, alpha, hs, ha⟩ := numericalSolve_isOk lib x (xBar x y)
        (opts.x0.getD (lib.starts opts.nTries)) opts.nTries h3 h1 (hx.1 ⟨hg, hn⟩)
      rw [hs]
      dsimp only [Except.bind]
      rw [ha]
      dsimp only
      unfold summary
      rw [if_pos hlab]
      exact ⟨_, rfl⟩

/-- **C164, the analytic mode.**  With libraries that keep their contracts it returns a result exactly
when the features are linearly independent, there are two columns and one label per feature. -/
theorem C164_analytic_partial {lib : Lib K p n q} (x : Matrix (Fin p) (Fin n) K)
    (y : Matrix (Fin p) (Fin q) K) (labels : List String) (opts : Options K n q)
    (hinv : Inverts lib.inv) (hs : ∀ d : Fin (n + q) → K, Ascending d (lib.argsort d))
    (hm : opts.analytic = true) :
    Returns lib x y labels opts ↔ Independent x ∧ 2 ≤ n + q ∧ labels.length = n := by
  constructor
  · rintro ⟨out, h⟩
    rw [pilot_analytic _ _ _ _ _ hm] at h
    cases hsol : analyticSolve lib x (xBar x y) with
    | error e =>
      rw [hsol] at h
      cases h
    | ok s =>
      rw [hsol] at h
      have hlab : labels.length = n := by
        by_contra hlab
        dsimp only [Except.bind] at h
        unfold summary at h
        rw [if_neg hlab] at h
        cases h
      unfold analyticSolve at hsol
      simp only [transpose_transpose] at hsol
      cases hld : leading lib (lib.eig ((xBar x y).transpose * xBar x y)).1 with
      | none =>
        rw [hld] at hsol
        cases hsol
      | some ij =>
        rw [hld] at hsol
        dsimp only at hsol
        cases hr : lib.inv (x.transpose * x) with
        | none =>
          rw [hr] at hsol
          cases hsol
        | some r =>
          refine ⟨?_, ?_, hlab⟩
          · have h1 := mul_eq_one_comm.1 (hinv.sound _ _ hr)
            intro w hw j
            have hz : x.mulVec w = 0 := funext hw
            have : (r * (x.transpose * x)).mulVec w = 0 := by
              rw [← Matrix.mulVec_mulVec, ← Matrix.mulVec_mulVec, hz]
              simp
            rw [h1, Matrix.one_mulVec] at this
            exact congrFun this j
          · have hp := (hs fun i => |(lib.eig ((xBar x y).transpose * xBar x y)).1 i|).all.length_eq
            rw [List.length_finRange] at hp
            unfold leading at hld
            rcases hrev : (lib.argsort fun i => |(lib.eig ((xBar x y).transpose * xBar x y)).1 i|).reverse
              with _ | ⟨a, _ | ⟨b, l⟩⟩
            · rw [hrev] at hld
              cases hld
            · rw [hrev] at hld
              cases hld
            · rw [← List.length_reverse, hrev] at hp
              simp only [List.length_cons] at hp
              omega
  · rintro ⟨hx, hq, hl⟩
    exact C78_succeeds hinv hx hq hl hs hm

theorem independent_le {x : Matrix (Fin p) (Fin n) K} (h : Independent x) : n ≤ p := by
  have hinj : Function.Injective x.mulVecLin := by
    rw [← LinearMap.ker_eq_bot, LinearMap.ker_eq_bot']
    intro w hw
    funext j
    exact h w (fun i => congrFun hw i) j
  have := LinearMap.finrank_le_finrank_of_injective hinj
  simpa using this

/-- **C164.**  In particular the analytic mode never returns a result when there are more features
than instances, nor when a feature is listed twice, nor when a feature is zero everywhere. -/
theorem C164_degenerate_partial {lib : Lib K p n q} (x : Matrix (Fin p) (Fin n) K)
    (y : Matrix (Fin p) (Fin q) K) (labels : List String) (opts : Options K n q)
    (hinv : Inverts lib.inv) (hs : ∀ d : Fin (n + q) → K, Ascending d (lib.argsort d))
    (hm : opts.analytic = true)
    (h : p < n ∨ (∃ j k, j ≠ k ∧ ∀ i, x i j = x i k) ∨ ∃ j, ∀ i, x i j = 0) :
    ¬Returns lib x y labels opts := by
  intro hr
  have hx := ((C164_analytic_partial x y labels opts hinv hs hm).1 hr).1
  rcases h with h | ⟨j, k, hjk, h⟩ | ⟨j, h⟩
  · have := independent_le hx
    omega
  · have := hx (Pi.single j 1 - Pi.single k 1) (fun i => by
      simp [mul_sub, Finset.sum_sub_distrib, Pi.single_apply, h i]) j
    simp [Pi.single_apply, hjk] at this
  · have := hx (Pi.single j 1) (fun i => by simp [Pi.single_apply, h i]) j
    simp at this

/-- The example has four instances and three tries. -/
example : Returns exLib exX exY exLabels (exOpts false) :=
  (C164_numerical_partial exLib exX exY exLabels (exOpts false) rfl).2
    ⟨by decide, by decide, rfl, (fun _ h => by cases h), (fun _ => by decide), (fun _ _ h => by cases h)⟩

/-- A library for two instances, one feature and one algorithm that keeps all contracts used here. -/
def exLib1 : Lib ℚ 2 1 1 where
  eig := fun _ => (fun _ => 0, 0)
  argsort := fun d => if d 0 ≤ d 1 then [0, 1] else [1, 0]
  inv := fun m => if m 0 0 = 0 then none else some (of ![![(m 0 0)⁻¹]])
  half := id
  bfgs := fun f v => (v, f v)
  quality := fun _ => some 1
  starts := fun t => (List.range t).map fun i _ => i

theorem exLib1_inverts : Inverts exLib1.inv := by
  constructor
  · intro m r h
    unfold exLib1 at h
    dsimp only at h
    split at h
    · cases h
    · rename_i h0
      injection h with h
      subst h
      ext i j
      obtain rfl : i = 0 := by omega
      obtain rfl : j = 0 := by omega
      rw [mul_apply]
      simp [h0]
  · rintro m ⟨r, h⟩
    refine ⟨_, if_neg fun h0 => ?_⟩
    have := congrFun (congrFun h 0) 0
    rw [mul_apply] at this
    simp [h0] at this

theorem exLib1_sorts (d : Fin (1 + 1) → ℚ) : Ascending d (exLib1.argsort d) := by
  unfold exLib1
  dsimp only
  split
  · rename_i h
    exact ⟨by decide, by simpa using h⟩
  · rename_i h
    exact ⟨by decide, by simpa using (not_le.1 h).le⟩

/-- The same two instances: a result in analytic mode, an exception in numerical mode. -/
example :
    Returns exLib1 (of ![![1], ![-1]]) (of ![![1], ![2]]) ["f"]
      { analytic := true, nTries := 1, alpha := none, x0 := none } ∧
    pilot exLib1 (of ![![1], ![-1]]) (of ![![1], ![2]]) ["f"]
      { analytic := false, nTries := 1, alpha := none, x0 := none } = .error .valueError := by
  refine ⟨(C164_analytic_partial _ _ _ _ exLib1_inverts exLib1_sorts rfl).2 ⟨?_, by decide, rfl⟩,
    C164_refuted _ _ _ _ _ rfl rfl rfl (by decide) rfl (by decide)⟩
  intro w hw j
  have := hw 0
  obtain rfl : j = 0 := by omega
  simpa using this

/-- A feature that is zero everywhere. -/
example : ¬Returns exLib1 (of ![![0], ![0]]) (of ![![1], ![2]]) ["f"]
    { analytic := true, nTries := 1, alpha := none, x0 := none } :=
  C164_degenerate_partial _ _ _ _ exLib1_inverts exLib1_sorts rfl
    (Or.inr (Or.inr ⟨0, fun i => by fin_cases i <;> rfl⟩))

end Verif.Pilot
