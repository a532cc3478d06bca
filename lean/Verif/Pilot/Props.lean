import Verif.Pilot.Lemmas
import Mathlib.Tactic.NormNum
import Mathlib.Algebra.Order.Ring.Rat
/-!
# Properties of PILOT (C74-C79, C107-C109)
-/
set_option autoImplicit false
set_option linter.unusedSectionVars false

namespace Verif.Pilot

open Matrix

variable {K : Type} [Field K] [LinearOrder K] [IsStrictOrderedRing K] {p n q : Nat}

/-! ### An example -/

/-- Four instances, two features: uncorrelated, mean 0 and variance 1. -/
def exX : Matrix (Fin 4) (Fin 2) ℚ := of ![![1, 1], ![1, -1], ![-1, 1], ![-1, -1]]

/-- Four algorithms with the same performance, uncorrelated with the features. -/
def exY : Matrix (Fin 4) (Fin 4) ℚ :=
  of ![![1, 1, 1, 1], ![-1, -1, -1, -1], ![-1, -1, -1, -1], ![1, 1, 1, 1]]

/-- Eigenvectors of the data as columns: the performance, the two features and the rest. -/
def exV : Matrix (Fin (2 + 4)) (Fin (2 + 4)) ℚ :=
  of ![![0, 1, 0, 0, 0, 0], ![0, 0, 1, 0, 0, 0], ![1 / 2, 0, 0, 1 / 2, 1 / 2, 1 / 2],
    ![1 / 2, 0, 0, -1 / 2, 1 / 2, -1 / 2], ![1 / 2, 0, 0, 1 / 2, -1 / 2, -1 / 2],
    ![1 / 2, 0, 0, -1 / 2, -1 / 2, 1 / 2]]

/-- Their eigenvalues. -/
def exD : Fin (2 + 4) → ℚ := ![16, 4, 4, 0, 0, 0]

/-- A library that is right for the example: the inverse for diagonal matrices, an optimiser that
stays where it is. -/
def exLib : Lib ℚ 4 2 4 where
  eig := fun _ => (exD, exV)
  argsort := fun _ => [3, 4, 5, 2, 1, 0]
  inv := fun m => if m 0 1 = 0 ∧ m 1 0 = 0 ∧ m 0 0 ≠ 0 ∧ m 1 1 ≠ 0 then
    some (of ![![(m 0 0)⁻¹, 0], ![0, (m 1 1)⁻¹]]) else none
  half := id
  bfgs := fun f v => (v, f v)
  quality := fun z => some (z 0 0)
  starts := fun t => (List.range t).map fun i _ => i

/-- Options for both modes. -/
def exOpts (analytic : Bool) : Options ℚ 2 4 := { analytic, nTries := 3, alpha := none, x0 := none }

/-- The labels of the features. -/
def exLabels : List String := ["f", "g"]

theorem exLib_contract : Eigen (gram fun i r => column exX exY r i)
    (exLib.eig (gram fun i r => column exX exY r i)).1
    (exLib.eig (gram fun i r => column exX exY r i)).2 ∧
    Ascending (fun i => |exD i|) (exLib.argsort fun i => |exD i|) := by
  refine ⟨⟨by decide +kernel, by decide +kernel⟩, ⟨?_, by decide +kernel⟩⟩
  decide +kernel

/-! ### C74 -/

/-- **C74** is false when a try has no defined performance: a first try without performance is
returned although another one has performance 1. The first one starts at zero, where the gradient
vanishes, and puts all instances at the same point. -/
theorem C74_refuted : ∃ (lib : Lib ℚ 3 1 1) (opts : Options ℚ 1 1) (out : Out ℚ 3 1 1),
    pilot lib (of ![![1], ![2], ![4]]) (of ![![1], ![0], ![3]]) ["f"] opts = .ok out ∧ opts.analytic = false ∧
    out.perf = some [none, some 1] ∧ out.a = of ![![0], ![0]] := by
  let lib : Lib ℚ 3 1 1 :=
    { eig := fun _ => (fun _ => 0, 0), argsort := fun _ => [], inv := fun _ => none, half := id
      bfgs := fun f v => (v, f v)
      quality := fun z => if z 0 0 = z 1 0 ∧ z 1 0 = z 2 0 then none else some 1
      starts := fun _ => [fun _ => 0, fun _ => 1] }
  let opts : Options ℚ 1 1 := { analytic := false, nTries := 2, alpha := none, x0 := none }
  have hr : (pilot lib (of ![![1], ![2], ![4]]) (of ![![1], ![0], ![3]]) ["f"] opts).toOption.map (fun o => (o.perf, o.a)) =
      some (some [none, some 1], of ![![0], ![0]]) := by decide +kernel
  rcases he : pilot lib (of ![![1], ![2], ![4]]) (of ![![1], ![0], ![3]]) ["f"] opts with e | out
  · rw [he] at hr
    cases hr
  · rw [he] at hr
    have h := Option.some.inj hr
    exact ⟨lib, opts, out, he, rfl, congrArg Prod.fst h, congrArg Prod.snd h⟩

/-- **C74, the true part.**  In numerical mode, when every try has a performance, the returned `a`
is, up to the rounding to half precision, the one of a try with the largest performance. -/
theorem C74_partial {lib : Lib K p n q} {x : Matrix (Fin p) (Fin n) K}
    {y : Matrix (Fin p) (Fin q) K} {labels : List String} {opts : Options K n q} {out : Out K p n q}
    {perf : List (Option K)} (hm : opts.analytic = false)
    (h : pilot lib x y labels opts = .ok out) (hp : out.perf = some perf)
    (hn : ∀ o ∈ perf, o ≠ none) :
    ∃ (x0 : List (Fin (len n q) → K)) (i : Nat) (guess : Fin (len n q) → K) (best : K),
      out.x0 = some x0 ∧ x0[i]? = some guess ∧ perf[i]? = some (some best) ∧
      perf.length = opts.nTries ∧ (∀ v, some v ∈ perf → v ≤ best) ∧
      out.a = (aOf (lib.bfgs (errorFunction (xBar x y)) guess).1).map lib.half := by
  obtain ⟨x0, idx, guess, alpha, hx0, hlen, hlt, hg, hal, ho, hperf, harg, _, ha, _⟩ :=
    numerical_ok hm h
  rw [hp] at hperf
  injection hperf with hperf
  rw [← hperf] at harg
  obtain ⟨v, hv, hmax⟩ := argmax_spec harg hn
  refine ⟨x0, idx, guess, v, ho, hg, hv, ?_, hmax, ?_⟩
  · rw [hperf]
    simp only [List.length_map, List.length_take]
    omega
  · rw [ha, hal]
    rfl

/-- **C74.**  Without tries, numerical mode always fails. -/
theorem C74_no_tries_partial (lib : Lib K p n q) (x : Matrix (Fin p) (Fin n) K)
    (y : Matrix (Fin p) (Fin q) K) (labels : List String) (opts : Options K n q)
    (hm : opts.analytic = false) (h0 : opts.nTries = 0) :
    pilot lib x y labels opts = .error .unboundLocal := by
  unfold pilot numericalSolve
  simp only [hm, Bool.false_eq_true, if_false, h0, Nat.not_lt_zero, and_false, List.take_zero, List.map_nil]
  split
  · rfl
  · rfl

example : ((pilot exLib exX exY exLabels (exOpts false)).toOption.map fun o => (o.perf, o.a)) =
    some (some [some 0, some 2, some 4], of ![![2, 2], ![2, 2]]) := by decide +kernel

/-! ### C75 -/

/-- **C75** is false: in numerical mode every pre-calculated `alpha` of the right shape raises an
`UnboundLocalError`. -/
theorem C75_refuted (lib : Lib K p n q) (x : Matrix (Fin p) (Fin n) K)
    (y : Matrix (Fin p) (Fin q) K) (labels : List String) (opts : Options K n q)
    (values : Nat → Nat → K) (hm : opts.analytic = false)
    (ha : opts.alpha = some ((2 * (n + q) + 2 * n, 1), values)) :
    pilot lib x y labels opts = .error .unboundLocal := by
  unfold pilot
  simp [hm, ha, len]

/-- **C75, the rest.**  An `alpha` of any other shape, and any `alpha` in analytic mode, is
ignored. -/
theorem C75_partial (lib : Lib K p n q) (x : Matrix (Fin p) (Fin n) K)
    (y : Matrix (Fin p) (Fin q) K) (labels : List String) (opts : Options K n q)
    (h : opts.analytic = true ∨ ∀ shape values, opts.alpha = some (shape, values) →
      shape ≠ (2 * (n + q) + 2 * n, 1)) :
    pilot lib x y labels opts = pilot lib x y labels { opts with alpha := none } := by
  unfold pilot
  rcases hm : opts.analytic with _ | _
  · rcases h with h | h
    · rw [hm] at h
      cases h
    · have : (opts.alpha.any fun al => decide (al.1 = (len n q, 1))) = false := by
        rcases ha : opts.alpha with _ | ⟨shape, values⟩
        · rfl
        · simpa [len] using h shape values ha
      simp [this]
  · simp

example : (pilot exLib exX exY exLabels
    { exOpts false with alpha := some ((16, 1), fun _ _ => 1) }).toOption.isNone = true ∧
    (pilot exLib exX exY exLabels
    { exOpts false with alpha := some ((15, 1), fun _ _ => 1) }).toOption.isSome = true := by
  decide +kernel

/-! ### C76 -/

/-- **C76, analytic mode.**  `z = x aᵀ` and the error is the sum of squared differences between the
data and its reconstruction from `z`, `b` and `c`. -/
theorem C76_analytic {lib : Lib K p n q} {x : Matrix (Fin p) (Fin n) K}
    {y : Matrix (Fin p) (Fin q) K} {labels : List String} {opts : Options K n q} {out : Out K p n q}
    (hm : opts.analytic = true) (h : pilot lib x y labels opts = .ok out) :
    Projects x out.a out.z ∧ 0 ≤ out.error ∧
      ∃ hc : out.cCols = q, out.error = residual x y out.z out.b (fun k j => out.c k (j.cast hc.symm)) := by
  unfold pilot at h
  simp only [hm, if_true] at h
  split at h
  · cases h
  rename_i s hs
  split at h
  · cases h
  injection h with h
  subst h
  obtain ⟨ij, w, r, _, _, _, _, hz, hb, hcc, he, _⟩ := analyticSolve_ok hs
  refine ⟨?_, ?_, rfl, ?_⟩
  · intro i k
    simp only
    rw [hz, mul_apply]
    rfl
  · simp only
    rw [he]
    exact sq_nonneg' _
  · simp only [Fin.cast_eq_self]
    rw [he, residual_eq, hb, hcc]

/-- **C76, numerical mode.**  `z = x aᵀ` and the error is the sum of squared differences between the
data and its reconstruction from `z`, `b` and coefficients of the algorithms of which `c` has all
but the first algorithm's. -/
theorem C76_numerical {lib : Lib K p n q} {x : Matrix (Fin p) (Fin n) K}
    {y : Matrix (Fin p) (Fin q) K} {labels : List String} {opts : Options K n q} {out : Out K p n q}
    (hm : opts.analytic = false) (h : pilot lib x y labels opts = .ok out) :
    Projects x out.a out.z ∧ 0 ≤ out.error ∧
      ∃ coef : Matrix (Fin 2) (Fin q) K, out.error = residual x y out.z out.b coef ∧
        ∀ (k : Fin 2) (j : Fin out.cCols) (r : Fin q), r.val = j.val + 1 → out.c k j = coef k r := by
  obtain ⟨x0, idx, guess, alpha, _, _, _, _, _, _, _, _, _, ha, hz, hb, ⟨hc, hcv⟩, he, _⟩ :=
    numerical_ok hm h
  refine ⟨?_, ?_, fun k j => bOf alpha (Fin.natAdd n j) k, ?_, ?_⟩
  · intro i k
    rw [hz, mul_apply]
    rfl
  · rw [he]
    exact sq_nonneg' _
  · rw [he, residual_eq, hb]
  · intro k j r hr
    rw [hcv]
    congr 1
    apply Fin.ext
    simp only [Fin.val_natAdd]
    omega

example : ((pilot exLib exX exY exLabels (exOpts true)).toOption.map fun o => (o.error, o.a)) =
    some (20, of ![![0, 0], ![-1, 0]]) ∧
    ((pilot exLib exX exY exLabels (exOpts false)).toOption.map fun o => o.error) = some 2968 := by
  decide +kernel

/-! ### C77 -/

/-- **C77** is false in numerical mode: `c` has one column less than there are algorithms. -/
theorem C77_refuted {lib : Lib K p n q} {x : Matrix (Fin p) (Fin n) K}
    {y : Matrix (Fin p) (Fin q) K} {labels : List String} {opts : Options K n q} {out : Out K p n q}
    (hm : opts.analytic = false) (hq : 0 < q) (h : pilot lib x y labels opts = .ok out) :
    out.cCols = q - 1 ∧ out.cCols ≠ q := by
  obtain ⟨x0, idx, guess, alpha, _, _, _, _, _, _, _, _, _, _, _, _, ⟨hc, _⟩, _⟩ := numerical_ok hm h
  exact ⟨hc, by omega⟩

/-- **C77, the true part.**  In analytic mode there is one column per algorithm. -/
theorem C77_partial {lib : Lib K p n q} {x : Matrix (Fin p) (Fin n) K}
    {y : Matrix (Fin p) (Fin q) K} {labels : List String} {opts : Options K n q} {out : Out K p n q}
    (hm : opts.analytic = true) (h : pilot lib x y labels opts = .ok out) : out.cCols = q :=
  (C76_analytic hm h).2.2.1

example : ((pilot exLib exX exY exLabels (exOpts true)).toOption.map fun o => o.cCols) = some 4 ∧
    ((pilot exLib exX exY exLabels (exOpts false)).toOption.map fun o => o.cCols) = some 3 := by
  decide +kernel

/-! ### C78 -/

theorem gram_eq (x : Matrix (Fin p) (Fin n) K) (y : Matrix (Fin p) (Fin q) K) :
    gram (fun i r => column x y r i) = (xBar x y).transpose * xBar x y := by
  funext u v
  unfold gram
  rw [mul_apply]
  rfl

/-- What the analytic output consists of. -/
theorem analytic_ok {lib : Lib K p n q} {x : Matrix (Fin p) (Fin n) K}
    {y : Matrix (Fin p) (Fin q) K} {labels : List String} {opts : Options K n q} {out : Out K p n q}
    (hm : opts.analytic = true) (h : pilot lib x y labels opts = .ok out) :
    ∃ (s : Analytic K p n q) (hc : out.cCols = q), analyticSolve lib x (xBar x y) = .ok s ∧
      out.a = s.a ∧ out.z = s.z ∧ (∀ k j, out.c k (j.cast hc.symm) = s.c k j) ∧ out.b = s.b ∧
      out.error = s.error ∧ out.r2 = s.r2 ∧ summary out.a labels = .ok out.summary := by
  unfold pilot at h
  simp only [hm, if_true] at h
  split at h
  · cases h
  rename_i s hs
  split at h
  · cases h
  rename_i t ht
  injection h with h
  subst h
  exact ⟨s, rfl, hs, rfl, rfl, fun _ _ => rfl, rfl, rfl, rfl, ht⟩

/-- The coordinate of instance `i` along direction `k` of the data, given by `b` and `c`. -/
def target (x : Matrix (Fin p) (Fin n) K) (y : Matrix (Fin p) (Fin q) K)
    (b : Matrix (Fin n) (Fin 2) K) (c : Fin 2 → Fin q → K) (i : Fin p) (k : Fin 2) : K :=
  (∑ j, x i j * b j k) + ∑ j, y i j * c k j

theorem target_eq (x : Matrix (Fin p) (Fin n) K) (y : Matrix (Fin p) (Fin q) K)
    (w : Matrix (Fin (n + q)) (Fin 2) K) (i : Fin p) (k : Fin 2) :
    target x y (fun i => w (Fin.castAdd q i)) (fun k j => w (Fin.natAdd n j) k) i k =
      (w.transpose * (xBar x y).transpose) k i := by
  unfold target
  rw [mul_apply, Fin.sum_univ_add]
  congr 1
  · refine Finset.sum_congr rfl fun j _ => ?_
    rw [transpose_apply, transpose_apply, mul_comm]
    unfold xBar
    rw [Fin.append_left]
  · refine Finset.sum_congr rfl fun j _ => ?_
    rw [transpose_apply, transpose_apply, mul_comm]
    unfold xBar
    rw [Fin.append_right]

/-- **C78.**  In analytic mode `x aᵀ` is, among all `x a'ᵀ`, the closest to the coordinates of the
data along the two directions `b`, `c`. -/
theorem C78_least_squares {lib : Lib K p n q} {x : Matrix (Fin p) (Fin n) K}
    {y : Matrix (Fin p) (Fin q) K} {labels : List String} {opts : Options K n q} {out : Out K p n q}
    (hinv : Inverts lib.inv) (hm : opts.analytic = true)
    (h : pilot lib x y labels opts = .ok out) :
    ∃ hc : out.cCols = q, ∀ a' : Matrix (Fin 2) (Fin n) K,
      ∑ k, ∑ i, (target x y out.b (fun k j => out.c k (j.cast hc.symm)) i k - ∑ j, x i j * out.a k j) ^ 2 ≤
      ∑ k, ∑ i, (target x y out.b (fun k j => out.c k (j.cast hc.symm)) i k - ∑ j, x i j * a' k j) ^ 2 := by
  obtain ⟨s, hc, hs, ha, hz, hcc, hb, _⟩ := analytic_ok hm h
  obtain ⟨ij, w, r, _, _, hr, hsa, _, hsb, hsc, _⟩ := analyticSolve_ok hs
  refine ⟨hc, fun a' => ?_⟩
  have hls := least_squares (hinv.sound _ _ hr) (w.transpose * (xBar x y).transpose) a'
  rw [← hsa, ← ha] at hls
  have key : ∀ a'' : Matrix (Fin 2) (Fin n) K,
      ∑ k, ∑ i, (target x y out.b (fun k j => out.c k (j.cast hc.symm)) i k - ∑ j, x i j * a'' k j) ^ 2 =
      sq (w.transpose * (xBar x y).transpose - a'' * x.transpose) := by
    intro a''
    unfold sq
    refine Finset.sum_congr rfl fun k _ => Finset.sum_congr rfl fun i _ => ?_
    rw [Matrix.sub_apply, ← target_eq, mul_apply]
    have e1 : (fun (k : Fin 2) (j : Fin q) => out.c k (j.cast hc.symm)) =
        fun k j => w (Fin.natAdd n j) k := by
      funext k j
      rw [hcc, hsc]
    rw [e1, hb, hsb]
    congr 2
    exact Finset.sum_congr rfl fun j _ => mul_comm _ _
  rw [key, key]
  exact hls

/-- Direction `k` of the data: the coefficients of the features, then of the algorithms. -/
def direction (b : Matrix (Fin n) (Fin 2) K) (c : Fin 2 → Fin q → K) (k : Fin 2) (r : Fin (n + q)) : K :=
  Fin.addCases (fun j => b j k) (fun j => c k j) r

theorem direction_eq (w : Matrix (Fin (n + q)) (Fin 2) K) (k : Fin 2) (r : Fin (n + q)) :
    direction (fun i => w (Fin.castAdd q i)) (fun k j => w (Fin.natAdd n j) k) k r = w r k := by
  unfold direction
  refine Fin.addCases (fun j => ?_) (fun j => ?_) r
  · rw [Fin.addCases_left]
  · rw [Fin.addCases_right]

/-- **C78.**  The two directions are eigenvectors of length one of the products of the data, for
two eigenvalues such that no other one is larger in absolute value. -/
theorem C78_directions {lib : Lib K p n q} {x : Matrix (Fin p) (Fin n) K}
    {y : Matrix (Fin p) (Fin q) K} {labels : List String} {opts : Options K n q} {out : Out K p n q}
    {d : Fin (n + q) → K} {v : Matrix (Fin (n + q)) (Fin (n + q)) K}
    (hd : lib.eig (gram fun i r => column x y r i) = (d, v))
    (he : Eigen (gram fun i r => column x y r i) d v)
    (hs : Ascending (fun i => |d i|) (lib.argsort fun i => |d i|))
    (hm : opts.analytic = true) (h : pilot lib x y labels opts = .ok out) :
    ∃ (hc : out.cCols = q) (e : Fin 2 → Fin (n + q)), e 0 ≠ e 1 ∧
      (∀ k r, ∑ s, gram (fun i r => column x y r i) r s *
          direction out.b (fun k j => out.c k (j.cast hc.symm)) k s =
        d (e k) * direction out.b (fun k j => out.c k (j.cast hc.symm)) k r) ∧
      (∀ k, ∑ r, direction out.b (fun k j => out.c k (j.cast hc.symm)) k r ^ 2 = 1) ∧
      |d (e 1)| ≤ |d (e 0)| ∧ ∀ r, r ≠ e 0 → |d r| ≤ |d (e 1)| := by
  obtain ⟨s, hc, hsol, ha, hz, hcc, hb, _⟩ := analytic_ok hm h
  obtain ⟨ij, w, _, hij, hw, _, _, _, hsb, hsc, _⟩ := analyticSolve_ok hsol
  rw [← gram_eq, hd] at hij hw
  have e1 : (fun (k : Fin 2) (j : Fin q) => out.c k (j.cast hc.symm)) =
      fun k j => w (Fin.natAdd n j) k := by
    funext k j
    rw [hcc, hsc]
  have hwv : ∀ k r, w r k = -v r (if k = 0 then ij.1 else ij.2) := by
    intro k r
    rw [hw]
    unfold leadingVectors
    rw [neg_one_mul]
  have hord : ij.1 ≠ ij.2 ∧ |d ij.2| ≤ |d ij.1| ∧ ∀ r, r ≠ ij.1 → |d r| ≤ |d ij.2| := by
    unfold leading at hij
    split at hij
    · rename_i i j l hl
      injection hij with hij
      subst hij
      have hrev : (lib.argsort fun i => |d i|).reverse.Pairwise fun i j => |d j| ≤ |d i| :=
        List.pairwise_reverse.2 hs.sorted
      have hnd : (lib.argsort fun i => |d i|).reverse.Nodup :=
        List.nodup_reverse.2 (hs.all.nodup_iff.2 (List.nodup_finRange _))
      have hall : ∀ r, r ∈ (lib.argsort fun i => |d i|).reverse := fun r =>
        List.mem_reverse.2 (hs.all.mem_iff.2 (List.mem_finRange r))
      rw [hl] at hrev hnd hall
      refine ⟨fun e => ?_, ?_, ?_⟩
      · simp only at e
        rw [List.nodup_cons, e] at hnd
        exact hnd.1 (by simp)
      · exact (List.pairwise_cons.1 hrev).1 j (by simp)
      · intro r hr
        rcases List.mem_cons.1 (hall r) with h1 | h1
        · exact absurd h1 hr
        rcases List.mem_cons.1 h1 with h2 | h2
        · rw [h2]
        · exact (List.pairwise_cons.1 (List.pairwise_cons.1 hrev).2).1 r h2
    · cases hij
  refine ⟨hc, fun k => if k = 0 then ij.1 else ij.2, ?_, ?_, ?_, ?_, ?_⟩
  · simpa using hord.1
  · intro k r
    rw [e1, hb, hsb]
    simp only [direction_eq]
    simp only [hwv]
    rw [mul_neg, ← he.vector, ← Finset.sum_neg_distrib]
    exact Finset.sum_congr rfl fun t _ => mul_neg _ _
  · intro k
    rw [e1, hb, hsb]
    simp only [direction_eq]
    simp only [hwv, neg_sq]
    exact he.unit _
  · simpa using hord.2.1
  · intro r hr
    simpa using hord.2.2 r (by simpa using hr)

/-- **C78.**  With independent features the analytic mode always succeeds. -/
theorem C78_succeeds {lib : Lib K p n q} {x : Matrix (Fin p) (Fin n) K}
    {y : Matrix (Fin p) (Fin q) K} {labels : List String} {opts : Options K n q}
    (hinv : Inverts lib.inv) (hx : Independent x) (hq : 2 ≤ n + q) (hl : labels.length = n)
    (hs : ∀ d : Fin (n + q) → K, Ascending d (lib.argsort d)) (hm : opts.analytic = true) :
    ∃ out, pilot lib x y labels opts = .ok out := by
  unfold pilot
  simp only [hm, if_true]
  have h1 : ∃ s, analyticSolve lib x (xBar x y) = .ok s := by
    unfold analyticSolve
    simp only [transpose_transpose]
    obtain ⟨ij, hij⟩ : ∃ ij, leading lib (lib.eig ((xBar x y).transpose * xBar x y)).1 = some ij := by
      unfold leading
      have hp := (hs fun i => |(lib.eig ((xBar x y).transpose * xBar x y)).1 i|).all.length_eq
      rw [List.length_finRange] at hp
      rcases hr : (lib.argsort fun i => |(lib.eig ((xBar x y).transpose * xBar x y)).1 i|).reverse
        with _ | ⟨a, _ | ⟨b, l⟩⟩
      · rw [← List.length_reverse, hr] at hp
        simp at hp
        omega
      · rw [← List.length_reverse, hr] at hp
        simp at hp
        omega
      · exact ⟨_, rfl⟩
    obtain ⟨r, hr⟩ := hinv.complete _ (independent_inverse hx)
    rw [hij, hr]
    exact ⟨_, rfl⟩
  obtain ⟨s, hs'⟩ := h1
  rw [hs']
  have ht : ∃ t, summary s.a labels = .ok t := by
    unfold summary
    exact ⟨_, if_pos hl⟩
  obtain ⟨t, ht⟩ := ht
  simp only [ht]
  exact ⟨_, rfl⟩

/-- The data of the example have independent columns, and the library inverts diagonal matrices. -/
example : Independent exX := by
  intro w hw j
  have h0 := hw 0
  have h1 := hw 1
  simp [exX, Fin.sum_univ_two] at h0 h1
  fin_cases j
  · simp only [Fin.zero_eta, Fin.isValue]
    linarith
  · simp only [Fin.mk_one, Fin.isValue]
    linarith

/-- A library for one feature that keeps all contracts. -/
example : Inverts (fun m : Matrix (Fin 1) (Fin 1) ℚ => if m 0 0 = 0 then none else
    some (of ![![(m 0 0)⁻¹]])) := by
  constructor
  · intro m r h
    split at h
    · cases h
    · rename_i h0
      injection h with h
      subst h
      ext i j
      obtain rfl : i = 0 := by omega
      obtain rfl : j = 0 := by omega
      rw [mul_apply]
      simp [h0]
  · rintro m ⟨r, h⟩
    have := congrFun (congrFun h 0) 0
    rw [mul_apply] at this
    simp at this
    have h0 : m 0 0 ≠ 0 := by
      intro h0
      rw [h0] at this
      simp at this
    simp [h0]

/-! ### C79 -/

/-- **C79** is false in numerical mode: `r2` has two values per instance instead of one per
variable, and every one is 1 or undefined, whatever the fit. -/
theorem C79_refuted {lib : Lib K p n q} {x : Matrix (Fin p) (Fin n) K}
    {y : Matrix (Fin p) (Fin q) K} {labels : List String} {opts : Options K n q} {out : Out K p n q}
    (hm : opts.analytic = false) (h : pilot lib x y labels opts = .ok out) :
    out.r2.length = 2 * p ∧ ∀ v ∈ out.r2, v = none ∨ v = some 1 := by
  obtain ⟨x0, idx, guess, alpha, _, _, _, _, _, _, _, _, _, _, _, _, _, _, hr, _⟩ := numerical_ok hm h
  rw [hr]
  refine ⟨by simp; omega, ?_⟩
  intro v hv
  rcases List.mem_append.1 hv with hv | hv
  all_goals
    obtain ⟨i, rfl⟩ := (List.mem_ofFn' _ _).1 hv
    exact sqCorr_self _

/-- **C79, the true part.**  In analytic mode `r2` has, for every feature and algorithm, the squared
correlation (rounded to half precision) between its values and the reconstruction. -/
theorem C79_partial {lib : Lib K p n q} {x : Matrix (Fin p) (Fin n) K}
    {y : Matrix (Fin p) (Fin q) K} {labels : List String} {opts : Options K n q} {out : Out K p n q}
    (hm : opts.analytic = true) (h : pilot lib x y labels opts = .ok out) :
    ∃ hc : out.cCols = q, out.r2.length = n + q ∧
      (∀ j : Fin n, out.r2[j.val]? = some
        ((sqCorr (fun i => x i j) (fun i => reconX out.z out.b i j)).map lib.half)) ∧
      (∀ j : Fin q, out.r2[n + j.val]? = some
        ((sqCorr (fun i => y i j)
          (fun i => reconY out.z (fun k j => out.c k (j.cast hc.symm)) i j)).map lib.half)) := by
  obtain ⟨s, hc, hs, ha, hz, hcc, hb, _, hr2, _⟩ := analytic_ok hm h
  obtain ⟨ij, w, r, _, _, _, _, _, hsb, hsc, _, hsr⟩ := analyticSolve_ok hs
  refine ⟨hc, ?_, ?_, ?_⟩
  · rw [hr2, hsr]
    simp
  · intro j
    rw [hr2, hsr, List.getElem?_ofFn, dif_pos (by omega)]
    have e : (⟨j.val, by omega⟩ : Fin (n + q)) = Fin.castAdd q j := rfl
    rw [e]
    congr 3
    · funext i
      unfold xBar
      rw [Fin.append_left]
    · funext i
      rw [mul_apply, Fin.sum_univ_two, hb, hsb, hz]
      rfl
  · intro j
    rw [hr2, hsr, List.getElem?_ofFn, dif_pos (by omega)]
    have e : (⟨n + j.val, by omega⟩ : Fin (n + q)) = Fin.natAdd n j := rfl
    rw [e]
    congr 3
    · funext i
      unfold xBar
      rw [Fin.append_right]
    · funext i
      unfold reconY
      simp only [hcc]
      rw [mul_apply, Fin.sum_univ_two, hsc, hz]
      rfl

example : ((pilot exLib exX exY exLabels (exOpts true)).toOption.map fun o => o.r2) =
    some [some 1, none, none, none, none, none] ∧
    ((pilot exLib exX exY exLabels (exOpts false)).toOption.map fun o => o.r2) =
      some [none, some 1, some 1, some 1, none, none, none, none] := by
  decide +kernel

/-! ### C107 -/

theorem half_ne {half : ℚ → ℚ} (hh : Half half) (w : Int) (hw : ¬ (3 : Int) ∣ w) (u : ℚ) :
    half u * 3 ≠ w := by
  obtain ⟨m, e, _, he⟩ := hh.bits u
  intro h
  rw [he] at h
  rcases Int.eq_nat_or_neg e with ⟨k, hk | hk⟩
  · rw [hk, zpow_natCast] at h
    have h' : m * 2 ^ k * 3 = w := by exact_mod_cast h
    exact hw ⟨m * 2 ^ k, by rw [← h']; ring⟩
  · rw [hk, zpow_neg, zpow_natCast] at h
    have h2 : (2 : ℚ) ^ k ≠ 0 := by positivity
    have h' : (m : ℚ) * 3 = w * 2 ^ k := by
      field_simp at h
      linarith
    have h'' : m * 3 = w * 2 ^ k := by exact_mod_cast h'
    have hd : (3 : Int) ∣ w * 2 ^ k := ⟨m, by rw [← h'']; ring⟩
    have h3 : IsCoprime (3 : Int) (2 ^ k) := IsCoprime.pow_right ⟨1, -1, by norm_num⟩
    exact hw (h3.dvd_of_dvd_mul_right hd)

/-- **C107** is false: the returned matrices are rounded to half precision, so that the reported
error is not the one the optimiser found for the returned try. -/
theorem C107_refuted (half : ℚ → ℚ) (hh : Half half) :
    ∃ (lib : Lib ℚ 3 1 1) (opts : Options ℚ 1 1) (out : Out ℚ 3 1 1) (e : ℚ), lib.half = half ∧
      (∀ f v, (lib.bfgs f v).2 = f (lib.bfgs f v).1) ∧ opts.analytic = false ∧ opts.nTries = 1 ∧
      pilot lib (of ![![1], ![0], ![0]]) (of ![![0], ![0], ![0]]) ["f"] opts = .ok out ∧ out.eoptim = some [e] ∧
      out.error ≠ e * 6 := by
  let start : Fin (len 1 1) → ℚ := ![1 / 3, 0, 1, 0, 0, 0]
  let lib : Lib ℚ 3 1 1 :=
    { eig := fun _ => (fun _ => 0, 0), argsort := fun _ => [], inv := fun _ => none, half := half
      bfgs := fun f v => (v, f v), quality := fun _ => some 0, starts := fun _ => [start] }
  let opts : Options ℚ 1 1 := { analytic := false, nTries := 1, alpha := none, x0 := none }
  have h0 : half 0 = 0 := by
    have := hh.integers 0 (by norm_num)
    simpa using this
  have h1 : half 1 = 1 := by
    have := hh.integers 1 (by norm_num)
    simpa using this
  have hok : ∃ out, pilot lib (of ![![1], ![0], ![0]]) (of ![![0], ![0], ![0]]) ["f"] opts = .ok out := ⟨_, rfl⟩
  obtain ⟨out, hout⟩ := hok
  obtain ⟨x0, idx, guess, alpha, hx0, _, hlt, hg, hal, _, _, _, heo, ha, hz, _, _, herr, _⟩ :=
    numerical_ok (rfl : opts.analytic = false) hout
  have hidx : idx = 0 := by
    have : idx < 1 := hlt
    omega
  have hx : x0 = [start] := hx0
  rw [hx, hidx] at hg
  have hguess : guess = start := (Option.some.inj hg).symm
  rw [hx] at heo
  refine ⟨lib, opts, out, errorFunction (xBar (of ![![1], ![0], ![0]]) (of ![![0], ![0], ![0]])) start, rfl, fun _ _ => rfl, rfl,
    rfl, hout, heo, ?_⟩
  have hal' : alpha = ![half (1 / 3), 0, 1, 0, 0, 0] := by
    rw [hal, hguess]
    funext i
    fin_cases i
    · rfl
    · exact h0
    · exact h1
    · exact h0
    · exact h0
    · exact h0
  have he1 : errorFunction (xBar (of ![![1], ![0], ![0]]) (of ![![0], ![0], ![0]])) start * 6 = 4 / 9 := by decide +kernel
  have he2 : out.error = (1 - half (1 / 3)) ^ 2 := by
    rw [herr, residual_eq, hz, ha, hal']
    unfold residual reconX reconY
    simp [mul_apply, aOf, bOf, Fin.sum_univ_three]
  rw [he1, he2]
  intro h
  have hprod : (half (1 / 3) * 3 - 1) * (half (1 / 3) * 3 - 5) = 0 := by
    have : (1 - half (1 / 3)) ^ 2 * 9 = 4 := by rw [h]; norm_num
    linarith [this, pow_two (1 - half (1 / 3))]
  rcases mul_eq_zero.1 hprod with h' | h'
  · refine half_ne hh 1 (by norm_num) (1 / 3) ?_
    push_cast
    linarith
  · refine half_ne hh 5 (by norm_num) (1 / 3) ?_
    push_cast
    linarith

/-- **C107, the true part.**  When the chosen try consists of half precision numbers, the reported
error is the mean squared error found by the optimiser times the number of values, and the reported
performance is the one of the returned `z`. -/
theorem C107_partial {lib : Lib K p n q} {x : Matrix (Fin p) (Fin n) K}
    {y : Matrix (Fin p) (Fin q) K} {labels : List String} {opts : Options K n q} {out : Out K p n q}
    (hf : ∀ f v, (lib.bfgs f v).2 = f (lib.bfgs f v).1) (hp : 0 < p) (hq : 0 < n + q)
    (hm : opts.analytic = false) (h : pilot lib x y labels opts = .ok out)
    (hhalf : ∀ x0 guess, out.x0 = some x0 → guess ∈ x0 →
      ∀ i, lib.half ((lib.bfgs (errorFunction (xBar x y)) guess).1 i) =
        (lib.bfgs (errorFunction (xBar x y)) guess).1 i) :
    ∃ (i : Nat) (e : K) (perf : List (Option K)) (eoptim : List K), out.perf = some perf ∧
      out.eoptim = some eoptim ∧ argmax perf = some i ∧ eoptim[i]? = some e ∧
      out.error = e * ((p * (n + q) : Nat) : K) ∧ perf[i]? = some (lib.quality out.z) := by
  obtain ⟨x0, idx, guess, alpha, hx0, _, hlt, hg, hal, hox, hperf, harg, heo, ha, hz, _, _, herr, _⟩ :=
    numerical_ok hm h
  have hal' : alpha = (lib.bfgs (errorFunction (xBar x y)) guess).1 := by
    rw [hal]
    funext i
    exact hhalf x0 guess hox (List.mem_of_getElem? hg) i
  refine ⟨idx, (lib.bfgs (errorFunction (xBar x y)) guess).2, _, _, hperf, heo, harg, ?_, ?_, ?_⟩
  · rw [List.getElem?_map, List.getElem?_take, if_pos hlt, hg]
    rfl
  · rw [hf, errorFunction_eq x y _ hp hq, herr, hz, ha, hal']
  · rw [List.getElem?_map, List.getElem?_take, if_pos hlt, hg, hz, ha, hal']
    rfl

example : ((pilot exLib exX exY exLabels (exOpts false)).toOption.map fun o => (o.eoptim, o.error)) =
    some (some [1, 23 / 3, 371 / 3], 2968) := by decide +kernel

/-! ### C108 -/

/-- **C108** is false: with a library that keeps its contracts, another choice of `a`, `b` and `c`
has the error 16 while the returned solution has 20. -/
theorem C108_refuted : ∃ (out : Out ℚ 4 2 4) (a' : Matrix (Fin 2) (Fin 2) ℚ)
    (b' : Matrix (Fin 2) (Fin 2) ℚ) (c' : Matrix (Fin 2) (Fin 4) ℚ),
    Eigen (gram fun i r => column exX exY r i)
      (exLib.eig (gram fun i r => column exX exY r i)).1
      (exLib.eig (gram fun i r => column exX exY r i)).2 ∧
    Ascending (fun i => |exD i|) (exLib.argsort fun i => |exD i|) ∧
    (∃ r, exLib.inv (gram exX) = some r ∧ gram exX * r = 1) ∧
    pilot exLib exX exY exLabels (exOpts true) = .ok out ∧ out.error = 20 ∧
    residual exX exY (fun i k => ∑ j, exX i j * a' k j) b' c' = 16 := by
  have h : (pilot exLib exX exY exLabels (exOpts true)).toOption.map (fun o => o.error) = some 20 := by
    decide +kernel
  rcases he : pilot exLib exX exY exLabels (exOpts true) with e | out
  · rw [he] at h
    cases h
  · rw [he] at h
    refine ⟨out, of ![![1, 0], ![0, 1]], of ![![1, 0], ![0, 1]], 0, exLib_contract.1, exLib_contract.2,
      ⟨of ![![1 / 4, 0], ![0, 1 / 4]], ?_, ?_⟩, rfl, Option.some.inj h, ?_⟩
    · decide +kernel
    · decide +kernel
    · decide +kernel

/-- **C108, the true part.**  When the two directions are orthonormal, no other `a` has a smaller
error with the same `b` and `c`. -/
theorem C108_partial {lib : Lib K p n q} {x : Matrix (Fin p) (Fin n) K}
    {y : Matrix (Fin p) (Fin q) K} {labels : List String} {opts : Options K n q} {out : Out K p n q}
    (hinv : Inverts lib.inv) (hm : opts.analytic = true)
    (h : pilot lib x y labels opts = .ok out) :
    ∃ hc : out.cCols = q,
      ((∀ k l, ∑ r, direction out.b (fun k j => out.c k (j.cast hc.symm)) k r *
        direction out.b (fun k j => out.c k (j.cast hc.symm)) l r = if k = l then 1 else 0) →
      ∀ a' : Matrix (Fin 2) (Fin n) K, out.error ≤
        residual x y (fun i k => ∑ j, x i j * a' k j) out.b (fun k j => out.c k (j.cast hc.symm))) := by
  obtain ⟨s, hc, hs, ha, hz, hcc, hb, herr, _⟩ := analytic_ok hm h
  obtain ⟨ij, w, r, _, _, hr, hsa, hsz, hsb, hsc, hse, _⟩ := analyticSolve_ok hs
  refine ⟨hc, fun horth a' => ?_⟩
  have e1 : (fun (k : Fin 2) (j : Fin q) => out.c k (j.cast hc.symm)) =
      fun k j => w (Fin.natAdd n j) k := by
    funext k j
    rw [hcc, hsc]
  rw [e1, hb, hsb] at horth
  simp only [direction_eq] at horth
  have hw : w.transpose * w = 1 := by
    ext k l
    rw [mul_apply, one_apply]
    exact horth k l
  rw [e1, hb, hsb]
  have hz' : (fun i k => ∑ j, x i j * a' k j : Matrix (Fin p) (Fin 2) K) = x * a'.transpose := by
    ext i k
    rw [mul_apply]
    rfl
  have hres : residual x y (fun i k => ∑ j, x i j * a' k j) (fun i => w (Fin.castAdd q i))
      (fun k j => w (Fin.natAdd n j) k) = sumSquares (xBar x y) (x * a'.transpose * w.transpose) := by
    rw [residual_eq, ← hz']
  rw [hres, herr, hse, hsz]
  have key : ∀ a'' : Matrix (Fin 2) (Fin n) K,
      sumSquares (xBar x y) (x * a''.transpose * w.transpose) =
        sq ((xBar x y).transpose - w * (w.transpose * (xBar x y).transpose)) +
          sq (w.transpose * (xBar x y).transpose - a'' * x.transpose) := by
    intro a''
    have horth' : w.transpose * ((xBar x y).transpose - w * (w.transpose * (xBar x y).transpose)) = 0 := by
      rw [Matrix.mul_sub, ← Matrix.mul_assoc w.transpose w, hw, Matrix.one_mul, sub_self]
    rw [← sq_isometry w _ hw, ← sq_add _ _ _ horth', sumSquares_eq, ← sq_transpose, transpose_sub,
      transpose_mul, transpose_mul, transpose_transpose, transpose_transpose, Matrix.mul_sub]
    congr 1
    abel
  rw [key, key, hsa]
  have := least_squares (hinv.sound _ _ hr) (w.transpose * (xBar x y).transpose) a'
  linarith

/-- **C108.**  The two directions are orthogonal when their eigenvalues differ. -/
theorem C108_orthogonal_partial {lib : Lib K p n q} {x : Matrix (Fin p) (Fin n) K}
    {y : Matrix (Fin p) (Fin q) K} {labels : List String} {opts : Options K n q} {out : Out K p n q}
    {d : Fin (n + q) → K} {v : Matrix (Fin (n + q)) (Fin (n + q)) K}
    (hd : lib.eig (gram fun i r => column x y r i) = (d, v))
    (he : Eigen (gram fun i r => column x y r i) d v)
    (hs : Ascending (fun i => |d i|) (lib.argsort fun i => |d i|))
    (hne : ∀ i j, i ≠ j → d i ≠ d j)
    (hm : opts.analytic = true) (h : pilot lib x y labels opts = .ok out) :
    ∃ hc : out.cCols = q,
      ∀ k l, ∑ r, direction out.b (fun k j => out.c k (j.cast hc.symm)) k r *
        direction out.b (fun k j => out.c k (j.cast hc.symm)) l r = if k = l then 1 else 0 := by
  obtain ⟨hc, e, he01, hvec, hunit, _⟩ := C78_directions hd he hs hm h
  refine ⟨hc, ?_⟩
  generalize direction out.b (fun k j => out.c k (j.cast hc.symm)) = w at hvec hunit
  have hsym : ∀ r s, gram (fun i r => column x y r i) r s = gram (fun i r => column x y r i) s r := by
    intro r s
    unfold gram
    exact Finset.sum_congr rfl fun i _ => mul_comm _ _
  have hzero : ∑ r, w 0 r * w 1 r = 0 := by
    have h1 : d (e 0) * ∑ r, w 0 r * w 1 r = d (e 1) * ∑ r, w 0 r * w 1 r := by
      calc d (e 0) * ∑ r, w 0 r * w 1 r = ∑ r, (d (e 0) * w 0 r) * w 1 r := by
            rw [Finset.mul_sum]
            exact Finset.sum_congr rfl fun r _ => by ring
        _ = ∑ r, ∑ s, gram (fun i r => column x y r i) r s * w 0 s * w 1 r := by
            refine Finset.sum_congr rfl fun r _ => ?_
            rw [← hvec, Finset.sum_mul]
        _ = ∑ s, ∑ r, gram (fun i r => column x y r i) r s * w 0 s * w 1 r := Finset.sum_comm
        _ = ∑ s, w 0 s * (d (e 1) * w 1 s) := by
            refine Finset.sum_congr rfl fun s _ => ?_
            rw [← hvec, Finset.mul_sum]
            refine Finset.sum_congr rfl fun r _ => ?_
            rw [hsym r s]
            ring
        _ = d (e 1) * ∑ r, w 0 r * w 1 r := by
            rw [Finset.mul_sum]
            exact Finset.sum_congr rfl fun r _ => by ring
    have h2 : (d (e 0) - d (e 1)) * ∑ r, w 0 r * w 1 r = 0 := by
      rw [sub_mul, h1, sub_self]
    rcases mul_eq_zero.1 h2 with h3 | h3
    · exact absurd (sub_eq_zero.1 h3) (hne _ _ he01)
    · exact h3
  have hcomm : ∑ r, w 1 r * w 0 r = 0 := by
    rw [← hzero]
    exact Finset.sum_congr rfl fun r _ => mul_comm _ _
  intro k l
  fin_cases k <;> fin_cases l
  · simpa [pow_two] using hunit 0
  · simpa using hzero
  · simpa using hcomm
  · simpa [pow_two] using hunit 1

/-! ### C109 -/

/-- **C109.**  The summary has the rows `Z_{1}` and `Z_{2}` and, for every feature, a column with its
label and its two coefficients in `a`. -/
theorem C109_summary {lib : Lib K p n q} {x : Matrix (Fin p) (Fin n) K}
    {y : Matrix (Fin p) (Fin q) K} {labels : List String} {opts : Options K n q} {out : Out K p n q}
    (h : pilot lib x y labels opts = .ok out) :
    out.summary.rows = ["Z_{1}", "Z_{2}"] ∧ out.summary.columns.length = n ∧
      ∀ j : Fin n, ∃ l, labels[j.val]? = some l ∧
        out.summary.columns[j.val]? = some (l, [out.a 0 j, out.a 1 j]) := by
  have hs : summary out.a labels = .ok out.summary := by
    rcases hm : opts.analytic with _ | _
    · obtain ⟨_, _, _, _, _, _, _, _, _, _, _, _, _, _, _, _, _, _, _, hs⟩ := numerical_ok hm h
      exact hs
    · obtain ⟨_, _, _, _, _, _, _, _, _, hs⟩ := analytic_ok hm h
      exact hs
  unfold summary at hs
  split at hs
  · rename_i hl
    injection hs with hs
    rw [← hs]
    refine ⟨rfl, by simp [hl], ?_⟩
    intro j
    have hj : j.val < labels.length := by omega
    refine ⟨labels[j.val], List.getElem?_eq_getElem hj, ?_⟩
    simp only
    rw [List.getElem?_zip_eq_some]
    refine ⟨List.getElem?_eq_getElem hj, ?_⟩
    rw [List.getElem?_ofFn, dif_pos j.isLt]
  · cases hs

example : ((pilot exLib exX exY exLabels (exOpts true)).toOption.map fun o => o.summary.columns) =
    some [("f", [0, -1]), ("g", [0, 0])] := by decide +kernel

end Verif.Pilot
