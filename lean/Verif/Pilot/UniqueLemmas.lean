import Verif.Pilot.PropsOptimal
import Mathlib.Logic.Equiv.Fin.Basic
/-!
# Lemmas: the directions of the data are unique up to their sign
-/
set_option autoImplicit false
set_option linter.unusedSectionVars false

namespace Verif.Pilot

open Matrix

variable {K : Type} [Field K] [LinearOrder K] [IsStrictOrderedRing K] {p n q m : Nat}

/-- Every eigenvector is, up to its sign, one of those of another list with distinct eigenvalues. -/
theorem eigen_unique {f : Matrix (Fin p) (Fin m) K} {d d' : Fin m → K} {v v' : Matrix (Fin m) (Fin m) K}
    (he : Eigen (f.transpose * f) d v) (he' : Eigen (f.transpose * f) d' v')
    (hne : ∀ i j, i ≠ j → d i ≠ d j) (hv : v.transpose * v = 1) (j : Fin m) :
    ∃ k, d' j = d k ∧ ∃ s : K, (s = 1 ∨ s = -1) ∧ ∀ r, v' r j = s * v r k := by
  have hv' : v * v.transpose = 1 := mul_eq_one_comm.1 hv
  let c : Fin m → K := v.transpose *ᵥ fun r => v' r j
  have hc : ∀ k, d k * c k = d' j * c k := by
    intro k
    have h1 : (fun r => v r k) ⬝ᵥ ((f.transpose * f) *ᵥ fun r => v' r j) = d' j * c k := by
      have : (f.transpose * f) *ᵥ (fun r => v' r j) = fun i => d' j * v' i j := by
        funext i
        exact he'.vector i j
      rw [this]
      change ∑ r, v r k * (d' j * v' r j) = d' j * ∑ r, v r k * v' r j
      rw [Finset.mul_sum]
      exact Finset.sum_congr rfl fun r _ => by ring
    have h2 : (fun r => v r k) ⬝ᵥ ((f.transpose * f) *ᵥ fun r => v' r j) = d k * c k := by
      rw [dotProduct_comm, adjoint, transpose_mul, transpose_transpose]
      have : (f.transpose * f) *ᵥ (fun r => v r k) = fun i => d k * v i k := by
        funext i
        exact he.vector i k
      rw [this]
      change ∑ r, v' r j * (d k * v r k) = d k * ∑ r, v r k * v' r j
      rw [Finset.mul_sum]
      exact Finset.sum_congr rfl fun r _ => by ring
    rw [← h2, h1]
  have hsum : ∑ k, c k ^ 2 = 1 := by
    rw [← he'.unit j]
    have := parseval hv (fun r => v' r j)
    calc ∑ k, c k ^ 2 = ∑ k, ((fun r => v r k) ⬝ᵥ fun r => v' r j) ^ 2 := rfl
      _ = _ := this
      _ = _ := Finset.sum_congr rfl fun r _ => (pow_two _).symm
  have hback : ∀ r, v' r j = ∑ k, v r k * c k := by
    intro r
    have : v *ᵥ c = fun r => v' r j := by
      change v *ᵥ (v.transpose *ᵥ fun r => v' r j) = _
      rw [Matrix.mulVec_mulVec, hv', Matrix.one_mulVec]
    exact (congrFun this r).symm
  obtain ⟨k, hk⟩ : ∃ k, c k ≠ 0 := by
    by_contra hall
    push Not at hall
    rw [Finset.sum_eq_zero fun k _ => by rw [hall k]; ring] at hsum
    exact zero_ne_one hsum
  have hdk : d' j = d k := (mul_right_cancel₀ hk (hc k)).symm
  have hzero : ∀ l, l ≠ k → c l = 0 := by
    intro l hl
    by_contra h0
    exact hne l k hl ((mul_right_cancel₀ h0 (hc l)).trans hdk)
  refine ⟨k, hdk, c k, ?_, ?_⟩
  · rw [Finset.sum_eq_single k (fun l _ hl => by rw [hzero l hl]; ring) (by simp)] at hsum
    have h0 : (c k - 1) * (c k + 1) = 0 := by
      rw [← sub_eq_zero] at hsum
      rw [← hsum]
      ring
    rcases mul_eq_zero.1 h0 with h1 | h1
    · exact .inl (sub_eq_zero.1 h1)
    · exact .inr (eq_neg_of_add_eq_zero_left h1)
  · intro r
    rw [hback, Finset.sum_eq_single k (fun l _ hl => by rw [hzero l hl, mul_zero]) (by simp), mul_comm]

/-- The positions of the two largest values. -/
structure Top (d : Fin m → K) (ij : Fin m × Fin m) : Prop where
  ne : ij.1 ≠ ij.2
  second : d ij.2 ≤ d ij.1
  rest : ∀ r, r ≠ ij.1 → d r ≤ d ij.2

/-- The two leading eigenvectors are unique up to their signs. -/
theorem top_unique {f : Matrix (Fin p) (Fin m) K} {d d' : Fin m → K} {v v' : Matrix (Fin m) (Fin m) K}
    (he : Eigen (f.transpose * f) d v) (he' : Eigen (f.transpose * f) d' v')
    (hne : ∀ i j, i ≠ j → d i ≠ d j) (hne' : ∀ i j, i ≠ j → d' i ≠ d' j)
    (hv : v.transpose * v = 1) {ij ij' : Fin m × Fin m} (ht : Top d ij) (ht' : Top d' ij') :
    (∃ s : K, (s = 1 ∨ s = -1) ∧ ∀ r, v' r ij'.1 = s * v r ij.1) ∧
    (∃ s : K, (s = 1 ∨ s = -1) ∧ ∀ r, v' r ij'.2 = s * v r ij.2) := by
  choose σ hσ using eigen_unique he he' hne hv
  have hinj : Function.Injective σ := by
    intro i j hij
    by_contra h
    exact hne' i j h (by rw [(hσ i).1, (hσ j).1, hij])
  have hsur : Function.Surjective σ := Finite.surjective_of_injective hinj
  have hinjd : ∀ i j, d i = d j → i = j := fun i j h => by
    by_contra h'
    exact hne i j h' h
  have hmax : ∀ r, d r ≤ d ij.1 := by
    intro r
    by_cases h : r = ij.1
    · rw [h]
    · exact le_trans (ht.rest r h) ht.second
  have hmax' : ∀ r, d' r ≤ d' ij'.1 := by
    intro r
    by_cases h : r = ij'.1
    · rw [h]
    · exact le_trans (ht'.rest r h) ht'.second
  have h1 : σ ij'.1 = ij.1 := by
    apply hinjd
    refine le_antisymm (hmax _) ?_
    obtain ⟨j, hj⟩ := hsur ij.1
    rw [← hj, ← (hσ j).1, ← (hσ ij'.1).1]
    exact hmax' j
  have h2 : σ ij'.2 = ij.2 := by
    apply hinjd
    refine le_antisymm ?_ ?_
    · apply ht.rest
      rw [← h1]
      exact fun h => ht'.ne (hinj h).symm
    · obtain ⟨j, hj⟩ := hsur ij.2
      rw [← hj, ← (hσ j).1, ← (hσ ij'.2).1]
      apply ht'.rest
      rintro rfl
      exact ht.ne (h1.symm.trans hj)
  constructor
  · obtain ⟨-, s, hs, h⟩ := hσ ij'.1
    rw [h1] at h
    exact ⟨s, hs, h⟩
  · obtain ⟨-, s, hs, h⟩ := hσ ij'.2
    rw [h2] at h
    exact ⟨s, hs, h⟩

/-- What an analytic solution consists of, with the positions of the directions. -/
theorem analytic_shape {lib : Lib K p n q} {x : Matrix (Fin p) (Fin n) K}
    {y : Matrix (Fin p) (Fin q) K} {labels : List String} {opts : Options K n q} {out : Out K p n q}
    {d : Fin (n + q) → K} {v : Matrix (Fin (n + q)) (Fin (n + q)) K}
    (hd : lib.eig (gram fun i r => column x y r i) = (d, v))
    (he : Eigen (gram fun i r => column x y r i) d v)
    (hs : Ascending (fun i => |d i|) (lib.argsort fun i => |d i|))
    (hinv : ∀ m r, lib.inv m = some r → m * r = 1) (hm : opts.analytic = true)
    (h : pilot lib x y labels opts = .ok out) :
    ∃ (hc : out.cCols = q) (ij : Fin (n + q) × Fin (n + q)) (w : Matrix (Fin (n + q)) (Fin 2) K)
      (r : Matrix (Fin n) (Fin n) K), Top d ij ∧ w = leadingVectors v ij ∧
      x.transpose * x * r = 1 ∧ out.a = w.transpose * (xBar x y).transpose * (x * r) ∧
      out.z = x * out.a.transpose ∧ out.b = (fun i => w (Fin.castAdd q i)) ∧
      (fun k j => out.c k (j.cast hc.symm)) = (fun k j => w (Fin.natAdd n j) k) ∧
      out.error = sumSquares (xBar x y) (out.z * w.transpose) ∧
      out.r2 = List.ofFn fun j =>
        (sqCorr (fun i => xBar x y i j) (fun i => (out.z * w.transpose) i j)).map lib.half := by
  obtain ⟨s, hc, hsol, ha, hz, hcc, hb, herr, hr2, _⟩ := analytic_ok hm h
  obtain ⟨ij, w, r, hij, hwv, hr, hsa, hsz, hsb, hsc, hse, hsr⟩ := analyticSolve_ok hsol
  rw [← gram_eq, hd] at hij hwv
  refine ⟨hc, ij, w, r, ?_, hwv, hinv _ _ hr, by rw [ha, hsa], by rw [hz, ha, hsz], by rw [hb, hsb], ?_,
    by rw [herr, hse, hz], by rw [hr2, hsr, hz]⟩
  · rw [gram_eq] at he
    have hdn := eigen_nonneg he
    have hord : ij.1 ≠ ij.2 ∧ |d ij.2| ≤ |d ij.1| ∧ ∀ r, r ≠ ij.1 → |d r| ≤ |d ij.2| := by
      unfold leading at hij
      split at hij
      · rename_i i j l hl
        injection hij with hij
        subst hij
        have hrev : (lib.argsort fun i => |d i|).reverse.Pairwise fun i j => |d j| ≤ |d i| :=
          List.pairwise_reverse.2 hs.sorted
        have hnd : (lib.argsort fun i => |d i|).reverse.Nodup :=
          List.nodup_reverse.2 (hs.all.nodup_iff.2 (List.nodup_finRange _))
        have hall : ∀ r, r ∈ (lib.argsort fun i => |d i|).reverse := fun r =>
          List.mem_reverse.2 (hs.all.mem_iff.2 (List.mem_finRange r))
        rw [hl] at hrev hnd hall
        refine ⟨fun e => ?_, ?_, ?_⟩
        · simp only at e
          rw [List.nodup_cons, e] at hnd
          exact hnd.1 (by simp)
        · exact (List.pairwise_cons.1 hrev).1 j (by simp)
        · intro r hr
          rcases List.mem_cons.1 (hall r) with h1 | h1
          · exact absurd h1 hr
          rcases List.mem_cons.1 h1 with h2 | h2
          · rw [h2]
          · exact (List.pairwise_cons.1 (List.pairwise_cons.1 hrev).2).1 r h2
      · cases hij
    simp only [abs_of_nonneg (hdn _)] at hord
    exact ⟨hord.1, hord.2.1, hord.2.2⟩
  · funext k j
    rw [hcc, hsc]

end Verif.Pilot
