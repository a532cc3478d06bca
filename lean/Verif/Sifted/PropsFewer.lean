import Mathlib.Data.List.Sort
import Verif.Sifted.PropsCompletes
import Verif.Sifted.PropsOrder
/-!
# A higher threshold and the features that SIFTED returns (C234)
-/
set_option autoImplicit false
set_option linter.unusedSectionVars false

namespace Verif.Sifted

open Verif (Num)

/-- The property: with a higher threshold the stage returns no feature that it did not return before. -/
def NeverAdds (lib : Lib) : Prop :=
  ∀ (rho : List (List Num)) (thr thr' : ℚ) (k nalgos : Nat) (x : List Nat) (labels : List String)
    (out out' : Out Nat), thr ≤ thr' → sifted lib rho (.fin thr) k nalgos x labels false = .ok out →
    sifted lib rho (.fin thr') k nalgos x labels false = .ok out' → ∀ f ∈ out'.selvars, f ∈ out.selvars

/-- **C234** is false: with the threshold 1/2 six features remain, are clustered, and three of them are chosen, the
best correlated one not among them; with the threshold 65/100 three remain, which are all kept, and that one is. -/
theorem C234_refuted : ∃ lib, Delivers lib 3 ∧ Sorts lib.argsort ∧ ¬ NeverAdds lib := by
  refine ⟨exLib, exLib_delivers, argsortRef_sorts, fun h => ?_⟩
  have e : exRun.toOption.map (·.selvars) = some [1, 4, 6] := by decide +kernel
  have e' : (sifted exLib exRho (.fin (65 / 100)) 3 1 [10, 11, 12, 13, 14, 15, 16]
    ["a", "b", "c", "d", "e", "f", "g"] false).toOption.map (·.selvars) = some [2, 4, 5] := by decide +kernel
  cases h1 : exRun with
  | error _ => rw [h1] at e; cases e
  | ok out =>
    cases h2 : sifted exLib exRho (.fin (65 / 100)) 3 1 [10, 11, 12, 13, 14, 15, 16]
        ["a", "b", "c", "d", "e", "f", "g"] false with
    | error _ => rw [h2] at e'; cases e'
    | ok out' =>
      rw [h1] at e
      rw [h2] at e'
      have e : out.selvars = [1, 4, 6] := Option.some.inj e
      have e' : out'.selvars = [2, 4, 5] := Option.some.inj e'
      have := h _ _ _ _ _ _ _ out out' (by norm_num) h1 h2 2 (by rw [e']; decide)
      rw [e] at this
      exact absurd this (by decide)

/-- Raising the threshold leaves a sublist of the features that are selected by correlation. -/
theorem select_sublist (argsort : List Num → List Nat) (rho : List (List Num)) {thr thr' : ℚ} (h : thr ≤ thr')
    (n m : Nat) : (selectByPerformance argsort rho (.fin thr') n m).Sublist
      (selectByPerformance argsort rho (.fin thr) n m) := by
  have s := selectByPerformance_sorted argsort rho (.fin thr) n m
  have s' := selectByPerformance_sorted argsort rho (.fin thr') n m
  refine List.sublist_of_subperm_of_pairwise (r := (· < ·)) (List.subperm_of_subset (s'.imp Nat.ne_of_lt) ?_) s' s
  intro g hg
  simp only [mem_selectByPerformance] at hg ⊢
  refine ⟨hg.1, hg.2.imp id ?_⟩
  rintro ⟨i, hi, j, hj, h1, h2⟩
  refine ⟨i, hi, j, hj, ?_, h2⟩
  revert h1
  cases entry rho i j <;> simp only [Num.le, decide_eq_true_eq, imp_self, reduceCtorEq]
  exact fun h1 => le_trans h h1

/-- **C234**, as far as it holds: if nothing was clustered with the lower threshold, then nothing is with the higher
one, and the columns, labels and numbers of the features that remain are sublists of those before.  What is missing
is false (`C234_refuted`). -/
theorem C234_partial {α : Type} {lib : Lib} {rho : List (List Num)} {thr thr' : ℚ} {k nalgos : Nat} {x : List α}
    {labels : List String} {dense : Bool} {out out' : Out α} (hthr : thr ≤ thr')
    (h : sifted lib rho (.fin thr) k nalgos x labels dense = .ok out)
    (h' : sifted lib rho (.fin thr') k nalgos x labels dense = .ok out') (hc : out.clust = none) :
    out'.clust = none ∧ out'.selvars.Sublist out.selvars ∧ out'.x.Sublist out.x ∧
      out'.featLabels.Sublist out.featLabels ∧ out'.idx = out.idx := by
  have hsub := select_sublist lib.argsort rho hthr x.length nalgos
  have hlen := hsub.length_le
  unfold sifted at h h'
  dsimp only at h h'
  by_cases h1 : x.length ≤ 1
  · rw [if_pos h1] at h; cases h
  rw [if_neg h1] at h h'
  by_cases h3 : x.length ≤ 3
  · rw [if_pos h3] at h h'
    cases h
    cases h'
    exact ⟨rfl, .refl _, .refl _, .refl _, rfl⟩
  rw [if_neg h3] at h h'
  by_cases m1 : (selectByPerformance lib.argsort rho (.fin thr') x.length nalgos).length ≤ 1
  · rw [if_pos m1] at h'; cases h'
  rw [if_neg m1] at h'
  rw [if_neg (by omega)] at h
  by_cases m3 : (selectByPerformance lib.argsort rho (.fin thr) x.length nalgos).length ≤ 3 ∨
      (selectByPerformance lib.argsort rho (.fin thr) x.length nalgos).length ≤ k
  · rw [if_pos m3] at h
    rw [if_pos (by omega)] at h'
    cases h
    cases h'
    exact ⟨rfl, hsub, hsub.filterMap _, hsub.filterMap _, rfl⟩
  · rw [if_neg m3] at h
    exfalso
    split at h
    · cases h
    · split at h
      · cases h
      · split at h
        · cases h
        · split at h
          · cases h
          · cases h
            cases hc

/-- Of seven features three remain with the threshold 65/100 and two with 75/100; nothing is clustered. -/
example : [13 / 20, 3 / 4].map (fun thr => (sifted exLib exRho (.fin thr) 3 1 [10, 11, 12, 13, 14, 15, 16]
      ["a", "b", "c", "d", "e", "f", "g"] false).toOption.map fun o => (o.selvars, o.featLabels, o.clust.isNone)) =
    [some ([2, 4, 5], ["c", "e", "f"], true), some ([2, 4], ["c", "e"], true)] := by decide +kernel

end Verif.Sifted
