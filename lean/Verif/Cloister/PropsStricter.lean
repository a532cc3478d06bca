import Verif.Cloister.StricterLemmas
/-!
# C149: both correlation options of CLOISTER at once
-/
set_option autoImplicit false
set_option linter.unusedSectionVars false

namespace Verif.Cloister

variable {K : Type} {m : Nat}

section
variable [Field K] [LinearOrder K] [IsStrictOrderedRing K]

/-- **C149, the true part for both options at once.** With stricter options the plain boundary is the same, and the correlated boundary encloses
the one before.  Missing for the full property: the case in which no correlated boundary was found before and the plain
one took its place. -/
theorem C149_both_partial (qhull : List (Fin 2 → K) → Option (List Nat)) (hq : HullCorrect qhull)
    (pearson : Fin m → Fin m → Num × Num) {pThr cThr pThr' cThr' : Num} (h : Stricter pThr cThr pThr' cThr')
    (A : Fin 2 → Fin m → K) (a : Fin m → K) (l : List (Fin m → K))
    (plain : (cloister qhull pearson pThr cThr A a l).1 ≠ [])
    (own : (cloister qhull pearson pThr cThr A a l).2 ≠ (cloister qhull pearson pThr cThr A a l).1) :
    (cloister qhull pearson pThr' cThr' A a l).1 = (cloister qhull pearson pThr cThr A a l).1 ∧
    convexHull K (pointSet (cloister qhull pearson pThr cThr A a l).2) ⊆
      convexHull K (pointSet (cloister qhull pearson pThr' cThr' A a l).2) := by
  refine ⟨rfl, ?_⟩
  have hedge : qhull ((xEdge a l).map (project A)) ≠ none := by
    intro hn
    apply plain
    show hullPoints qhull _ = []
    unfold hullPoints
    rw [hn]
  have hin := C92_inside qhull hq pearson pThr cThr A a l hedge
  by_cases hs : (hullPoints qhull ((xKept (correlation pearson pThr') cThr' a l).map (project A))).isEmpty = true
  · have : (cloister qhull pearson pThr' cThr' A a l).2 = (cloister qhull pearson pThr cThr A a l).1 := by
      show (if _ then _ else _) = _
      rw [if_pos hs]
      rfl
    rw [this]
    exact hin
  · have e' : (cloister qhull pearson pThr' cThr' A a l).2 =
        hullPoints qhull ((xKept (correlation pearson pThr') cThr' a l).map (project A)) := by
      show (if _ then _ else _) = _
      rw [if_neg hs]
    have hn : ¬ (hullPoints qhull ((xKept (correlation pearson pThr) cThr a l).map (project A))).isEmpty = true := by
      intro hn
      apply own
      show (if _ then _ else _) = _
      rw [if_pos hn]
      rfl
    have e : (cloister qhull pearson pThr cThr A a l).2 =
        hullPoints qhull ((xKept (correlation pearson pThr) cThr a l).map (project A)) := by
      show (if _ then _ else _) = _
      rw [if_neg hn]
    rw [e, e']
    cases hv' : qhull ((xKept (correlation pearson pThr') cThr' a l).map (project A)) with
    | none => exact absurd (by unfold hullPoints; rw [hv']; rfl) hs
    | some vs' =>
      rw [hullPoints_convexHull hq _ vs' hv']
      apply convexHull_mono
      intro p hp
      have hp' : p ∈ (xKept (correlation pearson pThr) cThr a l).map (project A) := by
        have hp : p ∈ hullPoints qhull _ := hp
        unfold hullPoints at hp
        split at hp
        · cases hp
        · obtain ⟨i, _, hi⟩ := List.mem_filterMap.1 hp
          exact List.mem_of_getElem? hi
      obtain ⟨e0, he0, rfl⟩ := List.mem_map.1 hp'
      exact List.mem_map.2 ⟨e0, xKept_stricter h pearson a l he0, rfl⟩
end

/-! ### Cases -/

/-- Twenty instances: the first two features differ on two of them, the last two on four others. -/
def chainRows : List (Fin 3 → ℚ) :=
  List.replicate 7 ![1, 1, 1] ++ List.replicate 2 ![1, 1, -1] ++ [![1, -1, -1]] ++
  List.replicate 7 ![-1, -1, -1] ++ List.replicate 2 ![-1, -1, 1]

/-- Pearson's coefficients and (approximate) p-values of `![-1, 1, 1] :: chainRows`. -/
def chainPearson (i j : Fin 3) : Num × Num :=
  if i = j then (1, 0) else if i ≠ 2 ∧ j ≠ 2 then (.fin (4/5), .fin (1/50000))
  else if i ≠ 0 ∧ j ≠ 0 then (.fin (3/5), .fin (1/200)) else (.fin (2/5), .fin (4/50))

-- The coefficients are the right ones: every feature has sum 0 and sum of squares 20.
example : let rows := (![-1, 1, 1] : Fin 3 → ℚ) :: chainRows
    (∀ i, (rows.map (· i)).sum = 0) ∧
    ∀ i j, (chainPearson i j).1 = .fin ((rows.map fun r => r i * r j).sum / 20) := by
  decide +kernel

/-- The projection of the cases. -/
def chainA : Fin 2 → Fin 3 → ℚ := ![![1, -1, 1], ![1, 1, 0]]

-- The hypotheses of `C149_both_partial`: with the threshold 7/10 four corners are left, with 9/10 all of them.
example : HullCorrect (exHull (K := ℚ)) ∧ Stricter (.fin (1/20)) (.fin (7/10)) (.fin (1/100)) (.fin (9/10)) ∧
    (cloister exHull chainPearson (.fin (1/20)) (.fin (7/10)) chainA ![-1, 1, 1] chainRows).1.length = 8 ∧
    (cloister exHull chainPearson (.fin (1/20)) (.fin (7/10)) chainA ![-1, 1, 1] chainRows).2.length = 4 ∧
    (cloister exHull chainPearson (.fin (1/100)) (.fin (9/10)) chainA ![-1, 1, 1] chainRows).2.length = 8 := by
  refine ⟨exHull_correct, ⟨by decide +kernel, by decide +kernel, by decide +kernel⟩, ?_, ?_, ?_⟩ <;> decide +kernel

end Verif.Cloister
