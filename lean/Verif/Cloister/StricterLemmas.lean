import Verif.Cloister.Props
import Verif.Cloister.SpecStricter
/-!
# Lemmas on stricter correlation options
-/
set_option autoImplicit false
set_option linter.unusedSectionVars false

namespace Verif.Cloister

variable {K : Type} {m : Nat}

theorem lt_of_le_lt {a b c : Num} (h1 : Num.le a b = true) (h2 : Num.lt b c = true) : Num.lt a c = true := by
  cases a <;> cases b <;> cases c <;> simp_all [Num.le, Num.lt]
  exact lt_of_le_of_lt h1 h2

theorem lt_of_lt_le {a b c : Num} (h1 : Num.lt a b = true) (h2 : Num.le b c = true) : Num.lt a c = true := by
  cases a <;> cases b <;> cases c <;> simp_all [Num.le, Num.lt]
  exact lt_of_lt_of_le h1 h2

theorem neg_le {a b : Num} (h : Num.le a b = true) : Num.le (-b) (-a) = true := by
  change Num.le (Num.neg b) (Num.neg a) = true
  cases a <;> cases b <;> simp_all [Num.le, Num.neg]

theorem not_lt_self (a : Num) : Num.lt a a = false := by cases a <;> simp [Num.lt]

/-- A correlation that counts under the stricter limit on the p-value is the same under the other. -/
theorem correlation_stricter {pThr pThr' : Num} (h : Num.le pThr' pThr = true)
    (pearson : Fin m → Fin m → Num × Num) (j k : Fin m) :
    correlation pearson pThr' j k = 0 ∨ correlation pearson pThr' j k = correlation pearson pThr j k := by
  unfold correlation
  dsimp only
  by_cases h1 : Num.lt pThr' (if j ≠ k then (pearson j k).2 else 1) = true
  · exact .inl (if_pos h1)
  · refine .inr ?_
    rw [if_neg h1, if_neg fun h2 => h1 (lt_of_le_lt h h2)]

theorem stricter_above {pThr cThr pThr' cThr' : Num} (h : Stricter pThr cThr pThr' cThr')
    (pearson : Fin m → Fin m → Num × Num) {j k : Fin m}
    (hb : Num.lt cThr' (correlation pearson pThr' j k) = true) :
    Num.lt cThr (correlation pearson pThr j k) = true := by
  have hb' := lt_of_le_lt h.c hb
  rcases correlation_stricter h.p pearson j k with e | e
  · rw [e] at hb'
    have := lt_of_le_lt h.nonneg hb'
    rw [not_lt_self] at this
    cases this
  · rwa [e] at hb'

theorem stricter_below {pThr cThr pThr' cThr' : Num} (h : Stricter pThr cThr pThr' cThr')
    (pearson : Fin m → Fin m → Num × Num) {j k : Fin m}
    (hb : Num.lt (correlation pearson pThr' j k) (-cThr') = true) :
    Num.lt (correlation pearson pThr j k) (-cThr) = true := by
  have hb' := lt_of_lt_le hb (neg_le h.c)
  rcases correlation_stricter h.p pearson j k with e | e
  · rw [e] at hb'
    have := lt_of_lt_le hb' (neg_le h.nonneg)
    rw [show (-0 : Num) = 0 from by decide, not_lt_self] at this
    cases this
  · rwa [e] at hb'

section
variable [Field K] [LinearOrder K] [IsStrictOrderedRing K]

/-- Every corner that is kept is kept with stricter options. -/
theorem xKept_stricter {pThr cThr pThr' cThr' : Num} (h : Stricter pThr cThr pThr' cThr')
    (pearson : Fin m → Fin m → Num × Num) (a : Fin m → K) (l : List (Fin m → K)) {e : Fin m → K}
    (he : e ∈ xKept (correlation pearson pThr) cThr a l) : e ∈ xKept (correlation pearson pThr') cThr' a l := by
  unfold xKept at he ⊢
  obtain ⟨i, hi, rfl⟩ := List.mem_map.1 he
  refine List.mem_map.2 ⟨i, ?_, rfl⟩
  rw [List.mem_filter] at hi ⊢
  refine ⟨hi.1, ?_⟩
  have h2 := hi.2
  rw [Bool.not_eq_true', ← Bool.not_eq_true] at h2 ⊢
  intro hr
  apply h2
  unfold remove at hr ⊢
  rw [outer_iff] at hr ⊢
  obtain ⟨j, hj, k, hjk, hb⟩ := hr
  refine ⟨j, hj, k, hjk, ?_⟩
  unfold bad at hb ⊢
  simp only [Bool.or_eq_true, Bool.and_eq_true] at hb ⊢
  rcases hb with hb | hb
  · exact .inl ⟨stricter_above h pearson hb.1, hb.2⟩
  · exact .inr ⟨stricter_below h pearson hb.1, hb.2⟩

end

end Verif.Cloister
