import Verif.Prelim.Spec
/-! Lemmas about extreme values and goodness. -/
set_option autoImplicit false
set_option linter.unusedSectionVars false

namespace Verif.Prelim

open Verif (Num)

theorem better_true {a b : Num} : better true a b = Num.lt b a := rfl
theorem better_false {a b : Num} : better false a b = Num.lt a b := rfl

theorem not_better_iff {m : Bool} {a b : Num} (ha : a ≠ .nan) (hb : b ≠ .nan) :
    better m a b = false ↔ AtLeastAsGood m b a := by
  cases m <;> simp only [better, AtLeastAsGood, if_true, if_false, Bool.false_eq_true]
  · constructor
    · exact Num.le_of_not_lt ha hb
    · intro h
      cases h' : Num.lt a b with
      | false => rfl
      | true => rw [Num.not_le_of_lt h'] at h; cases h
  · constructor
    · exact Num.le_of_not_lt hb ha
    · intro h
      cases h' : Num.lt b a with
      | false => rfl
      | true => rw [Num.not_le_of_lt h'] at h; cases h

theorem atLeast_trans {m : Bool} {a b c : Num} (h1 : AtLeastAsGood m a b)
    (h2 : AtLeastAsGood m b c) : AtLeastAsGood m a c := by
  cases m
  · exact Num.le_trans (a := a) (b := b) (c := c) h1 h2
  · exact Num.le_trans (a := c) (b := b) (c := a) h2 h1

theorem atLeast_antisymm {m : Bool} {a b : Num} (h1 : AtLeastAsGood m a b)
    (h2 : AtLeastAsGood m b a) : a = b := by
  cases m
  · exact Num.le_antisymm (a := a) (b := b) h1 h2
  · exact Num.le_antisymm (a := a) (b := b) h2 h1

theorem atLeast_refl {m : Bool} {a : Num} (h : a ≠ .nan) : AtLeastAsGood m a a := by
  cases m <;> exact Num.le_refl h

theorem better_atLeast {m : Bool} {a b : Num} (h : better m a b = true) :
    AtLeastAsGood m a b ∧ a ≠ b := by
  cases m
  · refine ⟨Num.le_iff_lt_or_eq.2 (.inl h), ?_⟩
    rintro rfl
    rw [better_false, Num.lt_irrefl] at h
    cases h
  · refine ⟨Num.le_iff_lt_or_eq.2 (.inl h), ?_⟩
    rintro rfl
    rw [better_true, Num.lt_irrefl] at h
    cases h

theorem extreme_spec (m : Bool) : ∀ (l : List Num) (a : Num), a ≠ .nan → (∀ c ∈ l, c ≠ .nan) →
    extreme m a l ∈ a :: l ∧ ∀ c ∈ a :: l, AtLeastAsGood m (extreme m a l) c := by
  intro l
  induction l with
  | nil =>
    intro a ha _
    exact ⟨by simp [extreme], by simpa [extreme] using atLeast_refl ha⟩
  | cons b l ih =>
    intro a ha hl
    have hb := hl b List.mem_cons_self
    have hl' : ∀ c ∈ l, c ≠ .nan := fun c hc => hl c (List.mem_cons_of_mem _ hc)
    rw [extreme]
    cases hbt : better m b a with
    | true =>
      simp only [if_true]
      obtain ⟨h1, h2⟩ := ih b hb hl'
      refine ⟨List.mem_cons_of_mem _ h1, ?_⟩
      intro c hc
      rcases List.mem_cons.1 hc with rfl | hc
      · exact atLeast_trans (h2 b List.mem_cons_self) (better_atLeast hbt).1
      · exact h2 c hc
    | false =>
      simp only [Bool.false_eq_true, if_false]
      obtain ⟨h1, h2⟩ := ih a ha hl'
      constructor
      · rcases List.mem_cons.1 h1 with h | h
        · rw [h]; exact List.mem_cons_self
        · exact List.mem_cons_of_mem _ (List.mem_cons_of_mem _ h)
      · intro c hc
        rcases List.mem_cons.1 hc with rfl | hc
        · exact h2 c List.mem_cons_self
        · rcases List.mem_cons.1 hc with rfl | hc
          · exact atLeast_trans (h2 a List.mem_cons_self) ((not_better_iff hb ha).1 hbt)
          · exact h2 c (List.mem_cons_of_mem _ hc)

theorem argExtreme_spec (m : Bool) : ∀ (l : List Num) (k : Nat) (a : Num) (i : Nat), a ≠ .nan →
    (∀ c ∈ l, c ≠ .nan) →
    argExtreme m k a i l = if extreme m a l = a then k else i + l.idxOf (extreme m a l) := by
  intro l
  induction l with
  | nil => intro k a i _ _; simp [argExtreme, extreme]
  | cons b l ih =>
    intro k a i ha hl
    have hb := hl b List.mem_cons_self
    have hl' : ∀ c ∈ l, c ≠ .nan := fun c hc => hl c (List.mem_cons_of_mem _ hc)
    rw [argExtreme, extreme]
    cases hbt : better m b a with
    | true =>
      simp only [if_true]
      rw [ih i b (i + 1) hb hl']
      obtain ⟨h1, h2⟩ := extreme_spec m l b hb hl'
      have hne : extreme m b l ≠ a := by
        intro h
        have h3 := h2 b List.mem_cons_self
        rw [h] at h3
        exact (better_atLeast hbt).2 (atLeast_antisymm (better_atLeast hbt).1 h3)
      rw [if_neg hne, List.idxOf_cons]
      by_cases h : extreme m b l = b
      · rw [if_pos h, h]
        simp
      · rw [if_neg h]
        have : (b == extreme m b l) = false := by
          simpa using fun h' => h h'.symm
        rw [this]
        simp only [cond_false]
        omega
    | false =>
      simp only [Bool.false_eq_true, if_false]
      rw [ih k a (i + 1) ha hl']
      obtain ⟨h1, h2⟩ := extreme_spec m l a ha hl'
      by_cases h : extreme m a l = a
      · rw [if_pos h, if_pos h]
      · rw [if_neg h, if_neg h, List.idxOf_cons]
        have : (b == extreme m a l) = false := by
          simp only [beq_eq_false_iff_ne]
          intro h'
          apply h
          apply atLeast_antisymm (h2 a List.mem_cons_self)
          rw [← h']
          exact (not_better_iff hb ha).1 hbt
        rw [this]
        simp only [cond_false]
        omega

theorem aux_ne_nan (m : Bool) (v : Num) : aux m v ≠ .nan := by
  cases v <;> cases m <;> simp [aux, Num.isNan]

theorem aux_eq {m : Bool} {v : Num} (h : v ≠ .nan) : aux m v = v := by
  cases v <;> simp_all [aux, Num.isNan]

theorem aux_nan (m : Bool) : aux m .nan = worst m := by
  cases m <;> rfl

theorem worst_ne_nan (m : Bool) : worst m ≠ .nan := by cases m <;> simp [worst]

theorem atLeast_worst {m : Bool} {a : Num} (h : a ≠ .nan) : AtLeastAsGood m a (worst m) := by
  cases m <;> cases a <;> simp_all [AtLeastAsGood, worst, Num.le]

/-- The parts of a row's result, for a non-empty row. -/
theorem rowStep_some {o : Opts} {row : List Num} {out : Row} (h : rowStep o row = some out) :
    ∃ best0 : Num,
      best0 ∈ row.map (aux o.maxPerf) ∧
      (∀ v ∈ row, AtLeastAsGood o.maxPerf best0 (aux o.maxPerf v)) ∧
      out.yBest = (if o.absPerf then best0 else fixZero best0) ∧
      out.yBin = row.map (fun v => good o out.yBest (aux o.maxPerf v)) ∧
      out.p = (if 1 < (row.map fun v => v.eq out.yBest).count true then
          firstTrue (row.map fun v => v.eq out.yBest) + 1
        else (row.map (aux o.maxPerf)).idxOf best0 + 1) ∧
      out.numGood = out.yBin.count true ∧
      out.beta = Num.lt (o.betaThreshold * .fin row.length) (.fin out.numGood) ∧
      out.yIn = (if o.absPerf then row else row.map fixZero) ∧
      out.y = (if o.absPerf then row else (row.map fixZero).map fun v =>
        if o.maxPerf then 1 - v / out.yBest else 1 - out.yBest / v) := by
  unfold rowStep at h
  cases hr : row.map (aux o.maxPerf) with
  | nil => rw [hr] at h; cases h
  | cons a l =>
    rw [hr] at h
    simp only [Option.some.injEq] at h
    have hnn : ∀ c ∈ a :: l, c ≠ .nan := by
      intro c hc
      rw [← hr] at hc
      obtain ⟨v, -, rfl⟩ := List.mem_map.1 hc
      exact aux_ne_nan _ _
    have ha := hnn a List.mem_cons_self
    have hl : ∀ c ∈ l, c ≠ .nan := fun c hc => hnn c (List.mem_cons_of_mem _ hc)
    obtain ⟨h1, h2⟩ := extreme_spec o.maxPerf l a ha hl
    have hp : argExtreme o.maxPerf 0 a 1 l + 1 =
        (a :: l).idxOf (extreme o.maxPerf a l) + 1 := by
      rw [argExtreme_spec o.maxPerf l 0 a 1 ha hl, List.idxOf_cons]
      by_cases h : extreme o.maxPerf a l = a
      · rw [if_pos h, h]
        simp
      · have : (a == extreme o.maxPerf a l) = false := by
          simpa using fun h' => h h'.symm
        rw [if_neg h, this]
        simp only [cond_false]
        omega
    refine ⟨extreme o.maxPerf a l, h1, ?_, ?_⟩
    · intro v hv
      exact h2 _ (by rw [← hr]; exact List.mem_map_of_mem hv)
    · subst h
      refine ⟨rfl, ?_, ?_, rfl, rfl, rfl, ?_⟩
      · simp only
        rw [← hr, List.map_map]
        rfl
      · simp only [hp]
      · cases o.absPerf <;> rfl

theorem fixZero_ne {v : Num} (h : v ≠ 0) : fixZero v = v := by
  unfold fixZero
  rw [if_neg]
  intro h'
  exact h (Num.eq_iff.1 h').1

theorem fixZero_zero : fixZero 0 = .fin Num.eps := rfl

theorem yBin_getElem {o : Opts} {row : List Num} {out : Row} (h : rowStep o row = some out)
    {j : Nat} {v : Num} (hv : row[j]? = some v) :
    MarkedGood out j ↔ good o out.yBest (aux o.maxPerf v) = true := by
  obtain ⟨b, -, -, -, hb, -⟩ := rowStep_some h
  unfold MarkedGood
  rw [hb, List.getElem?_map, hv]
  simp

end Verif.Prelim
