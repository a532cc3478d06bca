import Verif.Prelim.PropsData
import Verif.Prelim.MetaLemmas
/-!
# The performance measure that PRELIM returns (C88)
-/
set_option autoImplicit false
set_option linter.unusedSectionVars false

namespace Verif.Prelim

open Verif (Num)

theorem rowStep_ok (o : Opts) {row : List Num} (h : row ≠ []) : ∃ out, rowStep o row = some out := by
  unfold rowStep
  cases row with
  | nil => exact absurd rfl h
  | cons a l => exact ⟨_, rfl⟩

theorem rows_ok (o : Opts) : ∀ {ys : List (List Num)}, (∀ r ∈ ys, r ≠ []) →
    ∃ outs, rows o ys = some outs
  | [], _ => ⟨[], rfl⟩
  | r :: ys, h => by
    obtain ⟨out, h1⟩ := rowStep_ok o (h r (by simp))
    obtain ⟨outs, h2⟩ := rows_ok o (ys := ys) fun r hr => h r (by simp [hr])
    exact ⟨out :: outs, by rw [rows, h1, h2]⟩

/-- The performance at which the row is measured when it is best: the finite best performance. -/
theorem best_of_isBest {o : Opts} {row : List Num} {out : Row} (h : rowStep o row = some out)
    (ha : o.absPerf = false) {b : ℚ} (hb : IsBest o.maxPerf row (.fin b)) (h0 : b ≠ 0) :
    out.yBest = .fin b := by
  obtain ⟨best0, hm, hbest, hy, -⟩ := rowStep_some h
  obtain ⟨v, hv, rfl⟩ := List.mem_map.1 hm
  have h1 := hbest _ hb.mem
  rw [aux_eq hb.present] at h1
  have h2 : AtLeastAsGood o.maxPerf (.fin b) (aux o.maxPerf v) := by
    by_cases hn : v = .nan
    · rw [hn, aux_nan]
      exact atLeast_worst (by simp)
    · rw [aux_eq hn]
      exact hb.best v hv hn
  rw [hy, ha, atLeast_antisymm h1 h2]
  exact fixZero_ne (by intro h; exact h0 (Num.fin.inj h))

/-- **C88, what the measure is.**  Without normalisation there is one column per algorithm with one
entry per instance.  With absolute performances the entry is the performance; with relative ones a
missing performance stays missing, and a performance `q` other than 0 on an instance whose best
performance is `b` becomes `1 - q/b` (larger is better) or `1 - b/q` (smaller is better).  Missing
for the full property: normalisation of relative performances. -/
theorem C88_measure_partial (o : Opts) (hn : o.norm = false) (tr : List Num → List Num) (n : Nat)
    (hpos : 0 < n) (ys : List (List Num)) (hrect : ∀ r ∈ ys, r.length = n) :
    ∃ cols, outY o tr n ys = some cols ∧ cols.length = n ∧
      (∀ col ∈ cols, col.length = ys.length) ∧
      ∀ (i j : Nat) (row : List Num) (v : Num), ys[i]? = some row → row[j]? = some v →
        ∃ w, (cols[j]?.bind (·[i]?)) = some w ∧
          (o.absPerf = true → w = v) ∧
          (o.absPerf = false → v = .nan → w = .nan) ∧
          (o.absPerf = false → ∀ b q : ℚ, IsBest o.maxPerf row (.fin b) → b ≠ 0 → v = .fin q →
            q ≠ 0 → w = .fin (if o.maxPerf then 1 - q / b else 1 - b / q)) := by
  obtain ⟨outs, ho⟩ := rows_ok o (ys := ys) fun r hr h0 => by
    have := hrect r hr
    rw [h0] at this
    simp at this
    omega
  have hrow := rows_iff.1 ho
  have hl : outs.length = ys.length := by simpa using (congrArg List.length hrow).symm
  refine ⟨columns n (outs.map Row.y), by simp [outY, ho, hn], by simp [columns], ?_, ?_⟩
  · intro col hc
    obtain ⟨j, -, rfl⟩ := List.mem_map.1 hc
    simp [hl]
  · intro i j row v hi hj
    obtain ⟨hil, hie⟩ := List.getElem?_eq_some_iff.1 hi
    obtain ⟨hjl, hje⟩ := List.getElem?_eq_some_iff.1 hj
    have hjn : j < n := by rw [← hrect row (List.mem_of_getElem? hi)]; exact hjl
    have hio : i < outs.length := by omega
    have hs : rowStep o row = some outs[i] := by
      have := congrArg (·[i]?) hrow
      simpa [hi, hio] using this
    obtain ⟨best0, -, -, -, -, -, -, -, -, hy⟩ := rowStep_some hs
    have e : ((columns n (outs.map Row.y))[j]?.bind (·[i]?)) = some (outs[i].y.getD j .nan) := by
      simp [columns, hjn, hio]
    refine ⟨_, e, ?_, ?_, ?_⟩
    · intro ha
      rw [hy, ha]
      simp [hj]
    · rintro ha rfl
      have e2 : fixZero .nan = .nan := rfl
      have e3 : ∀ x : Num, (1 : Num) - .nan / x = .nan := fun x => by cases x <;> rfl
      have e4 : ∀ x : Num, (1 : Num) - x / .nan = .nan := fun x => by cases x <;> rfl
      rw [hy, ha]
      simp [hj, e2, e3, e4]
    · rintro ha b q hb hb0 rfl hq
      rw [hy, ha, best_of_isBest hs ha hb hb0]
      have e2 : fixZero (.fin q) = .fin q := fixZero_ne (by intro h; exact hq (Num.fin.inj h))
      have e3 : (1 : Num) = .fin 1 := rfl
      simp [hj, e2, Num.fin_div _ _ hb0, Num.fin_div _ _ hq, e3]
      split <;> rfl

-- Two instances and two algorithms, relative performances, smaller is better: the hypotheses hold.
example : outY ⟨false, false, .fin (1/20), 1, false, false⟩ id 2 [[2, 4], [.nan, 1]] =
    some [[0, .nan], [.fin (1/2), 0]] ∧ IsBest false [2, 4] (.fin 2) ∧
    ∀ r ∈ ([[2, 4], [.nan, 1]] : List (List Num)), r.length = 2 := by
  refine ⟨by decide +kernel, ⟨by simp [show (2 : Num) = .fin 2 from rfl], by simp, ?_⟩, by simp⟩
  intro c hc _
  simp only [List.mem_cons, List.not_mem_nil, or_false] at hc
  rcases hc with rfl | rfl <;> (simp only [AtLeastAsGood]; decide +kernel)

end Verif.Prelim
