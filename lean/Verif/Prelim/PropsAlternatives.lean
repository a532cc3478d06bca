import Verif.Prelim.PropsMeta
/-!
# C150: an algorithm that is not the best does not affect the verdicts on the others
-/
set_option autoImplicit false
set_option linter.unusedSectionVars false

namespace Verif.Prelim

open Verif (Num)

/-- `l'` is `l` with one more entry, `a`, in front of the entry at position `k`. -/
def WithExtra {α : Type} (k : Nat) (a : α) (l l' : List α) : Prop :=
  l' = l.take k ++ a :: l.drop k

/-- The position, counted from one, of the same algorithm after another one was put in front of
position `k` (counted from zero). -/
def shifted (k p : Nat) : Nat := if p ≤ k then p else p + 1

/-- The full claim about the best algorithm: one more algorithm that is worse than the best leaves
`p` at the same algorithm. -/
def WorseIsIrrelevant : Prop :=
  ∀ (o : Opts) (row row' : List Num) (k : Nat) (v b : Num) (out out' : Row),
    k ≤ row.length → WithExtra k v row row' → IsBest o.maxPerf row b → b ≠ worst o.maxPerf →
    (v = .nan ∨ (v ≠ b ∧ AtLeastAsGood o.maxPerf b v)) →
    rowStep o row = some out → rowStep o row' = some out' →
    out'.p = shifted k out.p

/-- **C150** is false for `p`: with the best performance 0 and another one equal to the machine
epsilon, one more algorithm with the machine epsilon becomes the best. -/
theorem C150_refuted : ¬ WorseIsIrrelevant := by
  intro h
  have := h ⟨false, false, .fin (1/20), 1, false, false⟩ [0, .fin Num.eps] [0, .fin Num.eps, .fin Num.eps]
    2 (.fin Num.eps) 0
    ⟨[true, true], .fin Num.eps, 1, 2, false, [.fin 0, .fin 0], [.fin Num.eps, .fin Num.eps]⟩
    ⟨[true, true, true], .fin Num.eps, 2, 3, false, [.fin 0, .fin 0, .fin 0],
      [.fin Num.eps, .fin Num.eps, .fin Num.eps]⟩
    (by simp) rfl
    ⟨by simp, by decide, by
      intro c hc _
      simp only [List.mem_cons, List.not_mem_nil, or_false] at hc
      rcases hc with rfl | rfl
      · change Num.le 0 0 = true; decide +kernel
      · change Num.le 0 (.fin Num.eps) = true; decide +kernel⟩ (by decide)
    (.inr ⟨by decide +kernel, by change Num.le 0 (.fin Num.eps) = true; decide +kernel⟩)
    (by decide +kernel) (by decide +kernel)
  exact absurd this (by decide)

/-- **C150** One more algorithm whose performance is missing or not better than that of some other
algorithm leaves the best performance, the verdicts on all other algorithms and their transformed
performances alone; the number of good algorithms grows by one exactly when the new one is good. -/
theorem C150_verdicts (o : Opts) (row row' : List Num) (k : Nat) (v : Num) (out out' : Row)
    (hk : k ≤ row.length) (hrow : WithExtra k v row row')
    (hv : v = .nan ∨ ∃ c ∈ row, AtLeastAsGood o.maxPerf c v)
    (h : rowStep o row = some out) (h' : rowStep o row' = some out') :
    ∃ g w, WithExtra k g out.yBin out'.yBin ∧ WithExtra k w out.y out'.y ∧
      out'.yBest = out.yBest ∧ out'.numGood = out.numGood + if g then 1 else 0 := by
  obtain ⟨b1, h1, h2, h3, h4, -, h6, h7, h8, h9⟩ := rowStep_some h
  obtain ⟨b2, g1, g2, g3, g4, -, g6, g7, g8, g9⟩ := rowStep_some h'
  unfold WithExtra at hrow
  have hmem : ∀ c, c ∈ row' ↔ c = v ∨ c ∈ row := by
    intro c
    rw [hrow, List.mem_append, List.mem_cons]
    conv_rhs => rw [← List.take_append_drop k row, List.mem_append]
    tauto
  have hv' : AtLeastAsGood o.maxPerf b1 (aux o.maxPerf v) := by
    rcases hv with rfl | ⟨c, hc, hcv⟩
    · rw [aux_nan]
      apply atLeast_worst
      obtain ⟨u, -, rfl⟩ := List.mem_map.1 h1
      exact aux_ne_nan _ _
    · have hvn : v ≠ .nan := by
        rintro rfl
        cases hm : o.maxPerf <;> cases c <;> simp [hm, AtLeastAsGood, Num.le] at hcv
      have hcn : c ≠ .nan := by
        rintro rfl
        cases hm : o.maxPerf <;> cases v <;> simp [hm, AtLeastAsGood, Num.le] at hcv
      rw [aux_eq hvn]
      have := h2 c hc
      rw [aux_eq hcn] at this
      exact atLeast_trans this hcv
  have hbb : b2 = b1 := by
    apply atLeast_antisymm (m := o.maxPerf)
    · obtain ⟨u, hu, rfl⟩ := List.mem_map.1 h1
      exact g2 u ((hmem u).2 (.inr hu))
    · obtain ⟨u, hu, rfl⟩ := List.mem_map.1 g1
      rcases (hmem u).1 hu with rfl | hu
      · exact hv'
      · exact h2 u hu
  have hyb : out'.yBest = out.yBest := by rw [g3, h3, hbb]
  have hbin : WithExtra k (good o out.yBest (aux o.maxPerf v)) out.yBin out'.yBin := by
    unfold WithExtra
    rw [g4, h4, hyb, hrow]
    simp [List.map_take, List.map_drop]
  refine ⟨good o out.yBest (aux o.maxPerf v), ?_, hbin, ?_, hyb, ?_⟩
  · exact if o.absPerf then v else (fun v => if o.maxPerf then 1 - v / out.yBest else 1 - out.yBest / v) (fixZero v)
  · unfold WithExtra
    rw [g9, h9, hyb, hrow]
    cases o.absPerf <;> simp [List.map_take, List.map_drop]
  · rw [g6, h6]
    unfold WithExtra at hbin
    rw [hbin, List.count_append, List.count_cons]
    conv_rhs => rw [← List.take_append_drop k out.yBin, List.count_append]
    cases good o out.yBest (aux o.maxPerf v) <;> simp <;> omega

/-- **C150** for the best algorithm.  Missing for the full property: a best performance 0, minimised
relatively, with two others equal to the machine epsilon. -/
theorem C150_partial (o : Opts) (row row' : List Num) (k : Nat) (v b : Num) (out out' : Row)
    (hk : k ≤ row.length) (hrow : WithExtra k v row row') (hb : IsBest o.maxPerf row b)
    (hw : b ≠ worst o.maxPerf) (hv : v = .nan ∨ (v ≠ b ∧ AtLeastAsGood o.maxPerf b v))
    (hex : o.maxPerf = true ∨ o.absPerf = true ∨ b ≠ 0 ∨ row'.count (.fin Num.eps) ≤ 1)
    (h : rowStep o row = some out) (h' : rowStep o row' = some out') :
    out'.p = shifted k out.p := by
  have hvb : v ≠ b := by
    rcases hv with rfl | hv
    · exact fun e => hb.present e.symm
    · exact hv.1
  unfold WithExtra at hrow
  have hmem : ∀ c, c ∈ row' ↔ c = v ∨ c ∈ row := by
    intro c
    rw [hrow, List.mem_append, List.mem_cons]
    conv_rhs => rw [← List.take_append_drop k row, List.mem_append]
    tauto
  have hb' : IsBest o.maxPerf row' b := by
    refine ⟨(hmem b).2 (.inr hb.mem), hb.present, ?_⟩
    intro c hc hcn
    rcases (hmem c).1 hc with rfl | hc
    · rcases hv with hv | hv
      · exact absurd hv hcn
      · exact hv.2
    · exact hb.best c hc hcn
  have hcount : row.count (.fin Num.eps) ≤ row'.count (.fin Num.eps) := by
    rw [hrow, List.count_append, List.count_cons]
    conv_lhs => rw [← List.take_append_drop k row, List.count_append]
    omega
  obtain ⟨p1, p2, p3, p4, -⟩ := C38_partial o row out b h hb hw (by
    rcases hex with h | h | h | h
    · exact .inl h
    · exact .inr (.inl h)
    · exact .inr (.inr (.inl h))
    · exact .inr (.inr (.inr (le_trans hcount h))))
  obtain ⟨q1, q2, q3, q4, -⟩ := C38_partial o row' out' b h' hb' hw hex
  -- positions in the longer row
  have hlow : ∀ i, i < k → row'[i]? = row[i]? := by
    intro i hi
    rw [hrow, List.getElem?_append_left (by simp; omega), List.getElem?_take, if_pos hi]
  have hat : row'[k]? = some v := by
    rw [hrow, List.getElem?_append_right (by simp)]
    simp [Nat.min_eq_left hk]
  have hhigh : ∀ i, k ≤ i → row'[i + 1]? = row[i]? := by
    intro i hi
    rw [hrow, List.getElem?_append_right (by simp; omega)]
    have : i + 1 - (List.take k row).length = (i - k) + 1 := by
      simp [Nat.min_eq_left hk]
      omega
    rw [this, List.getElem?_cons_succ, List.getElem?_drop]
    congr 1
    omega
  have huniq : ∀ i, row'[i]? = some b → (∀ j, j < i → row'[j]? ≠ some b) → out'.p - 1 = i := by
    intro i hi hlt
    rcases Nat.lt_trichotomy (out'.p - 1) i with hc | hc | hc
    · exact absurd q3 (hlt _ hc)
    · exact hc
    · exact absurd hi (q4 _ hc)
  unfold shifted
  by_cases hpk : out.p ≤ k
  · rw [if_pos hpk]
    have := huniq (out.p - 1) (by rw [hlow _ (by omega)]; exact p3) (by
      intro j hj
      rw [hlow _ (by omega)]
      exact p4 j hj)
    omega
  · rw [if_neg hpk]
    have := huniq (out.p - 1 + 1) (by rw [hhigh _ (by omega)]; exact p3) (by
      intro j hj
      rcases Nat.lt_trichotomy j k with hc | hc | hc
      · rw [hlow _ hc]
        exact p4 j (by omega)
      · rw [hc, hat]
        exact fun e => hvb (Option.some.inj e)
      · obtain ⟨i, rfl⟩ : ∃ i, j = i + 1 := ⟨j - 1, by omega⟩
        rw [hhigh i (by omega)]
        exact p4 i (by omega))
    omega

-- A third algorithm, worse than the best, between two others.
example : WithExtra 1 (3 : Num) [4, 5] [4, 3, 5] ∧
  (rowStep ⟨true, false, .fin (1/4), .fin (1/4), false, false⟩ [4, 5]).map
    (fun r => (r.yBin, r.p, r.yBest)) = some ([true, true], 2, 5) ∧
  (rowStep ⟨true, false, .fin (1/4), .fin (1/4), false, false⟩ [4, 3, 5]).map
    (fun r => (r.yBin, r.p, r.yBest)) = some ([true, false, true], 3, 5) :=
  ⟨rfl, by decide +kernel, by decide +kernel⟩

end Verif.Prelim
