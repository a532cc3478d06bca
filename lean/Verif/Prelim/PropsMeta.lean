import Verif.Prelim.MetaLemmas
import Verif.Prelim.Props
/-!
# C139–C142: how PRELIM's results follow changes of its inputs
-/
set_option autoImplicit false
set_option linter.unusedSectionVars false

namespace Verif.Prelim

open Verif (Num)

/-! ### C139: improving a performance -/

/-- The full claim: when one performance of an instance improves, that algorithm does not stop
being good, and no other algorithm becomes good. -/
def ImprovingHelps : Prop :=
  ∀ (o : Opts) (e : ℚ) (row : List Num) (out out' : Row) (j : Nat) (v v' : Num),
    o.epsilon = .fin e → 0 ≤ e → e < 1 →
    (∀ w ∈ row, w = .nan ∨ ∃ q, w = .fin q) → (∃ q, v' = .fin q) →
    row[j]? = some v → Improves o.maxPerf v' v →
    rowStep o row = some out → rowStep o (row.set j v') = some out' →
    (MarkedGood out j → MarkedGood out' j) ∧
      ∀ k, k ≠ j → MarkedGood out' k → MarkedGood out k

/-- **C139** is false: when maximising, an algorithm that improves from -1 to 0 stops being good
although it becomes the best. -/
theorem C139_refuted : ¬ ImprovingHelps := by
  intro h
  have h1 := h ⟨true, false, .fin (1/20), 1, false, false⟩ (1/20) [.fin (-1/2), .fin (-1)]
    ⟨[true, true], .fin (-1/2), 1, 2, false, [.fin 0, .fin (-1)], [.fin (-1/2), .fin (-1)]⟩
    ⟨[false, false], .fin Num.eps, 2, 0, false,
      [.fin (1 + 2 ^ 51), .fin 0], [.fin (-1/2), .fin Num.eps]⟩
    1 (.fin (-1)) (.fin 0) rfl (by norm_num) (by norm_num)
    (by
      intro w hw
      simp only [List.mem_cons, List.not_mem_nil, or_false] at hw
      rcases hw with rfl | rfl
      · exact .inr ⟨_, rfl⟩
      · exact .inr ⟨_, rfl⟩)
    ⟨_, rfl⟩ rfl ⟨by simp, .inr (by change Num.le _ _ = true; decide +kernel)⟩
    (by decide +kernel) (by decide +kernel)
  exact absurd (h1.1 rfl) (by unfold MarkedGood; decide +kernel)

/-- **C139** for absolute performances; the other algorithms are not affected at all. -/
theorem C139_absolute (o : Opts) (e : ℚ) (row : List Num) (out out' : Row) (j : Nat) (v v' : Num)
    (habs : o.absPerf = true) (he : o.epsilon = .fin e) (hv : row[j]? = some v)
    (himp : Improves o.maxPerf v' v) (h : rowStep o row = some out)
    (h' : rowStep o (row.set j v') = some out') :
    (MarkedGood out j → MarkedGood out' j) ∧
      ∀ k, k ≠ j → (MarkedGood out' k ↔ MarkedGood out k) := by
  have hj : j < row.length := (List.getElem?_eq_some_iff.1 hv).1
  constructor
  · intro hg
    rw [yBin_getElem h hv] at hg
    rw [yBin_getElem h' (v := v') (by rw [List.getElem?_set_self hj])]
    unfold good at hg ⊢
    rw [habs, he] at hg ⊢
    obtain ⟨hn, himp⟩ := himp
    rw [aux_eq hn]
    rcases himp with rfl | himp
    · rw [aux_nan] at hg
      cases hm : o.maxPerf <;> simp [hm, worst, Num.le] at hg
    · have hvn : v ≠ .nan := by
        rintro rfl
        cases hm : o.maxPerf <;> cases v' <;> simp [hm, AtLeastAsGood, Num.le] at himp
      rw [aux_eq hvn] at hg
      cases hm : o.maxPerf <;> simp only [hm, AtLeastAsGood, if_true, if_false, Bool.false_eq_true] at hg himp ⊢
      · exact Num.le_trans himp hg
      · exact Num.le_trans hg himp
  · intro k hk
    have hrow : (row.set j v')[k]? = row[k]? := List.getElem?_set_ne (Ne.symm hk)
    cases hw : row[k]? with
    | none =>
      have h1 : ¬ MarkedGood out k := by
        intro hg
        obtain ⟨b, -, -, -, hb, -⟩ := rowStep_some h
        unfold MarkedGood at hg
        rw [hb, List.getElem?_map, hw] at hg
        cases hg
      have h2 : ¬ MarkedGood out' k := by
        intro hg
        obtain ⟨b, -, -, -, hb, -⟩ := rowStep_some h'
        unfold MarkedGood at hg
        rw [hb, List.getElem?_map, hrow, hw] at hg
        cases hg
      exact ⟨fun h => absurd h h2, fun h => absurd h h1⟩
    | some w =>
      rw [yBin_getElem h hw, yBin_getElem h' (hrow.trans hw)]
      unfold good
      rw [habs]
      cases o.maxPerf <;> exact Iff.rfl

/-- The best performance after an improvement. -/
theorem isBest_set {m : Bool} {row : List Num} {j : Nat} {v v' b : Num} (hv : row[j]? = some v)
    (himp : Improves m v' v) (hb : IsBest m row b) :
    (AtLeastAsGood m v' b ∧ IsBest m (row.set j v') v') ∨
      (AtLeastAsGood m b v' ∧ IsBest m (row.set j v') b) := by
  have hj : j < row.length := (List.getElem?_eq_some_iff.1 hv).1
  have hmem : ∀ c, c ∈ row.set j v' → c = v' ∨ c ∈ row := by
    intro c hc
    rcases List.mem_or_eq_of_mem_set hc with h | h
    · exact .inr h
    · exact .inl h
  have hset : v' ∈ row.set j v' := List.mem_set hj _
  by_cases hge : AtLeastAsGood m v' b
  · refine .inl ⟨hge, hset, himp.1, ?_⟩
    intro c hc hcn
    rcases hmem c hc with rfl | hc
    · exact atLeast_refl hcn
    · exact atLeast_trans hge (hb.best c hc hcn)
  · have hle : AtLeastAsGood m b v' := by
      rw [← not_better_iff himp.1 hb.present]
      cases hbt : better m v' b with
      | false => rfl
      | true => exact absurd (better_atLeast hbt).1 hge
    refine .inr ⟨hle, ?_, hb.present, ?_⟩
    · obtain ⟨i, hi, hib⟩ := List.getElem_of_mem hb.mem
      have hij : i ≠ j := by
        rintro rfl
        rw [List.getElem?_eq_getElem hi, hib] at hv
        cases hv
        rcases himp.2 with h | h
        · exact hb.present h
        · exact hge h
      have : (row.set j v')[i]? = some b := by
        rw [List.getElem?_set_ne (Ne.symm hij), List.getElem?_eq_getElem hi, hib]
      exact List.mem_of_getElem? this
    · intro c hc hcn
      rcases hmem c hc with rfl | hc
      · exact hle
      · exact hb.best c hc hcn

/-- **C139** for relative performances when the best performance and the new one are positive.
Missing for the full property: best performances that are zero or negative. -/
theorem C139_partial (o : Opts) (e : ℚ) (row : List Num) (out out' : Row) (j : Nat) (v : Num)
    (q' b : ℚ) (habs : o.absPerf = false) (he : o.epsilon = .fin e) (he0 : 0 ≤ e) (he1 : e < 1)
    (hv : row[j]? = some v) (himp : Improves o.maxPerf (.fin q') v)
    (hb : IsBest o.maxPerf row (.fin b)) (hpos : 0 < b) (hq' : 0 < q')
    (h : rowStep o row = some out) (h' : rowStep o (row.set j (.fin q')) = some out') :
    (MarkedGood out j → MarkedGood out' j) ∧
      ∀ k, k ≠ j → MarkedGood out' k → MarkedGood out k := by
  have hj : j < row.length := (List.getElem?_eq_some_iff.1 hv).1
  -- the new best value `b'` is positive, at least as good as the old one and as the new value
  obtain ⟨b', hb', hpos', hbb, hcase⟩ : ∃ b' : ℚ, IsBest o.maxPerf (row.set j (.fin q')) (.fin b') ∧
      0 < b' ∧ AtLeastAsGood o.maxPerf (.fin b') (.fin b) ∧ (b' = q' ∨ b' = b) := by
    rcases isBest_set hv himp hb with ⟨h1, h2⟩ | ⟨h1, h2⟩
    · exact ⟨q', h2, hq', h1, .inl rfl⟩
    · exact ⟨b, h2, hpos, atLeast_refl (by simp), .inr rfl⟩
  have hjv' : (row.set j (.fin q'))[j]? = some (.fin q') := by rw [List.getElem?_set_self hj]
  have h1e : 0 < 1 - e := by linarith
  constructor
  · intro hg
    rw [C36_partial o e row out j v b habs he he1 h hv hb hpos] at hg
    rw [C36_partial o e _ out' j _ b' habs he he1 h' hjv' hb' hpos']
    unfold WithinFraction at hg ⊢
    cases hm : o.maxPerf <;> rw [hm] at hg himp <;>
      simp only [if_true, if_false, Bool.false_eq_true] at hg ⊢
    · obtain ⟨q, rfl, hq⟩ := hg
      refine ⟨q', rfl, ?_⟩
      rcases himp.2 with h | h
      · cases h
      simp only [AtLeastAsGood, if_false, Bool.false_eq_true, Num.le, decide_eq_true_eq] at h
      rcases hcase with rfl | rfl
      · rw [le_div_iff₀ h1e]
        nlinarith
      · exact le_trans h hq
    · obtain ⟨q, rfl, hq⟩ := hg
      refine ⟨q', rfl, ?_⟩
      rcases himp.2 with h | h
      · cases h
      simp only [AtLeastAsGood, if_true, Num.le, decide_eq_true_eq] at h
      rcases hcase with rfl | rfl
      · nlinarith
      · exact le_trans hq h
  · intro k hk hg
    have hrow : (row.set j (.fin q'))[k]? = row[k]? := List.getElem?_set_ne (Ne.symm hk)
    cases hw : row[k]? with
    | none =>
      exfalso
      obtain ⟨b, -, -, -, hbn, -⟩ := rowStep_some h'
      unfold MarkedGood at hg
      rw [hbn, List.getElem?_map, hrow, hw] at hg
      cases hg
    | some w =>
      rw [C36_partial o e _ out' k w b' habs he he1 h' (hrow.trans hw) hb' hpos'] at hg
      rw [C36_partial o e row out k w b habs he he1 h hw hb hpos]
      unfold WithinFraction at hg ⊢
      cases hm : o.maxPerf <;> rw [hm] at hg hbb <;>
        simp only [if_true, if_false, Bool.false_eq_true, AtLeastAsGood, Num.le,
          decide_eq_true_eq] at hg hbb ⊢
      · obtain ⟨q, rfl, hq⟩ := hg
        exact ⟨q, rfl, le_trans hq (div_le_div_of_nonneg_right hbb (le_of_lt h1e))⟩
      · obtain ⟨q, rfl, hq⟩ := hg
        refine ⟨q, rfl, le_trans ?_ hq⟩
        exact mul_le_mul_of_nonneg_left hbb (le_of_lt h1e)

-- The hypotheses of `C139_partial` hold here: 96 improves to 110, and 100 stops being good.
example : (rowStep ⟨true, false, .fin (1/20), 1, false, false⟩ [96, 100, .nan]).map Row.yBin =
    some [true, true, false] ∧
  (rowStep ⟨true, false, .fin (1/20), 1, false, false⟩ ([96, 100, .nan].set 0 110)).map Row.yBin =
    some [true, false, false] ∧
  Improves true 110 96 := by
  refine ⟨by decide +kernel, by decide +kernel, by decide, .inr ?_⟩
  change Num.le 96 110 = true
  decide +kernel

/-! ### C140: units -/

/-- The full claim: expressing all performances of an instance in another unit changes none of
the relative verdicts. -/
def UnitFree : Prop :=
  ∀ (o : Opts) (c : ℚ) (row : List Num) (out out' : Row), o.absPerf = false → 0 < c →
    rowStep o row = some out → rowStep o (inUnit c row) = some out' →
    out'.yBin = out.yBin ∧ out'.p = out.p ∧ out'.numGood = out.numGood ∧ out'.beta = out.beta

/-- **C140** is false: next to a best time of 0, a time equal to the machine epsilon is good, but
the same times in a unit ten times smaller give another verdict. -/
theorem C140_refuted : ¬ UnitFree := by
  intro h
  have h1 := h ⟨false, false, .fin (1/20), .fin (1/2), false, false⟩ 10 [0, .fin Num.eps]
    ⟨[true, true], .fin Num.eps, 1, 2, true, [.fin 0, .fin 0], [.fin Num.eps, .fin Num.eps]⟩
    ⟨[true, false], .fin Num.eps, 1, 1, false, [.fin 0, .fin (9/10)],
      [.fin Num.eps, .fin (10 * Num.eps)]⟩
    rfl (by norm_num) (by decide +kernel) (by decide +kernel)
  exact absurd h1.1 (by decide)

/-- **C140** when the best performance is not zero: the relative verdicts do not depend on the
unit, and the best performance is converted.  If no performance is zero the relative performances
are the same as well.  Missing for the full property: best performances that are zero. -/
theorem C140_partial (o : Opts) (c : ℚ) (row : List Num) (out out' : Row)
    (habs : o.absPerf = false) (hc : 0 < c) (hz : ¬ IsBest o.maxPerf row 0)
    (h : rowStep o row = some out) (h' : rowStep o (inUnit c row) = some out') :
    out'.yBin = out.yBin ∧ out'.p = out.p ∧ out'.numGood = out.numGood ∧ out'.beta = out.beta ∧
      out'.yBest = out.yBest * .fin c ∧ (0 ∉ row → out'.y = out.y) := by
  have hbest : ∀ a l, row.map (aux o.maxPerf) = a :: l → extreme o.maxPerf a l ≠ 0 := by
    intro a l hal h0
    have hnn : ∀ x ∈ a :: l, x ≠ .nan := by
      intro x hx
      rw [← hal] at hx
      obtain ⟨v, -, rfl⟩ := List.mem_map.1 hx
      exact aux_ne_nan _ _
    obtain ⟨h1, h2⟩ := extreme_spec o.maxPerf l a (hnn a List.mem_cons_self)
      (fun x hx => hnn x (List.mem_cons_of_mem _ hx))
    rw [h0, ← hal] at h1 h2
    apply hz
    obtain ⟨v, hv, hv0⟩ := List.mem_map.1 h1
    have hvn : v ≠ .nan := by
      rintro rfl
      rw [aux_nan] at hv0
      cases hm : o.maxPerf <;> rw [hm] at hv0 <;> cases hv0
    rw [aux_eq hvn] at hv0
    subst hv0
    refine ⟨hv, hvn, ?_⟩
    intro w hw hwn
    have := h2 _ (List.mem_map_of_mem (f := aux o.maxPerf) hw)
    rwa [aux_eq hwn] at this
  unfold rowStep at h h'
  have haux : (inUnit c row).map (aux o.maxPerf) =
      (row.map (aux o.maxPerf)).map fun v => v * .fin c := by
    unfold inUnit
    rw [List.map_map, List.map_map]
    apply List.map_congr_left
    intro v _
    exact aux_unit hc _ v
  rw [haux] at h'
  cases hr : row.map (aux o.maxPerf) with
  | nil => rw [hr] at h; cases h
  | cons a l =>
    rw [hr, List.map_cons] at h'
    rw [hr] at h
    have hne := hbest a l hr
    simp only [Option.some.injEq, habs, Bool.false_eq_true, if_false, extreme_unit hc,
      argExtreme_unit hc, fixZero_ne hne, fixZero_ne (unit_ne_zero hc hne)] at h h'
    have hbin : ((a * .fin c) :: (l.map fun v => v * .fin c)).map
        (good o (extreme o.maxPerf a l * .fin c)) = (a :: l).map (good o (extreme o.maxPerf a l)) := by
      rw [← List.map_cons (f := fun v => v * Num.fin c), List.map_map]
      apply List.map_congr_left
      intro v _
      exact good_unit hc o habs _ v
    have hties : (inUnit c row).map (fun v => v.eq (extreme o.maxPerf a l * .fin c)) =
        row.map fun v => v.eq (extreme o.maxPerf a l) := by
      unfold inUnit
      rw [List.map_map]
      apply List.map_congr_left
      intro v _
      exact eq_unit hc v _
    have hlen : (inUnit c row).length = row.length := by simp [inUnit]
    rw [hbin, hties, hlen] at h'
    subst h h'
    refine ⟨rfl, rfl, rfl, rfl, rfl, ?_⟩
    intro h0
    simp only [inUnit, List.map_map]
    apply List.map_congr_left
    intro v hv
    have hv0 : v ≠ 0 := by
      rintro rfl
      exact h0 hv
    simp only [Function.comp, fixZero_ne hv0, fixZero_ne (unit_ne_zero hc hv0), div_unit hc]

/-- **C140** for absolute performances, when the threshold is converted too. -/
theorem C140_absolute_partial (o o' : Opts) (c : ℚ) (row : List Num) (out out' : Row)
    (habs : o.absPerf = true) (hc : 0 < c)
    (ho : o' = { o with epsilon := o.epsilon * .fin c })
    (h : rowStep o row = some out) (h' : rowStep o' (inUnit c row) = some out') :
    out'.yBin = out.yBin ∧ out'.p = out.p ∧ out'.numGood = out.numGood ∧ out'.beta = out.beta ∧
      out'.yBest = out.yBest * .fin c := by
  subst ho
  unfold rowStep at h h'
  have haux : (inUnit c row).map (aux o.maxPerf) =
      (row.map (aux o.maxPerf)).map fun v => v * .fin c := by
    unfold inUnit
    rw [List.map_map, List.map_map]
    apply List.map_congr_left
    intro v _
    exact aux_unit hc _ v
  dsimp only at h'
  rw [haux] at h'
  cases hr : row.map (aux o.maxPerf) with
  | nil => rw [hr] at h; cases h
  | cons a l =>
    rw [hr, List.map_cons] at h'
    rw [hr] at h
    simp only [Option.some.injEq, habs, if_true, extreme_unit hc, argExtreme_unit hc] at h h'
    have hbin : ((a * .fin c) :: (l.map fun v => v * .fin c)).map
        (good ({ o with epsilon := o.epsilon * .fin c } : Opts) (extreme o.maxPerf a l * .fin c)) =
        (a :: l).map (good o (extreme o.maxPerf a l)) := by
      rw [← List.map_cons (f := fun v => v * Num.fin c), List.map_map]
      apply List.map_congr_left
      intro v _
      unfold good
      simp only [Function.comp, habs]
      cases o.maxPerf <;> simp only [le_unit hc]
    have hties : (inUnit c row).map (fun v => v.eq (extreme o.maxPerf a l * .fin c)) =
        row.map fun v => v.eq (extreme o.maxPerf a l) := by
      unfold inUnit
      rw [List.map_map]
      apply List.map_congr_left
      intro v _
      exact eq_unit hc v _
    have hlen : (inUnit c row).length = row.length := by simp [inUnit]
    simp only [habs] at hbin
    rw [hbin, hties, hlen] at h'
    subst h h'
    exact ⟨rfl, rfl, rfl, rfl, rfl⟩

-- Seconds and milliseconds: the hypotheses of `C140_partial` hold and the verdict is not constant.
example : ¬ IsBest false [2, 3, .nan, 2] 0 ∧
  (rowStep ⟨false, false, .fin (1/20), .fin (1/4), false, false⟩ [2, 3, .nan, 2]).map
    (fun r => (r.yBin, r.p, r.beta)) = some ([true, false, false, true], 1, true) ∧
  (rowStep ⟨false, false, .fin (1/20), .fin (1/4), false, false⟩ (inUnit 1000 [2, 3, .nan, 2])).map
    (fun r => (r.yBin, r.p, r.beta)) = some ([true, false, false, true], 1, true) := by
  refine ⟨fun h => ?_, by decide +kernel, by decide +kernel⟩
  have := h.mem
  revert this
  decide

/-! ### C141: the order of the algorithms -/

/-- **C141** Listing the algorithms of an instance in another order reorders the verdicts and
leaves the best performance, the number of good algorithms and `beta` alone; when a single
algorithm has the best performance, `p` is the new position of the same algorithm. -/
theorem C141_algorithms (o : Opts) (row : List Num) (idx : List Nat) (out out' : Row)
    (hidx : Reorders row.length idx) (h : rowStep o row = some out)
    (h' : rowStep o (pick idx row) = some out') :
    out'.yBin = pick idx out.yBin ∧ out'.y = pick idx out.y ∧ out'.yBest = out.yBest ∧
      out'.numGood = out.numGood ∧ out'.beta = out.beta ∧
      ∀ (j : Nat) (b : Num), IsBest o.maxPerf row b → b ≠ worst o.maxPerf →
        (o.maxPerf = true ∨ o.absPerf = true ∨ b ≠ 0 ∨ row.count (.fin Num.eps) ≤ 1) →
        row[j]? = some b → (∀ k, row[k]? = some b → k = j) →
        out.p = j + 1 ∧ ∃ k, idx[k]? = some j ∧ out'.p = k + 1 := by
  have hperm := pick_perm hidx
  obtain ⟨b1, h1, h2, h3, h4, -, h6, h7, h8, h9⟩ := rowStep_some h
  obtain ⟨b2, g1, g2, g3, g4, -, g6, g7, g8, g9⟩ := rowStep_some h'
  have hbb : b2 = b1 := by
    apply atLeast_antisymm (m := o.maxPerf)
    · obtain ⟨v, hv, rfl⟩ := List.mem_map.1 h1
      exact g2 v (hperm.mem_iff.2 hv)
    · obtain ⟨v, hv, rfl⟩ := List.mem_map.1 g1
      exact h2 v (hperm.mem_iff.1 hv)
  have hyb : out'.yBest = out.yBest := by rw [g3, h3, hbb]
  have hbin : out'.yBin = pick idx out.yBin := by rw [g4, h4, pick_map, hyb]
  have hnum : out'.numGood = out.numGood := by
    rw [g6, h6, hbin]
    apply List.Perm.count_eq
    apply pick_perm
    rw [h4, List.length_map]
    exact hidx
  refine ⟨hbin, ?_, hyb, hnum, ?_, ?_⟩
  · rw [g9, h9, hyb]
    cases o.absPerf <;> simp only [if_true, if_false, Bool.false_eq_true, pick_map]
  · rw [g7, h7, hnum, hperm.length_eq]
  · intro j b hb hw hex hj huniq
    obtain ⟨p1, p2, p3, -⟩ := C38_partial o row out b h hb hw hex
    have hb' : IsBest o.maxPerf (pick idx row) b :=
      ⟨hperm.mem_iff.2 hb.mem, hb.present, fun x hx => hb.best x (hperm.mem_iff.1 hx)⟩
    rw [← hperm.count_eq] at hex
    obtain ⟨q1, q2, q3, -⟩ := C38_partial o _ out' b h' hb' hw hex
    refine ⟨by have := huniq _ p3; omega, out'.p - 1, ?_, by omega⟩
    rw [pick_getElem? hidx.lt] at q3
    cases hi : idx[out'.p - 1]? with
    | none => rw [hi] at q3; cases q3
    | some i =>
      rw [hi] at q3
      rw [huniq i q3]

-- The hypotheses of `C141_algorithms` hold: the algorithms in the order third, first, second.
example : Reorders 3 [2, 0, 1] ∧ pick [2, 0, 1] [(1 : Num), 5, .nan] = [.nan, 1, 5] ∧
  (rowStep ⟨true, false, .fin (1/20), .fin (1/4), false, false⟩ [1, 5, .nan]).map
    (fun r => (r.yBin, r.p)) = some ([false, true, false], 2) ∧
  (rowStep ⟨true, false, .fin (1/20), .fin (1/4), false, false⟩ [.nan, 1, 5]).map
    (fun r => (r.yBin, r.p)) = some ([false, false, true], 3) := by
  refine ⟨?_, by decide +kernel, by decide +kernel, by decide +kernel⟩
  unfold Reorders
  decide

/-! ### C142: the order of the instances -/

/-- **C142** The verdicts on an instance do not depend on the other instances: any selection of
instances, in any order, gets the verdicts it gets among all instances. -/
theorem C142_rows (o : Opts) (ys : List (List Num)) (idx : List Nat) (outs : List Row)
    (h : rows o ys = some outs) : rows o (pick idx ys) = some (pick idx outs) := by
  rw [rows_iff] at h ⊢
  rw [← pick_map, h, pick_map]

/-- **C142** Listing the instances in another order reorders every column of the processed
features in the same way; bounding and normalisation use the same bounds and transformation. -/
theorem C142_features (o : Opts) (junk : Num × Num) (tr : List Num → List Num) (htr : OrderBlind tr)
    (n : Nat) (idx : List Nat) (hidx : Reorders n idx) (cols : List (List Num))
    (hlen : ∀ c ∈ cols, c.length = n) :
    outX o junk tr (cols.map (pick idx)) = (outX o junk tr cols).map (pick idx) := by
  have hb : (cols.map (pick idx)).map (boundCol junk) = (cols.map (boundCol junk)).map (pick idx) := by
    rw [List.map_map, List.map_map]
    apply List.map_congr_left
    intro c hc
    exact boundCol_pick junk (by rw [hlen c hc]; exact hidx)
  have hx : ∀ ds : List (List Num), (∀ c ∈ ds, c.length = n) →
      (ds.map (pick idx)).map (normX tr) = (ds.map (normX tr)).map (pick idx) := by
    intro ds hds
    rw [List.map_map, List.map_map]
    apply List.map_congr_left
    intro c hc
    exact normX_pick htr (by rw [hds c hc]; exact hidx)
  unfold outX
  cases o.bound <;> cases o.norm <;> simp only [if_true, if_false, Bool.false_eq_true]
  · exact hx cols hlen
  · exact hb
  · rw [hb]
    apply hx
    intro c hc
    obtain ⟨d, hd, rfl⟩ := List.mem_map.1 hc
    rw [boundCol, List.length_map]
    exact hlen d hd

/-- **C142** The same for the performances the stage returns. -/
theorem C142_performances (o : Opts) (tr : List Num → List Num) (htr : OrderBlind tr) (nalgos : Nat)
    (ys : List (List Num)) (idx : List Nat) (hidx : Reorders ys.length idx)
    (cols : List (List Num)) (h : outY o tr nalgos ys = some cols) :
    outY o tr nalgos (pick idx ys) = some (cols.map (pick idx)) := by
  unfold outY at h ⊢
  cases hr : rows o ys with
  | none => rw [hr] at h; cases h
  | some outs =>
    rw [hr] at h
    rw [C142_rows o ys idx outs hr]
    simp only [Option.map_some, Option.some.injEq] at h ⊢
    subst h
    have hl : outs.length = ys.length := by
      have := congrArg List.length (rows_iff.1 hr)
      simpa using this.symm
    cases o.norm <;> simp only [if_true, if_false, Bool.false_eq_true]
    · rw [← pick_map, columns_pick]
    · rw [← pick_map, columns_pick, normY_pick htr]
      intro c hc
      unfold columns at hc
      obtain ⟨j, -, rfl⟩ := List.mem_map.1 hc
      rw [List.length_map, List.length_map, hl]
      exact hidx

/-- A transformation that is order blind without treating columns alike: divide by the number of
values in the column. -/
example : OrderBlind fun l => l.map fun v => v / .fin l.length :=
  ⟨fun l v => v / .fin l.length, fun _ => rfl, fun l l' h => by simp only [h.length_eq]⟩

example : Reorders 3 [1, 2, 0] ∧
  outX ⟨true, true, 0, 1, false, true⟩ (0, 0) (fun l => l.map fun v => v / .fin l.length)
    [[4, 1, 7]] = [[.fin (4/3), .fin (1/3), .fin (7/3)]] ∧
  outX ⟨true, true, 0, 1, false, true⟩ (0, 0) (fun l => l.map fun v => v / .fin l.length)
    [pick [1, 2, 0] [4, 1, 7]] = [[.fin (1/3), .fin (7/3), .fin (4/3)]] := by
  refine ⟨?_, by decide +kernel, by decide +kernel⟩
  unfold Reorders
  decide

end Verif.Prelim
