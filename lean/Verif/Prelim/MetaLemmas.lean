import Verif.Prelim.SpecMeta
import Verif.Prelim.Lemmas
import Mathlib.Data.List.Sort
import Mathlib.Tactic.Ring
import Mathlib.Tactic.FieldSimp
/-! Lemmas for the metamorphic properties of PRELIM. -/
set_option autoImplicit false
set_option linter.unusedSectionVars false

namespace Verif.Prelim

open Verif (Num)

section pick
variable {α β : Type}

theorem pick_map (idx : List Nat) (f : α → β) (l : List α) :
    pick idx (l.map f) = (pick idx l).map f := by
  unfold pick
  rw [List.map_filterMap]
  simp only [List.getElem?_map]

theorem pick_range (l : List α) : pick (List.range l.length) l = l := by
  unfold pick
  induction l with
  | nil => rfl
  | cons a l ih =>
    rw [List.length_cons, List.range_succ_eq_map, List.filterMap_cons]
    simp only [List.getElem?_cons_zero, List.filterMap_map, Function.comp_def, Nat.succ_eq_add_one,
      List.getElem?_cons_succ]
    rw [ih]

theorem pick_perm {idx : List Nat} {l : List α} (h : Reorders l.length idx) :
    (pick idx l).Perm l := by
  have := List.Perm.filterMap (fun i => l[i]?) h
  have h2 := pick_range l
  unfold pick at *
  rwa [h2] at this

theorem pick_getElem? {idx : List Nat} {l : List α} (h : ∀ i ∈ idx, i < l.length) (k : Nat) :
    (pick idx l)[k]? = idx[k]?.bind fun i => l[i]? := by
  unfold pick
  induction idx generalizing k with
  | nil => simp
  | cons i idx ih =>
    have hi := h i List.mem_cons_self
    rw [List.filterMap_cons, List.getElem?_eq_getElem hi]
    simp only
    cases k with
    | zero => simp [List.getElem?_eq_getElem hi]
    | succ k =>
      rw [List.getElem?_cons_succ, List.getElem?_cons_succ]
      exact ih (fun j hj => h j (List.mem_cons_of_mem _ hj)) k

theorem Reorders.lt {n : Nat} {idx : List Nat} (h : Reorders n idx) : ∀ i ∈ idx, i < n := by
  intro i hi
  exact List.mem_range.1 (h.mem_iff.1 hi)

theorem Reorders.nodup {n : Nat} {idx : List Nat} (h : Reorders n idx) : idx.Nodup :=
  h.nodup_iff.2 List.nodup_range

end pick

/-! ### Units -/

theorem inUnit_fin {c q : ℚ} : Num.fin q * Num.fin c = .fin (q * c) := rfl

theorem infSign_mul {c q : ℚ} (hc : 0 < c) : Num.infSign (q * c) = Num.infSign q := by
  unfold Num.infSign
  rcases lt_trichotomy q 0 with h | h | h
  · have : q * c < 0 := mul_neg_of_neg_of_pos h hc
    simp [h, this, not_lt.2 (le_of_lt h), not_lt.2 (le_of_lt this)]
  · subst h
    simp
  · simp [h, mul_pos h hc]

theorem mul_unit {c : ℚ} (hc : 0 < c) (v : Num) :
    v * .fin c = match v with
      | .fin q => .fin (q * c)
      | v => v := by
  cases v with
  | fin q => rfl
  | nan => rfl
  | pinf => change Num.infSign c = _; simp [Num.infSign, hc]
  | ninf =>
    change Num.infSign (-c) = _
    simp [Num.infSign, hc, not_lt.2 (le_of_lt hc)]

theorem lt_unit {c : ℚ} (hc : 0 < c) (a b : Num) :
    Num.lt (a * .fin c) (b * .fin c) = Num.lt a b := by
  rw [mul_unit hc, mul_unit hc]
  cases a <;> cases b <;> simp [Num.lt]
  exact mul_lt_mul_iff_left₀ hc

theorem le_unit {c : ℚ} (hc : 0 < c) (a b : Num) :
    Num.le (a * .fin c) (b * .fin c) = Num.le a b := by
  rw [mul_unit hc, mul_unit hc]
  cases a <;> cases b <;> simp [Num.le]
  exact mul_le_mul_iff_left₀ hc

theorem eq_unit {c : ℚ} (hc : 0 < c) (a b : Num) :
    Num.eq (a * .fin c) (b * .fin c) = Num.eq a b := by
  rw [mul_unit hc, mul_unit hc]
  cases a <;> cases b <;> simp [Num.eq]
  exact fun h => absurd h (ne_of_gt hc)

theorem div_unit {c : ℚ} (hc : 0 < c) (a b : Num) :
    (a * .fin c) / (b * .fin c) = a / b := by
  rw [mul_unit hc, mul_unit hc]
  change Num.div _ _ = Num.div _ _
  cases a <;> cases b <;> simp only [Num.div]
  · rename_i b
    have : b * c < 0 ↔ b < 0 := by
      constructor
      · intro h; by_contra h'; exact absurd (mul_nonneg (not_lt.1 h') (le_of_lt hc)) (not_le.2 h)
      · intro h; exact mul_neg_of_neg_of_pos h hc
    simp only [this]
  · rename_i a b
    by_cases hb : b = 0
    · simp [hb, infSign_mul hc]
    · rw [if_neg hb, if_neg (mul_ne_zero hb (ne_of_gt hc)), mul_div_mul_right _ _ (ne_of_gt hc)]
  · rename_i b
    have : b * c < 0 ↔ b < 0 := by
      constructor
      · intro h; by_contra h'; exact absurd (mul_nonneg (not_lt.1 h') (le_of_lt hc)) (not_le.2 h)
      · intro h; exact mul_neg_of_neg_of_pos h hc
    simp only [this]

theorem aux_unit {c : ℚ} (hc : 0 < c) (m : Bool) (v : Num) :
    aux m (v * .fin c) = aux m v * .fin c := by
  rw [mul_unit hc, mul_unit hc]
  cases v <;> cases m <;> rfl

theorem better_unit {c : ℚ} (hc : 0 < c) (m : Bool) (a b : Num) :
    better m (a * .fin c) (b * .fin c) = better m a b := by
  cases m <;> simp [better, lt_unit hc]

theorem extreme_unit {c : ℚ} (hc : 0 < c) (m : Bool) : ∀ (l : List Num) (a : Num),
    extreme m (a * .fin c) (l.map fun v => v * .fin c) = extreme m a l * .fin c := by
  intro l
  induction l with
  | nil => intro a; rfl
  | cons b l ih =>
    intro a
    rw [List.map_cons, extreme, extreme, better_unit hc]
    split <;> exact ih _

theorem argExtreme_unit {c : ℚ} (hc : 0 < c) (m : Bool) : ∀ (l : List Num) (k : Nat) (a : Num)
    (i : Nat), argExtreme m k (a * .fin c) i (l.map fun v => v * .fin c) = argExtreme m k a i l := by
  intro l
  induction l with
  | nil => intro k a i; rfl
  | cons b l ih =>
    intro k a i
    rw [List.map_cons, argExtreme, argExtreme, better_unit hc]
    split <;> exact ih _ _ _

theorem unit_ne_zero {c : ℚ} (hc : 0 < c) {v : Num} (h : v ≠ 0) : v * .fin c ≠ 0 := by
  rw [mul_unit hc]
  cases v with
  | fin q =>
    intro h'
    apply h
    have h0 : q * c = ((0 : ℕ) : ℚ) := by
      have : Num.fin (q * c) = Num.fin ((0 : ℕ) : ℚ) := h'
      injection this
    have h1 : q = 0 := by
      rcases mul_eq_zero.1 (h0.trans Nat.cast_zero) with h1 | h1
      · exact h1
      · exact absurd h1 (ne_of_gt hc)
    rw [h1]
    change Num.fin 0 = Num.fin ((0 : ℕ) : ℚ)
    simp
  | nan => exact h
  | pinf => exact h
  | ninf => exact h

theorem good_unit {c : ℚ} (hc : 0 < c) (o : Opts) (habs : o.absPerf = false) (b v : Num) :
    good o (b * .fin c) (v * .fin c) = good o b v := by
  unfold good
  rw [habs]
  cases o.maxPerf <;> simp only [div_unit hc]

/-! ### Orders -/

theorem rows_iff {o : Opts} {ys : List (List Num)} {outs : List Row} :
    rows o ys = some outs ↔ ys.map (rowStep o) = outs.map some := by
  induction ys generalizing outs with
  | nil =>
    cases outs <;> simp [rows]
  | cons r ys ih =>
    rw [rows, List.map_cons]
    cases hr : rowStep o r with
    | none =>
      cases outs <;> simp
    | some x =>
      cases hrs : rows o ys with
      | none =>
        cases outs with
        | nil => simp
        | cons y outs =>
          simp only [List.map_cons, List.cons.injEq, Option.some.injEq, false_iff, not_and, reduceCtorEq]
          intro _ h
          rw [ih.2 h] at hrs
          cases hrs
      | some zs =>
        have h1 := ih.1 hrs
        cases outs with
        | nil => simp
        | cons y outs =>
          simp only [List.map_cons, List.cons.injEq, Option.some.injEq, h1]
          constructor
          · rintro ⟨h2, h3⟩; exact ⟨h2, by rw [h3]⟩
          · rintro ⟨h2, h3⟩
            refine ⟨h2, ?_⟩
            exact List.map_injective_iff.2 (Option.some_injective _) h3

/-- `npMin` as a fold. -/
def minOp (a b : Num) : Num :=
  if a.isNan then .nan else if b.isNan then .nan else if Num.lt b a then b else a

theorem npMin_foldl (l : List Num) (a : Num) : npMin a l = l.foldl minOp a := by
  induction l generalizing a with
  | nil => rfl
  | cons b l ih => rw [npMin, ih, List.foldl_cons]; rfl

theorem minOp_pinf (a : Num) : minOp .pinf a = a := by
  cases a <;> simp [minOp, Num.isNan, Num.lt]

theorem minOp_fin (a b : ℚ) : minOp (.fin a) (.fin b) = .fin (min a b) := by
  simp only [minOp, Num.isNan, Num.lt, decide_eq_true_eq, Bool.false_eq_true, if_false]
  split
  · rename_i h; rw [min_eq_right (le_of_lt h)]
  · rename_i h; rw [min_eq_left (not_lt.1 h)]

theorem minOp_nan_left (a : Num) : minOp .nan a = .nan := rfl
theorem minOp_nan_right (a : Num) : minOp a .nan = .nan := by cases a <;> rfl
theorem minOp_pinf_right (a : Num) : minOp a .pinf = a := by cases a <;> rfl
theorem minOp_ninf_left {a : Num} (h : a ≠ .nan) : minOp .ninf a = .ninf := by
  cases a <;> first | rfl | exact absurd rfl h
theorem minOp_ninf_right {a : Num} (h : a ≠ .nan) : minOp a .ninf = .ninf := by
  cases a <;> first | rfl | exact absurd rfl h

theorem minOp_right_comm (a b c : Num) : minOp (minOp a b) c = minOp (minOp a c) b := by
  cases a <;> cases b <;> cases c <;>
    simp [minOp_nan_left, minOp_nan_right, minOp_pinf_right, minOp_pinf, minOp_ninf_left,
      minOp_ninf_right, minOp_fin, min_comm, min_left_comm]

instance : RightCommutative minOp := ⟨minOp_right_comm⟩

theorem npMin_perm {a b : Num} {l m : List Num} (h : (a :: l).Perm (b :: m)) :
    npMin a l = npMin b m := by
  have h1 := h.foldl_eq (f := minOp) .pinf
  rw [List.foldl_cons, List.foldl_cons, minOp_pinf, minOp_pinf] at h1
  rw [npMin_foldl, npMin_foldl, h1]

theorem refill_map (g : Num → Num) : ∀ l : List Num,
    refill l ((l.filter fun v => !v.isNan).map g) = l.map fun v => if v.isNan then v else g v := by
  intro l
  induction l with
  | nil => rfl
  | cons v l ih =>
    cases hv : v.isNan with
    | true => simp [refill, hv, ih]
    | false => simp [refill, hv, ih]

theorem transform_pick {tr : List Num → List Num} (htr : OrderBlind tr) {idx : List Nat}
    {l : List Num} (h : Reorders l.length idx) :
    transform tr (pick idx l) = pick idx (transform tr l) := by
  obtain ⟨g, h1, h2⟩ := htr
  unfold transform
  rw [h1, h1, refill_map, refill_map, pick_map,
    h2 _ _ ((pick_perm h).filter fun v => !v.isNan)]

theorem pick_cons {idx : List Nat} {α : Type} {l : List α} (h : Reorders l.length idx) (hl : l ≠ []) :
    ∃ a m, pick idx l = a :: m := by
  have := pick_perm h
  cases hp : pick idx l with
  | nil => rw [hp] at this; exact absurd this.nil_eq.symm hl
  | cons a m => exact ⟨a, m, rfl⟩

theorem normX_pick {tr : List Num → List Num} (htr : OrderBlind tr) {idx : List Nat}
    {l : List Num} (h : Reorders l.length idx) :
    normX tr (pick idx l) = pick idx (normX tr l) := by
  cases l with
  | nil =>
    have : idx = [] := by
      have h' : idx.Perm [] := h
      exact h'.eq_nil
    subst this
    rfl
  | cons a l =>
    obtain ⟨b, m, hb⟩ := pick_cons h (by simp)
    have hp := pick_perm h
    rw [hb] at hp
    rw [hb, normX, normX, npMin_perm hp, ← hb, ← pick_map]
    apply transform_pick htr
    simpa using h

theorem finites_iff {l : List Num} {qs : List ℚ} : finites l = some qs ↔ l = qs.map .fin := by
  induction l generalizing qs with
  | nil => cases qs <;> simp [finites]
  | cons v l ih =>
    cases v with
    | fin q =>
      rw [finites]
      cases hf : finites l with
      | none =>
        simp only [Option.map_none, reduceCtorEq, false_iff]
        cases qs with
        | nil => simp
        | cons r qs =>
          intro h
          simp only [List.map_cons, List.cons.injEq] at h
          rw [ih.2 h.2] at hf
          cases hf
      | some rs =>
        have h1 := ih.1 hf
        cases qs with
        | nil => simp
        | cons r qs =>
          simp only [Option.map_some, Option.some.injEq, List.cons.injEq, List.map_cons,
            Num.fin.injEq, h1]
          constructor
          · rintro ⟨h2, h3⟩; exact ⟨h2, by rw [h3]⟩
          · rintro ⟨h2, h3⟩
            exact ⟨h2, List.map_injective_iff.2 (fun a b h => by injection h) h3⟩
    | nan => cases qs <;> simp [finites]
    | ninf => cases qs <;> simp [finites]
    | pinf => cases qs <;> simp [finites]

theorem bounds_perm {l m : List ℚ} (h : l.Perm m) : bounds l = bounds m := by
  have : l.mergeSort (fun a b => decide (a ≤ b)) = m.mergeSort (fun a b => decide (a ≤ b)) := by
    apply List.Perm.eq_of_pairwise (le := fun a b : ℚ => a ≤ b)
    · intro a b _ _ h1 h2; exact le_antisymm h1 h2
    · have := List.pairwise_mergeSort (le := fun a b : ℚ => decide (a ≤ b))
        (by intro a b c; simp only [decide_eq_true_eq]; exact le_trans)
        (by intro a b; simp only [Bool.or_eq_true, decide_eq_true_eq]; exact le_total a b) l
      simpa using this
    · have := List.pairwise_mergeSort (le := fun a b : ℚ => decide (a ≤ b))
        (by intro a b c; simp only [decide_eq_true_eq]; exact le_trans)
        (by intro a b; simp only [Bool.or_eq_true, decide_eq_true_eq]; exact le_total a b) m
      simpa using this
    · exact ((List.mergeSort_perm l _).trans h).trans (List.mergeSort_perm m _).symm
  unfold bounds
  rw [this]

theorem perm_map_fin {l : List Num} {qs : List ℚ} (h : l.Perm (qs.map .fin)) :
    ∃ rs : List ℚ, l = rs.map .fin ∧ rs.Perm qs := by
  obtain ⟨rs, hrs⟩ : ∃ rs : List ℚ, l = rs.map .fin := by
    have : ∀ v ∈ l, ∃ q, v = .fin q := by
      intro v hv
      obtain ⟨q, -, rfl⟩ := List.mem_map.1 (h.mem_iff.1 hv)
      exact ⟨q, rfl⟩
    clear h
    induction l with
    | nil => exact ⟨[], rfl⟩
    | cons v l ih =>
      obtain ⟨q, rfl⟩ := this v List.mem_cons_self
      obtain ⟨rs, rfl⟩ := ih fun w hw => this w (List.mem_cons_of_mem _ hw)
      exact ⟨q :: rs, rfl⟩
  refine ⟨rs, hrs, ?_⟩
  subst hrs
  have h2 := h.filterMap (f := fun v => match v with | .fin q => some q | _ => none)
  simpa [List.filterMap_map, Function.comp_def] using h2

theorem boundsOf_perm (junk : Num × Num) {l m : List Num} (h : l.Perm m) :
    boundsOf junk l = boundsOf junk m := by
  unfold boundsOf
  cases hm : finites m with
  | some qs =>
    rw [finites_iff] at hm
    subst hm
    obtain ⟨rs, rfl, hp⟩ := perm_map_fin h
    rw [finites_iff.2 rfl]
    simp only [bounds_perm hp]
  | none =>
    have : finites l = none := by
      cases hl : finites l with
      | none => rfl
      | some rs =>
        rw [finites_iff] at hl
        subst hl
        obtain ⟨qs, rfl, -⟩ := perm_map_fin h.symm
        rw [finites_iff.2 rfl] at hm
        cases hm
    rw [this]
    have hany : l.any Num.isNan = m.any Num.isNan := by
      rw [Bool.eq_iff_iff, List.any_eq_true, List.any_eq_true]
      constructor
      · rintro ⟨x, hx, hx'⟩; exact ⟨x, h.mem_iff.1 hx, hx'⟩
      · rintro ⟨x, hx, hx'⟩; exact ⟨x, h.mem_iff.2 hx, hx'⟩
    simp only [hany]

theorem boundCol_pick (junk : Num × Num) {idx : List Nat} {l : List Num}
    (h : Reorders l.length idx) : boundCol junk (pick idx l) = pick idx (boundCol junk l) := by
  unfold boundCol
  rw [pick_map, boundsOf_perm junk (pick_perm h)]

theorem columns_pick (n : Nat) (idx : List Nat) (ys : List (List Num)) :
    columns n (pick idx ys) = (columns n ys).map (pick idx) := by
  unfold columns
  rw [List.map_map]
  apply List.map_congr_left
  intro j _
  exact (pick_map idx _ ys).symm

theorem flatten_pick_perm {idx : List Nat} {cols : List (List Num)}
    (h : ∀ c ∈ cols, Reorders c.length idx) :
    (cols.map (pick idx)).flatten.Perm cols.flatten := by
  induction cols with
  | nil => exact .refl _
  | cons c cols ih =>
    rw [List.map_cons, List.flatten_cons, List.flatten_cons]
    exact (pick_perm (h c List.mem_cons_self)).append
      (ih fun d hd => h d (List.mem_cons_of_mem _ hd))

theorem normY_pick {tr : List Num → List Num} (htr : OrderBlind tr) {idx : List Nat}
    {cols : List (List Num)} (h : ∀ c ∈ cols, Reorders c.length idx) :
    normY tr (cols.map (pick idx)) = (normY tr cols).map (pick idx) := by
  have hp := flatten_pick_perm h
  unfold normY
  cases hf : cols.flatten with
  | nil =>
    rw [hf] at hp
    rw [hp.eq_nil]
  | cons a l =>
    rw [hf] at hp
    cases hg : (cols.map (pick idx)).flatten with
    | nil => rw [hg] at hp; exact absurd hp.nil_eq.symm (by simp)
    | cons b m =>
      rw [hg] at hp
      simp only [List.map_map]
      apply List.map_congr_left
      intro c hc
      simp only [Function.comp]
      rw [npMin_perm hp, ← pick_map, transform_pick htr]
      simpa using h c hc

end Verif.Prelim
