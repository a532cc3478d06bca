import Verif.Prelim.PropsMeta
import Verif.Prelim.UnitLemmas
import Verif.Prelim.RecordedLemmas
/-!
# PRELIM on performances in another unit or measured from another zero point
-/
set_option autoImplicit false
set_option linter.unusedSectionVars false

namespace Verif.Prelim

open Verif (Num)

/-- The results for an instance whose performances are changed by `f`. -/
def Row.change (abs : Bool) (f : Num → Num) (r : Row) : Row :=
  { r with yBest := f r.yBest, yIn := r.yIn.map f, y := if abs then r.y.map f else r.y }

/-- PRELIM with the options `o'` does to performances changed by `f` what it does with `o` to the performances
themselves, if these have the property `p`. -/
structure SameLevel (o o' : Opts) (f : Num → Num) (p : Num → Prop) : Prop where
  isNan : ∀ v, (f v).isNan = v.isNan
  norm : o'.norm = o.norm
  bound : o'.bound = o.bound
  abs : o'.absPerf = o.absPerf
  row : ∀ r : List Num, (∀ v ∈ r, p v) → rowStep o' (r.map f) = (rowStep o r).map (Row.change o.absPerf f)
  fix : o.absPerf = false → ∀ v, p v → fixZero v = v ∧ fixZero (f v) = f v
  out : ∀ (tr : List Num → List Num) (n : Nat) (outs : List Row),
    (if o.norm then normY tr (columns n ((outs.map (Row.change o.absPerf f)).map Row.yIn))
      else columns n ((outs.map (Row.change o.absPerf f)).map Row.y)) =
    if o.norm then normY tr (columns n (outs.map Row.yIn)) else columns n (outs.map Row.y)
  record : ∀ (fit : List Num → Num × Num × Num) (n : Nat) (outs : List Row),
    (recordY o' fit n (outs.map (Row.change o.absPerf f))).2 = (recordY o fit n outs).2

theorem rows_level {o o' : Opts} {f : Num → Num} {p : Num → Prop} (h : SameLevel o o' f p) :
    ∀ ys : List (List Num), (∀ r ∈ ys, ∀ v ∈ r, p v) →
    rows o' (ys.map (·.map f)) = (rows o ys).map (·.map (Row.change o.absPerf f))
  | [], _ => rfl
  | r :: ys, hp => by
    have ih := rows_level h ys fun r hr => hp r (List.mem_cons_of_mem _ hr)
    rw [List.map_cons, rows, rows, h.row r (hp r List.mem_cons_self), ih]
    cases rowStep o r with
    | none => rfl
    | some x => cases rows o ys <;> rfl

theorem outY_level {o o' : Opts} {f : Num → Num} {p : Num → Prop} (h : SameLevel o o' f p)
    (tr : List Num → List Num) (n : Nat) (ys : List (List Num)) (hp : ∀ r ∈ ys, ∀ v ∈ r, p v) :
    outY o' tr n (ys.map (·.map f)) = outY o tr n ys := by
  unfold outY
  rw [rows_level h ys hp, Option.map_map, h.norm]
  congr 1
  funext outs
  exact h.out tr n outs

theorem yRawOut_level {o o' : Opts} {f : Num → Num} {p : Num → Prop} (h : SameLevel o o' f p)
    (ys : List (List Num)) (hp : ∀ r ∈ ys, ∀ v ∈ r, p v) :
    yRawOut o' (fun _ => ys.map (·.map f)) 0 0 = (yRawOut o (fun _ => ys) 0 0).map (·.map f) ∧
      yRawOut o (fun _ => ys) 0 0 = ys := by
  unfold yRawOut afterPrelim
  rw [h.abs]
  cases ha : o.absPerf with
  | true => exact ⟨rfl, rfl⟩
  | false =>
    have e : (ys.map fun row => row.map fixZero) = ys := by
      conv_rhs => rw [← List.map_id ys]
      apply List.map_congr_left
      intro r hr
      conv_rhs => rw [id, ← List.map_id r]
      apply List.map_congr_left
      intro v hv
      exact (h.fix ha v (hp r hr v hv)).1
    have e' : ((ys.map (·.map f)).map fun row => row.map fixZero) = ys.map (·.map f) := by
      rw [List.map_map]
      apply List.map_congr_left
      intro r hr
      simp only [Function.comp, List.map_map]
      apply List.map_congr_left
      intro v hv
      exact (h.fix ha v (hp r hr v hv)).2
    simp only [Bool.false_eq_true, if_false, if_true]
    rw [e, e']
    exact ⟨rfl, rfl⟩

/-! ### Another unit -/

theorem rowStep_inUnit {o : Opts} (habs : o.absPerf = false) {c : ℚ} (hc : 0 < c) (r : List Num)
    (hr : ∀ v ∈ r, v ≠ 0) :
    rowStep o (r.map fun v => v * .fin c) =
      (rowStep o r).map (Row.change o.absPerf fun v => v * .fin c) := by
  have h0 : (0 : Num) ∉ r := fun h => hr 0 h rfl
  have hyin : ∀ (r : List Num) (out : Row), (∀ v ∈ r, v ≠ 0) → rowStep o r = some out → out.yIn = r := by
    intro r out hr h
    unfold rowStep at h
    split at h
    · cases h
    · dsimp only at h
      obtain rfl := Option.some.inj h
      dsimp only
      rw [habs]
      simp only [Bool.false_eq_true, if_false]
      conv_rhs => rw [← List.map_id r]
      apply List.map_congr_left
      intro v hv
      exact fixZero_ne (hr v hv)
  cases e : rowStep o r with
  | none =>
    have : r = [] := by
      unfold rowStep at e
      split at e
      · rename_i hm
        exact List.map_eq_nil_iff.1 hm
      · cases e
    subst this
    rfl
  | some out =>
    cases e' : rowStep o (inUnit c r) with
    | none =>
      have : r = [] := by
        unfold rowStep at e'
        split at e'
        · rename_i hm
          simpa [inUnit] using hm
        · cases e'
      subst this
      cases e
    | some out' =>
      obtain ⟨h1, h2, h3, h4, h5, h6⟩ := C140_partial o c r out out' habs hc (fun h => h0 h.mem) e e'
      have h7 := hyin r out hr e
      have h8 := hyin (inUnit c r) out' (by
        intro v hv
        obtain ⟨w, hw, rfl⟩ := List.mem_map.1 hv
        exact unit_ne_zero hc (hr w hw)) e'
      change rowStep o (inUnit c r) = _
      rw [e']
      simp only [Option.map_some, Option.some.injEq, Row.change, habs, Bool.false_eq_true, if_false]
      obtain ⟨a1, a2, a3, a4, a5, a6, a7⟩ := out'
      dsimp only at h1 h2 h3 h4 h5 h6 h8
      rw [h1, h2, h3, h4, h5, h6 h0, h8, h7]
      rfl

theorem level_unit {o : Opts} (habs : o.absPerf = false) (hn : o.norm = false) {c : ℚ} (hc : 0 < c) :
    SameLevel o o (fun v => v * .fin c) (fun v => v ≠ 0) where
  isNan v := by rw [mul_unit hc]; cases v <;> rfl
  norm := rfl
  bound := rfl
  abs := rfl
  row r hr := rowStep_inUnit habs hc r hr
  fix _ v hv := ⟨fixZero_ne hv, fixZero_ne (unit_ne_zero hc hv)⟩
  out tr n outs := by
    rw [hn, habs]
    simp only [Bool.false_eq_true, if_false, List.map_map]
    rfl
  record fit n outs := by
    unfold recordY
    rw [hn, habs]
    simp only [Bool.false_eq_true, if_false, List.map_map]
    rfl

/-! ### Another zero point -/

theorem move_le (v m : Num) (q : ℚ) : Num.le (v + .fin q) (m + .fin q) = Num.le v m := by
  cases v <;> cases m <;> try rfl
  rename_i a b
  simp only [Num.fin_add, Num.le]
  simp

theorem move_eq (v m : Num) (q : ℚ) : Num.eq (v + .fin q) (m + .fin q) = Num.eq v m := by
  cases v <;> cases m <;> try rfl
  rename_i a b
  simp only [Num.fin_add, Num.eq]
  simp

theorem aux_move (m : Bool) (v : Num) (q : ℚ) : aux m (v + .fin q) = aux m v + .fin q := by
  cases v <;> cases m <;> rfl

theorem better_move (m : Bool) (a b : Num) (q : ℚ) : better m (a + .fin q) (b + .fin q) = better m a b := by
  cases m <;> simp [better, move_lt]

theorem extreme_move (m : Bool) (q : ℚ) : ∀ (l : List Num) (a : Num),
    extreme m (a + .fin q) (l.map fun v => v + .fin q) = extreme m a l + .fin q := by
  intro l
  induction l with
  | nil => intro a; rfl
  | cons b l ih =>
    intro a
    rw [List.map_cons, extreme, extreme, better_move]
    split <;> exact ih _

theorem argExtreme_move (m : Bool) (q : ℚ) : ∀ (l : List Num) (k : Nat) (a : Num) (i : Nat),
    argExtreme m k (a + .fin q) i (l.map fun v => v + .fin q) = argExtreme m k a i l := by
  intro l
  induction l with
  | nil => intro k a i; rfl
  | cons b l ih =>
    intro k a i
    rw [List.map_cons, argExtreme, argExtreme, better_move]
    split <;> exact ih _ _ _

theorem rowStep_move {o : Opts} (habs : o.absPerf = true) (q : ℚ) (r : List Num) :
    rowStep { o with epsilon := o.epsilon + .fin q } (r.map fun v => v + .fin q) =
      (rowStep o r).map (Row.change o.absPerf fun v => v + .fin q) := by
  have haux : (r.map fun v => v + .fin q).map (aux o.maxPerf) =
      (r.map (aux o.maxPerf)).map fun v => v + .fin q := by
    rw [List.map_map, List.map_map]
    apply List.map_congr_left
    intro v _
    exact aux_move _ v q
  have hgood : ∀ b v, good { o with epsilon := o.epsilon + .fin q } (b + .fin q) (v + .fin q) = good o b v := by
    intro b v
    unfold good
    rw [habs]
    dsimp only
    cases o.maxPerf <;> exact move_le _ _ q
  unfold rowStep
  dsimp only
  rw [haux]
  cases hr : r.map (aux o.maxPerf) with
  | nil => rfl
  | cons a l =>
    rw [List.map_cons]
    dsimp only [Option.map_some]
    have hbin : ((a + .fin q) :: (l.map fun v => v + .fin q)).map
        (good { o with epsilon := o.epsilon + .fin q } (extreme o.maxPerf a l + .fin q)) =
        (a :: l).map (good o (extreme o.maxPerf a l)) := by
      rw [← List.map_cons (f := fun v => v + Num.fin q), List.map_map]
      apply List.map_congr_left
      intro v _
      exact hgood _ v
    have hties : ((r.map fun v => v + .fin q).map fun v => v.eq (extreme o.maxPerf a l + .fin q)) =
        r.map fun v => v.eq (extreme o.maxPerf a l) := by
      rw [List.map_map]
      apply List.map_congr_left
      intro v _
      exact move_eq v _ q
    simp only [habs, if_true, extreme_move, argExtreme_move, hties, List.length_map, Row.change]
    simp only [habs] at hbin
    rw [hbin]

theorem columns_change {f : Num → Num} (hf : f .nan = .nan) (n : Nat) (rs : List (List Num)) :
    columns n (rs.map (·.map f)) = (columns n rs).map (·.map f) := by
  unfold columns
  rw [List.map_map]
  apply List.map_congr_left
  intro j _
  simp only [Function.comp, List.map_map]
  apply List.map_congr_left
  intro r _
  simp only [Function.comp, List.getD_eq_getElem?_getD, List.getElem?_map]
  cases r[j]? with
  | none => exact hf.symm
  | some v => rfl

theorem flatten_move (q : ℚ) (cols : List (List Num)) :
    (cols.map (·.map fun v => v + .fin q)).flatten = cols.flatten.map fun v => v + .fin q := by
  rw [List.map_flatten]

theorem shifted_move (q : ℚ) (m e : Num) (c : List Num) :
    ((c.map fun v => v + .fin q).map fun v => v - (m + .fin q) + e) = c.map fun v => v - m + e := by
  rw [List.map_map]
  apply List.map_congr_left
  intro v _
  simp only [Function.comp, move_sub]

theorem normY_move (tr : List Num → List Num) (q : ℚ) (cols : List (List Num)) :
    normY tr (cols.map (·.map fun v => v + .fin q)) = normY tr cols := by
  unfold normY
  rw [flatten_move]
  cases h : cols.flatten with
  | nil =>
    rw [List.map_nil]
    dsimp only
    conv_rhs => rw [← List.map_id cols]
    apply List.map_congr_left
    intro c hc
    have : c = [] := List.flatten_eq_nil_iff.1 h c hc
    rw [this]
    rfl
  | cons a l =>
    have hm : npMin (a + .fin q) (l.map fun v => v + .fin q) = npMin a l + .fin q := minOf_move q (a :: l)
    rw [List.map_cons]
    dsimp only
    rw [hm, List.map_map]
    apply List.map_congr_left
    intro c _
    simp only [Function.comp, shifted_move]

theorem level_zero {o : Opts} (habs : o.absPerf = true) (hn : o.norm = true) (q : ℚ) :
    SameLevel o { o with epsilon := o.epsilon + .fin q } (fun v => v + .fin q) (fun _ => True) where
  isNan v := move_isNan v q
  norm := rfl
  bound := rfl
  abs := rfl
  row r _ := rowStep_move habs q r
  fix h := by rw [habs] at h; cases h
  out tr n outs := by
    rw [hn]
    simp only [if_true]
    have : (outs.map (Row.change o.absPerf fun v => v + .fin q)).map Row.yIn =
        (outs.map Row.yIn).map (·.map fun v => v + .fin q) := by
      rw [List.map_map, List.map_map]
      rfl
    rw [this, columns_change rfl, normY_move]
  record fit n outs := by
    unfold recordY
    dsimp only
    rw [hn]
    simp only [if_true]
    have : ((outs.map (Row.change o.absPerf fun v => v + .fin q)).map fun r => r.yIn) =
        (outs.map fun r => r.yIn).map (·.map fun v => v + .fin q) := by
      rw [List.map_map, List.map_map]
      rfl
    rw [this, columns_change rfl, flatten_move, minOf_move, List.map_map]
    apply List.map_congr_left
    intro c _
    simp only [Function.comp, shifted_move]

end Verif.Prelim
