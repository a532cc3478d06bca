import Verif.Preprocessing.Spec
/-! Lemmas about masks and selections. -/
set_option autoImplicit false
set_option linter.unusedSectionVars false

namespace Verif.Preprocessing

variable {V L I S : Type}

theorem filterMap_congr' {α β : Type} {f g : α → Option β} : ∀ {l : List α},
    (∀ a ∈ l, f a = g a) → l.filterMap f = l.filterMap g := by
  intro l
  induction l with
  | nil => intro _; rfl
  | cons a l ih =>
    intro h
    rw [List.filterMap_cons, List.filterMap_cons, h a List.mem_cons_self,
      ih (fun b hb => h b (List.mem_cons_of_mem _ hb))]

theorem select_cols [DecidableEq L] (w : List L) : ∀ (labels : List L) (row : List V),
    labels.Nodup → row.length = labels.length →
    ((labels.filter fun l => l ∈ w).map fun l => labels.idxOf l).filterMap (fun i => row[i]?) =
      ((labels.zip row).filter fun p => p.1 ∈ w).map Prod.snd := by
  intro labels
  induction labels with
  | nil => intro row _ _; simp
  | cons a ls ih =>
    intro row hnd hlen
    cases row with
    | nil => simp at hlen
    | cons v rs =>
      obtain ⟨ha, hnd⟩ := List.nodup_cons.1 hnd
      have hlen' : rs.length = ls.length := by simpa using hlen
      have htail : ((ls.filter fun l => l ∈ w).map fun l => (a :: ls).idxOf l).filterMap
          (fun i => (v :: rs)[i]?) = ((ls.zip rs).filter fun p => p.1 ∈ w).map Prod.snd := by
        rw [← ih rs hnd hlen', List.filterMap_map, List.filterMap_map]
        apply filterMap_congr'
        intro l hl
        have hl' : l ∈ ls := (List.mem_filter.1 hl).1
        have : a ≠ l := fun h => ha (h ▸ hl')
        have hb : (a == l) = false := by simp [this]
        simp [List.idxOf_cons, hb]
      by_cases haw : a ∈ w
      · simp only [List.zip_cons_cons, List.filter_cons, haw, decide_true, if_true,
          List.map_cons]
        rw [← htail]
        simp
      · simp only [List.zip_cons_cons, List.filter_cons, haw, decide_false, Bool.false_eq_true,
          if_false]
        exact htail

/-- A mask picks the positions where it is false. -/
theorem mask_pick {α : Type} : ∀ (l : List α) (idx : List Bool), l.length = idx.length →
    mask l idx = pick l ((List.range idx.length).filter fun i => idx[i]? == some false) := by
  intro l idx
  induction idx generalizing l with
  | nil => intro h; cases l <;> simp_all [mask, pick]
  | cons b idx ih =>
    intro h
    cases l with
    | nil => simp at h
    | cons a l =>
      have h' : l.length = idx.length := by simpa using h
      have ih := ih l h'
      have e : pick (a :: l) (((List.range idx.length).map Nat.succ).filter
          fun i => (b :: idx)[i]? == some false) = mask l idx := by
        rw [ih, pick, pick, List.filter_map, List.filterMap_map]
        rfl
      rw [List.length_cons, List.range_succ_eq_map, List.filter_cons]
      cases b with
      | true =>
        simp only [List.getElem?_cons_zero, mask, List.zip_cons_cons, List.filter_cons]
        simp only [mask] at e
        simpa [mask] using e.symm
      | false =>
        simp only [mask] at e
        simp only [List.getElem?_cons_zero, mask, List.zip_cons_cons, List.filter_cons]
        simp [← e, pick]

theorem pick_all {α : Type} (l : List α) (is : List Nat) (h : is = List.range l.length) :
    pick l is = l := by
  subst h
  unfold pick
  induction l with
  | nil => rfl
  | cons a l ih =>
    rw [List.length_cons, List.range_succ_eq_map, List.filterMap_cons]
    simp only [List.getElem?_cons_zero, List.filterMap_map]
    exact congrArg _ ih

theorem lists_filter (n : Nat) (P : Nat → Prop) (q : Nat → Bool)
    (h : ∀ i, i < n → (q i = true ↔ P i)) : Lists ((List.range n).filter q) n P where
  increasing := List.Pairwise.filter _ List.pairwise_lt_range
  exact i := by
    rw [List.mem_filter, List.mem_range]
    constructor
    · rintro ⟨h1, h2⟩
      exact ⟨h1, (h i h1).1 h2⟩
    · rintro ⟨h1, h2⟩
      exact ⟨h1, (h i h1).2 h2⟩

/-- Positions where a mask is false. -/
def falses (idx : List Bool) : List Nat :=
  (List.range idx.length).filter fun i => idx[i]? == some false

theorem falses_all {idx : List Bool} (h : idx.any id = false) :
    falses idx = List.range idx.length := by
  unfold falses
  rw [List.filter_eq_self]
  intro i hi
  rw [List.mem_range] at hi
  rw [List.getElem?_eq_getElem hi]
  rw [List.any_eq_false] at h
  have := h idx[i] (List.getElem_mem hi)
  simpa using this

theorem mask_falses {α : Type} (l : List α) (idx : List Bool) (h : l.length = idx.length) :
    mask l idx = pick l (falses idx) := mask_pick l idx h

/-- Applying the mask, or leaving the list alone when nothing is masked. -/
theorem cond_mask {α : Type} (l : List α) (idx : List Bool) (h : l.length = idx.length) :
    (if idx.any id then mask l idx else l) = pick l (falses idx) := by
  cases hi : idx.any id with
  | true => simp [mask_falses l idx h]
  | false =>
    rw [falses_all hi, ← h]
    simp [pick_all]

theorem emptyRows_length (nan : V → Bool) (x y : Mat V) (h : y.rows.length = x.rows.length) :
    (emptyRows nan x y).length = x.rows.length := by
  simp [emptyRows, h]

theorem all_nan_iff (nan : V → Bool) (x : Mat V) (i : Nat) (row : List V)
    (hr : x.rows[i]? = some row) : row.all nan = false ↔ HasValue nan x i := by
  rw [List.all_eq_false]
  unfold HasValue
  constructor
  · rintro ⟨v, hv, h⟩
    exact ⟨row, v, hr, hv, by simpa using h⟩
  · rintro ⟨row', v, hr', hv, h⟩
    rw [hr] at hr'
    cases hr'
    exact ⟨v, hv, by simp [h]⟩

theorem falses_lists (idx : List Bool) (P : Nat → Prop)
    (h : ∀ i b, idx[i]? = some b → (b = false ↔ P i)) : Lists (falses idx) idx.length P := by
  apply lists_filter
  intro i hi
  have := h i idx[i] (List.getElem?_eq_getElem hi)
  rw [List.getElem?_eq_getElem hi, ← this]
  simp

theorem emptyRows_lists (nan : V → Bool) (x y : Mat V) (h : y.rows.length = x.rows.length) :
    Lists (falses (emptyRows nan x y)) x.rows.length
      (fun i => HasValue nan x i ∧ HasValue nan y i) := by
  rw [← emptyRows_length nan x y h]
  apply falses_lists
  intro i b hb
  unfold emptyRows at hb
  rw [List.getElem?_zipWith] at hb
  cases hx : x.rows[i]? with
  | none => simp [hx] at hb
  | some rx =>
    cases hy : y.rows[i]? with
    | none => simp [hx, hy] at hb
    | some ry =>
      simp only [hx, hy, Option.some.injEq] at hb
      rw [← hb, ← all_nan_iff nan x i rx hx, ← all_nan_iff nan y i ry hy]
      simp

/-- Counting the missing entries of a column. -/
theorem missing_count (nan : V → Bool) (x : Mat V) (hr : x.Rect) (j : Nat) (hj : j < x.ncols)
    (is : List Nat) (h : Lists is x.rows.length (fun i => Missing nan x i j)) :
    missing nan x j = is.length := by
  -- the filtered range is the only increasing list with these members
  have h2 : missing nan x j = ((List.range x.rows.length).filter fun i =>
      match x.rows[i]? with
      | some row => match row[j]? with
        | some v => nan v
        | none => false
      | none => false).length := by
    unfold missing
    have key : ∀ rows : List (List V), (∀ row ∈ rows, row.length = x.ncols) →
        (rows.filterMap fun row => row[j]?).countP nan =
        ((List.range rows.length).filter fun i =>
          match rows[i]? with
          | some row => match row[j]? with
            | some v => nan v
            | none => false
          | none => false).length := by
      intro rows
      induction rows with
      | nil => intro _; rfl
      | cons row rows ih =>
        intro hrect
        have hl : row.length = x.ncols := hrect row List.mem_cons_self
        have hrow : row[j]? = some (row[j]'(by omega)) := List.getElem?_eq_getElem _
        rw [List.filterMap_cons, hrow, List.length_cons, List.range_succ_eq_map, List.filter_cons,
          List.filter_map, List.countP_cons]
        simp only [List.getElem?_cons_zero, hrow]
        rw [ih (fun r hr => hrect r (List.mem_cons_of_mem _ hr))]
        cases nan (row[j]'(by omega))
        · simp only [Bool.false_eq_true, if_false, List.length_map, Nat.add_zero]
          rfl
        · simp only [if_true, List.length_cons, List.length_map]
          rfl
    exact key x.rows hr
  rw [h2]
  have h3 := lists_filter x.rows.length (fun i => Missing nan x i j) (fun i =>
      match x.rows[i]? with
      | some row => match row[j]? with
        | some v => nan v
        | none => false
      | none => false) (by
    intro i hi
    have hrow : x.rows[i]? = some x.rows[i] := List.getElem?_eq_getElem hi
    have hl : (x.rows[i]).length = x.ncols := hr _ (List.getElem_mem hi)
    have hv : (x.rows[i])[j]? = some ((x.rows[i])[j]'(by omega)) := List.getElem?_eq_getElem _
    simp only [Missing, hrow, hv, Option.some.injEq]
    constructor
    · intro h
      exact ⟨_, _, rfl, hv, h⟩
    · rintro ⟨_, v, rfl, h1, h2⟩
      rw [hv] at h1
      cases h1
      exact h2)
  apply List.Perm.length_eq
  apply (List.perm_ext_iff_of_nodup _ _).2
  · intro a
    rw [h3.exact, h.exact]
  · exact h3.increasing.imp (fun h => Nat.ne_of_lt h)
  · exact h.increasing.imp (fun h => Nat.ne_of_lt h)

theorem Lists.unique {is js : List Nat} {n : Nat} {P : Nat → Prop} (h : Lists is n P)
    (h' : Lists js n P) : is = js := by
  apply List.Perm.eq_of_pairwise (le := (· < ·))
  · intro a b _ _ h1 h2
    omega
  · exact h.increasing
  · exact h'.increasing
  · apply (List.perm_ext_iff_of_nodup _ _).2
    · intro a
      rw [h.exact, h'.exact]
    · exact h.increasing.imp (fun h => Nat.ne_of_lt h)
    · exact h'.increasing.imp (fun h => Nat.ne_of_lt h)

theorem falses_lt {idx : List Bool} {i : Nat} (h : i ∈ falses idx) : i < idx.length := by
  unfold falses at h
  rw [List.mem_filter, List.mem_range] at h
  exact h.1

theorem pick_length {α : Type} (l : List α) (is : List Nat) (h : ∀ i ∈ is, i < l.length) :
    (pick l is).length = is.length := by
  induction is with
  | nil => rfl
  | cons i is ih =>
    have hi := h i List.mem_cons_self
    unfold pick at ih ⊢
    rw [List.filterMap_cons, List.getElem?_eq_getElem hi]
    simp only [List.length_cons]
    rw [ih (fun j hj => h j (List.mem_cons_of_mem _ hj))]

theorem mem_pick {α : Type} {l : List α} {is : List Nat} {a : α} (h : a ∈ pick l is) : a ∈ l := by
  unfold pick at h
  rw [List.mem_filterMap] at h
  obtain ⟨i, -, h⟩ := h
  exact List.mem_of_getElem? h

theorem pick_getElem? {α : Type} (l : List α) : ∀ (is : List Nat), (∀ i ∈ is, i < l.length) →
    ∀ k : Nat, (pick l is)[k]? = (is[k]?).bind fun i => l[i]? := by
  intro is
  induction is with
  | nil => intro _ k; simp [pick]
  | cons i is ih =>
    intro h k
    have hi := h i List.mem_cons_self
    have ih := ih (fun j hj => h j (List.mem_cons_of_mem _ hj))
    unfold pick at ih ⊢
    rw [List.filterMap_cons, List.getElem?_eq_getElem hi]
    cases k with
    | zero => simp [List.getElem?_eq_getElem hi]
    | succ k => simpa using ih k

/-- The rows that `removeRows` keeps. -/
def keptOf (nan : V → Bool) (d : Data V L I S) : List Nat := falses (emptyRows nan d.x d.y)

theorem removeRows_eq (nan : V → Bool) (d : Data V L I S) (hd : d.Fits) :
    removeRows nan d =
      { d with
        x := ⟨d.x.ncols, pick d.x.rows (keptOf nan d)⟩
        y := ⟨d.y.ncols, pick d.y.rows (keptOf nan d)⟩
        inst := pick d.inst (keptOf nan d)
        s := d.s.map fun s => pick s (keptOf nan d) } := by
  have hl := emptyRows_length nan d.x d.y hd.y
  have e : removeRows nan d =
      { d with
        x := ⟨d.x.ncols, if (emptyRows nan d.x d.y).any id then
          mask d.x.rows (emptyRows nan d.x d.y) else d.x.rows⟩
        y := ⟨d.y.ncols, if (emptyRows nan d.x d.y).any id then
          mask d.y.rows (emptyRows nan d.x d.y) else d.y.rows⟩
        inst := if (emptyRows nan d.x d.y).any id then
          mask d.inst (emptyRows nan d.x d.y) else d.inst
        s := d.s.map fun s => if (emptyRows nan d.x d.y).any id then
          mask s (emptyRows nan d.x d.y) else s } := by
    unfold removeRows
    cases h : (emptyRows nan d.x d.y).any id with
    | true => simp [h]
    | false => simp [h]
  rw [e, cond_mask _ _ hl.symm, cond_mask _ _ (by rw [hl, hd.y]), cond_mask _ _ (by rw [hl, hd.inst])]
  unfold keptOf
  congr 1
  cases hs : d.s with
  | none => rfl
  | some s => simp only [Option.map_some]; rw [cond_mask _ _ (by rw [hl, hd.s s hs])]

theorem sparseCols_length (nan : V → Bool) (x : Mat V) :
    (sparseCols nan x).length = x.ncols := by
  simp [sparseCols]

theorem removeCols_eq (nan : V → Bool) (d : Data V L I S) (hr : d.x.Rect)
    (hf : d.feat.length = d.x.ncols) :
    removeCols nan d =
      { d with
        x := ⟨(falses (sparseCols nan d.x)).length,
          d.x.rows.map fun row => pick row (falses (sparseCols nan d.x))⟩
        feat := pick d.feat (falses (sparseCols nan d.x)) } := by
  have hl := sparseCols_length nan d.x
  unfold removeCols
  cases h : (sparseCols nan d.x).any id with
  | true =>
    simp only [h, ↓reduceIte]
    have h1 : d.x.rows.map (fun row => mask row (sparseCols nan d.x)) =
        d.x.rows.map fun row => pick row (falses (sparseCols nan d.x)) := by
      apply List.map_congr_left
      intro row hrow
      exact mask_falses _ _ (by rw [hl, hr row hrow])
    rw [h1, mask_falses d.feat _ (by rw [hl, hf]), mask_falses (List.range d.x.ncols) _ (by simp [hl]),
      pick_length]
    intro i hi
    have := falses_lt hi
    simpa [hl] using this
  | false =>
    simp only [h, Bool.false_eq_true, ↓reduceIte]
    have hall := falses_all h
    rw [hl] at hall
    rw [hall]
    have h1 : (d.x.rows.map fun row => pick row (List.range d.x.ncols)) = d.x.rows := by
      have : ∀ row ∈ d.x.rows, pick row (List.range d.x.ncols) = row := fun row hrow =>
        pick_all row _ (by rw [hr row hrow])
      rw [List.map_congr_left this]
      simp
    rw [h1, pick_all d.feat _ (by rw [hf])]
    simp only [List.length_range]

/-- Columns kept by `removeCols` when there is an instance. -/
theorem sparseCols_lists (nan : V → Bool) (x : Mat V) (hr : x.Rect) (hne : x.rows ≠ [])
    (ms : Nat → List Nat)
    (hms : ∀ j, j < x.ncols → Lists (ms j) x.rows.length (fun i => Missing nan x i j)) :
    Lists (falses (sparseCols nan x)) x.ncols (fun j => 5 * (ms j).length < x.rows.length) := by
  rw [← sparseCols_length nan x]
  apply falses_lists
  intro j b hb
  have hj : j < x.ncols := by
    have := (List.getElem?_eq_some_iff.1 hb).1
    rwa [sparseCols_length] at this
  unfold sparseCols at hb
  rw [List.getElem?_map, List.getElem?_range hj] at hb
  simp only [Option.map_some, Option.some.injEq] at hb
  rw [← hb, missing_count nan x hr j hj (ms j) (hms j hj)]
  cases hx : x.rows with
  | nil => exact absurd hx hne
  | cons r rs => simp

end Verif.Preprocessing
