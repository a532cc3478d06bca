import Verif.Preprocessing.Lemmas
import Mathlib.Data.List.Perm.Subperm
/-!
# C27–C30: preprocessing
-/
set_option autoImplicit false
set_option linter.unusedSectionVars false

namespace Verif.Preprocessing

variable {V L I S : Type}

/-! ### C27 -/

/-- The full claim: when some wanted label exists, the labels and the columns returned are those
of the wanted labels, in their original order, each label with its own column. -/
def SelectsOwnColumns (V L : Type) [DecidableEq L] : Prop :=
  ∀ (x : Mat V) (labels w : List L), x.Rect → labels.length = x.ncols →
    (∃ l ∈ labels, l ∈ w) →
    ∃ x' labels', select x labels (some w) = .ok (x', labels') ∧
      labels' = labels.filter (fun l => l ∈ w) ∧
      x'.ncols = labels'.length ∧
      x'.rows = x.rows.map fun row =>
        ((labels.zip row).filter fun p => p.1 ∈ w).map Prod.snd

/-- **C27** is false when two columns have the same label: both labels then get the first of the
two columns. -/
theorem C27_refuted : ¬ SelectsOwnColumns Nat String := by
  intro h
  obtain ⟨x', l', h1, h2, -, h4⟩ := h ⟨2, [[1, 2]]⟩ ["a", "a"] ["a"]
    (by intro row hr; simp at hr; subst hr; rfl) rfl ⟨"a", by simp, by simp⟩
  have : select (V := Nat) ⟨2, [[1, 2]]⟩ ["a", "a"] (some ["a"]) =
      .ok (⟨2, [[1, 1]]⟩, ["a", "a"]) := rfl
  rw [this] at h1
  cases h1
  simp at h4

/-- **C27** with distinct labels.  Missing for the full property: repeated labels. -/
theorem C27_partial [DecidableEq L] (x : Mat V) (labels w : List L) (hr : x.Rect)
    (hl : labels.length = x.ncols) (hnd : labels.Nodup) (hex : ∃ l ∈ labels, l ∈ w) :
    ∃ x' labels', select x labels (some w) = .ok (x', labels') ∧
      labels' = labels.filter (fun l => l ∈ w) ∧
      x'.ncols = labels'.length ∧
      x'.rows = x.rows.map fun row =>
        ((labels.zip row).filter fun p => p.1 ∈ w).map Prod.snd := by
  obtain ⟨l, hl1, hl2⟩ := hex
  have hmem : l ∈ labels.filter fun l => l ∈ w := by simp [hl1, hl2]
  have hne : (labels.filter fun l => l ∈ w).isEmpty = false := by
    cases h : labels.filter fun l => l ∈ w with
    | nil => rw [h] at hmem; simp at hmem
    | cons => rfl
  have hall : ((labels.filter fun l => l ∈ w).map fun l => labels.idxOf l).all
      (fun i => i < x.ncols) = true := by
    rw [List.all_eq_true]
    intro i hi
    obtain ⟨l', hl', rfl⟩ := List.mem_map.1 hi
    rw [← hl]
    simpa using List.idxOf_lt_length_of_mem (List.mem_filter.1 hl').1
  refine ⟨_, _, by simp only [select, hne, Bool.false_eq_true, if_false, hall, if_true]; rfl, rfl,
    by simp, ?_⟩
  · apply List.map_congr_left
    intro row hrow
    exact select_cols w labels row hnd (by rw [hr row hrow, hl])

/-- **C27**: with no list, or when nothing in the list exists, everything is kept (also with
repeated labels). -/
theorem C27_keep_all_partial [DecidableEq L] (x : Mat V) (labels : List L)
    (wanted : Option (List L)) (h : ∀ w, wanted = some w → ∀ l ∈ labels, l ∉ w) :
    select x labels wanted = .ok (x, labels) := by
  cases wanted with
  | none => rfl
  | some w =>
    have : labels.filter (fun l => l ∈ w) = [] := by
      rw [List.filter_eq_nil_iff]
      intro l hl
      simpa using h w rfl l hl
    simp [select, this]

/-- **C27** with repeated labels: the labels are still right and no exception is raised.  Missing:
the columns. -/
theorem C27_labels_partial [DecidableEq L] (x : Mat V) (labels : List L)
    (wanted : Option (List L)) (hl : labels.length = x.ncols) :
    ∃ x' labels', select x labels wanted = .ok (x', labels') ∧
      x'.rows.length = x.rows.length ∧ labels'.length = x'.ncols ∧
      (∀ w, wanted = some w → (∃ l ∈ labels, l ∈ w) →
        labels' = labels.filter fun l => l ∈ w) := by
  cases wanted with
  | none => exact ⟨x, labels, rfl, rfl, hl, by intro w hw; cases hw⟩
  | some w =>
    cases he : (labels.filter fun l => l ∈ w).isEmpty with
    | true =>
      refine ⟨x, labels, by simp [select, he], rfl, hl, ?_⟩
      intro w' hw' ⟨l, hl1, hl2⟩
      cases hw'
      rw [List.isEmpty_iff, List.filter_eq_nil_iff] at he
      exact absurd (he l hl1) (by simp [hl2])
    | false =>
      have hall : ((labels.filter fun l => l ∈ w).map fun l => labels.idxOf l).all
          (fun i => i < x.ncols) = true := by
        rw [List.all_eq_true]
        intro i hi
        obtain ⟨l', hl', rfl⟩ := List.mem_map.1 hi
        rw [← hl]
        simpa using List.idxOf_lt_length_of_mem (List.mem_filter.1 hl').1
      refine ⟨_, _, by simp only [select, he, Bool.false_eq_true, if_false, hall, if_true]; rfl,
        by simp, by simp, ?_⟩
      intro w' hw' _
      cases hw'
      rfl

example : select (V := Nat) ⟨3, [[1, 2, 3], [4, 5, 6]]⟩ ["a", "b", "c"] (some ["c", "x", "a"]) =
    .ok (⟨2, [[1, 3], [4, 6]]⟩, ["a", "c"]) := rfl

example : select (V := Nat) ⟨2, [[1, 2]]⟩ ["a", "b"] (some ["x"]) =
    .ok (⟨2, [[1, 2]]⟩, ["a", "b"]) := rfl

/-! ### C28 and C29 -/

/-- **C28** The call succeeds exactly when some instance has a feature value and a performance
value.  The instances kept are exactly those, in order, and the same positions are kept in `y`,
`inst_labels` and `s`; the rows of `x` are the rows at these positions, restricted to some
columns (C29 says which). -/
theorem C28_rows_aligned (nan : V → Bool) (d : Data V L I S) (hd : d.Fits) :
    ∃ kept, Lists kept d.x.rows.length (fun i => HasValue nan d.x i ∧ HasValue nan d.y i) ∧
      (kept = [] → removeMissing nan d = .error .zeroDivision) ∧
      (kept ≠ [] → ∃ out cols, removeMissing nan d = .ok out ∧
        out.x.rows = (pick d.x.rows kept).map (fun row => pick row cols) ∧
        out.y.rows = pick d.y.rows kept ∧ out.y.ncols = d.y.ncols ∧
        out.inst = pick d.inst kept ∧
        (d.s = none → out.s = none) ∧
        (∀ s, d.s = some s → out.s = some (pick s kept))) := by
  have hk := emptyRows_lists nan d.x d.y hd.y
  refine ⟨keptOf nan d, hk, ?_, ?_⟩
  · intro h0
    unfold removeMissing
    rw [removeRows_eq nan d hd, h0, removeCols_eq]
    · simp [pick]
    · intro row hrow
      exact hd.rectX row (mem_pick hrow)
    · exact hd.feat
  · intro hne
    have hlen : (pick d.x.rows (keptOf nan d)).length = (keptOf nan d).length :=
      pick_length _ _ fun i hi => ((hk.exact i).1 hi).1
    refine ⟨removeCols nan (removeRows nan d), ?_⟩
    rw [removeRows_eq nan d hd, removeCols_eq]
    · refine ⟨_, ?_, rfl, rfl, rfl, rfl, ?_, ?_⟩
      · unfold removeMissing
        rw [removeRows_eq nan d hd, removeCols_eq]
        · rw [if_neg]
          simp only [List.length_map, hlen]
          intro h
          exact hne (List.eq_nil_of_length_eq_zero h)
        · intro row hrow
          exact hd.rectX row (mem_pick hrow)
        · exact hd.feat
      · intro h
        simp [h]
      · intro s h
        simp [h]
    · intro row hrow
      exact hd.rectX row (mem_pick hrow)
    · exact hd.feat

/-- **C29** With `kept` the instances of C28 and `ms j` the remaining instances that miss
feature `j`, a column is kept exactly when fewer than one fifth of the remaining instances miss
it; columns and labels are restricted to the same positions. -/
theorem C29_columns (nan : V → Bool) (d : Data V L I S) (hd : d.Fits) (out : Data V L I S)
    (h : removeMissing nan d = .ok out) (kept : List Nat)
    (hk : Lists kept d.x.rows.length (fun i => HasValue nan d.x i ∧ HasValue nan d.y i))
    (ms : Nat → List Nat)
    (hms : ∀ j, j < d.x.ncols → Lists (ms j) kept.length
      (fun i => Missing nan ⟨d.x.ncols, pick d.x.rows kept⟩ i j)) :
    ∃ cols, Lists cols d.x.ncols (fun j => 5 * (ms j).length < kept.length) ∧
      out.x.rows = (pick d.x.rows kept).map (fun row => pick row cols) ∧
      out.x.ncols = cols.length ∧
      out.feat = pick d.feat cols := by
  obtain rfl : kept = keptOf nan d := hk.unique (emptyRows_lists nan d.x d.y hd.y)
  have hlen : (pick d.x.rows (keptOf nan d)).length = (keptOf nan d).length :=
    pick_length _ _ fun i hi => ((hk.exact i).1 hi).1
  unfold removeMissing at h
  rw [removeRows_eq nan d hd, removeCols_eq] at h
  · by_cases h0 : (pick d.x.rows (keptOf nan d)) = []
    · simp [h0] at h
    · rw [if_neg (by simpa using h0)] at h
      cases h
      refine ⟨_, ?_, rfl, rfl, rfl⟩
      rw [← hlen]
      apply sparseCols_lists (x := ⟨d.x.ncols, pick d.x.rows (keptOf nan d)⟩)
      · intro row hrow
        exact hd.rectX row (mem_pick hrow)
      · exact h0
      · intro j hj
        have := hms j hj
        rwa [← hlen] at this
  · intro row hrow
    exact hd.rectX row (mem_pick hrow)
  · exact hd.feat

-- Five instances, two features.  Instance 2 has no features, instance 4 no performances; of the
-- remaining three, one misses the second feature, which is dropped.
example : removeMissing Option.isNone
    { x := ⟨2, [[some 1, some 2], [some 3, none], [none, none], [some 4, some 5], [some 6, some 7]]⟩
      y := ⟨1, [[some 1], [some 1], [some 1], [some 1], [none]]⟩
      s := some [10, 11, 12, 13, 14], feat := ["f", "g"], inst := ["a", "b", "c", "d", "e"] } =
    .ok { x := ⟨1, [[some 1], [some 3], [some 4]]⟩, y := ⟨1, [[some 1], [some 1], [some 1]]⟩
          s := some [10, 11, 13], feat := ["f"], inst := ["a", "b", "d"] } := rfl

-- The hypotheses of C29: the lists of missing values always exist.
example (nan : V → Bool) (x : Mat V) (hr : x.Rect) (j : Nat) (hj : j < x.ncols) :
    ∃ ms, Lists ms x.rows.length (fun i => Missing nan x i j) := by
  classical
  exact ⟨_, lists_filter x.rows.length _ (fun i => decide (Missing nan x i j)) (by simp)⟩

/-! ### C30 -/

/-- The full claim about the output of the stage. -/
def NoEmptyInstance (V L I S : Type) [DecidableEq L] (nan : V → Bool) : Prop :=
  ∀ (d : Data V L I S) (algo : List L) (feats algos : Option (List L)) (out : Output V L I S),
    d.Fits → algo.length = d.y.ncols → run nan d algo feats algos = .ok out →
    ∀ i, i < out.data.x.rows.length → HasValue nan out.data.x i ∧ HasValue nan out.data.y i

/-- **C30** is false: dropping a feature can leave an instance without any feature value.  Here
only the first instance has a value for the first feature, and it has no other. -/
theorem C30_refuted : ¬ NoEmptyInstance (Option Nat) String Nat Nat Option.isNone := by
  intro h
  let v : Option Nat := some 1
  have := h
    { x := ⟨2, [[v, none], [none, v], [none, v], [none, v], [none, v], [none, v]]⟩
      y := ⟨1, [[v], [v], [v], [v], [v], [v]]⟩, s := none, feat := ["f", "g"]
      inst := [1, 2, 3, 4, 5, 6] } ["a"] none none
    ⟨{ x := ⟨1, [[none], [v], [v], [v], [v], [v]]⟩, y := ⟨1, [[v], [v], [v], [v], [v], [v]]⟩
       s := none, feat := ["g"], inst := [1, 2, 3, 4, 5, 6] }, ["a"]⟩
    (by
      constructor
      · intro row hr; revert hr; simp only [List.mem_cons, List.not_mem_nil, or_false]
        rintro (h | h | h | h | h | h) <;> subst h <;> rfl
      · intro row hr; revert hr; simp only [List.mem_cons, List.not_mem_nil, or_false]
        rintro (h | h | h | h | h | h) <;> subst h <;> rfl
      · rfl
      · rfl
      · rfl
      · intro s hs; cases hs) rfl rfl 0 (by decide)
  obtain ⟨⟨row, w, h1, h2, h3⟩, -⟩ := this
  cases h1
  simp at h2
  subst h2
  simp at h3

theorem select_fits [DecidableEq L] {x : Mat V} {labels : List L} {wanted : Option (List L)}
    {x' : Mat V} {labels' : List L} (hr : x.Rect) (hl : labels.length = x.ncols)
    (h : select x labels wanted = .ok (x', labels')) :
    x'.Rect ∧ labels'.length = x'.ncols ∧ x'.rows.length = x.rows.length := by
  cases wanted with
  | none => cases h; exact ⟨hr, hl, rfl⟩
  | some w =>
    simp only [select] at h
    split at h
    · cases h; exact ⟨hr, hl, rfl⟩
    · split at h
      · rename_i hall
        cases h
        refine ⟨?_, by simp, by simp⟩
        intro row' hrow'
        obtain ⟨row, hrow, rfl⟩ := List.mem_map.1 hrow'
        have := pick_length row ((labels.filter fun l => l ∈ w).map fun l => labels.idxOf l) (by
          intro i hi
          rw [hr row hrow]
          simpa using List.all_eq_true.1 hall i hi)
        exact this
      · cases h

/-- **C30**, the part that holds: every instance keeps a performance value, and it had a feature
value before columns were dropped, so if no feature is dropped it keeps one.  Missing: feature
values when a feature is dropped (see the refutation). -/
theorem C30_partial [DecidableEq L] (nan : V → Bool) (d : Data V L I S) (algo : List L)
    (feats algos : Option (List L)) (out : Output V L I S) (hd : d.Fits)
    (ha : algo.length = d.y.ncols) (h : run nan d algo feats algos = .ok out) :
    out.data.x.rows ≠ [] ∧ out.data.y.rows.length = out.data.x.rows.length ∧
    (∀ i, i < out.data.x.rows.length → HasValue nan out.data.y i) ∧
    ((∀ x' feat', select d.x d.feat feats = .ok (x', feat') → out.data.x.ncols = x'.ncols) →
      ∀ i, i < out.data.x.rows.length → HasValue nan out.data.x i) := by
  unfold run at h
  cases hx : select d.x d.feat feats with
  | error e => simp [hx] at h
  | ok r =>
    obtain ⟨x, feat⟩ := r
    cases hy : select d.y algo algos with
    | error e => simp [hx, hy] at h
    | ok r =>
      obtain ⟨y, algo'⟩ := r
      simp only [hx, hy] at h
      obtain ⟨hx1, hx2, hx3⟩ := select_fits hd.rectX hd.feat hx
      obtain ⟨hy1, hy2, hy3⟩ := select_fits hd.rectY ha hy
      have hd' : ({ d with x := x, y := y, feat := feat } : Data V L I S).Fits :=
        { rectX := hx1, rectY := hy1, feat := hx2, y := by rw [hy3, hx3, hd.y]
          inst := by rw [hd.inst, hx3], s := fun s hs => by rw [hd.s s hs, hx3] }
      cases hm : removeMissing nan { d with x := x, y := y, feat := feat } with
      | error e => simp [hm] at h
      | ok o =>
        simp only [hm] at h
        cases h
        obtain ⟨kept, hk, hk0, hk1⟩ := C28_rows_aligned nan _ hd'
        have hne : kept ≠ [] := by
          intro h0
          rw [hk0 h0] at hm
          cases hm
        obtain ⟨o', cols, ho, ox, oy, -⟩ := hk1 hne
        rw [hm] at ho
        cases ho
        simp only at hk ox oy ⊢
        have hlt : ∀ i ∈ kept, i < x.rows.length := fun i hi => ((hk.exact i).1 hi).1
        have hyl : y.rows.length = x.rows.length := hd'.y
        have hlx : o.x.rows.length = kept.length := by
          rw [ox, List.length_map, pick_length _ _ hlt]
        have hly : o.y.rows.length = kept.length := by
          rw [oy, pick_length _ _ (by rw [hyl]; exact hlt)]
        refine ⟨?_, by rw [hlx, hly], ?_, ?_⟩
        · intro h0
          rw [h0] at hlx
          exact hne (List.eq_nil_of_length_eq_zero hlx.symm)
        · intro i hi
          rw [hlx] at hi
          obtain ⟨row, v, h1, h2, h3⟩ := ((hk.exact _).1 (List.getElem_mem hi)).2.2
          refine ⟨row, v, ?_, h2, h3⟩
          rw [oy, pick_getElem? _ _ (by rw [hyl]; exact hlt), List.getElem?_eq_getElem hi]
          exact h1
        · intro hcols i hi
          have hall : ∃ cols', cols' = List.range x.ncols ∧
              o.x.rows = (pick x.rows kept).map (fun row => pick row cols') := by
            classical
            obtain ⟨cols', hc, oc, on, -⟩ := C29_columns nan _ hd' o hm kept hk
              (fun j => (List.range kept.length).filter fun i =>
                decide (Missing nan ⟨x.ncols, pick x.rows kept⟩ i j))
              (fun j hj => lists_filter _ _ _ (by simp))
            refine ⟨cols', ?_, oc⟩
            have hn : cols'.length = x.ncols := by rw [← on]; exact hcols x feat rfl
            have hsub : cols'.Subset (List.range x.ncols) := by
              intro j hj
              exact List.mem_range.2 ((hc.exact j).1 hj).1
            have hnd : cols'.Nodup := hc.increasing.imp (fun h => Nat.ne_of_lt h)
            have hperm : cols'.Perm (List.range x.ncols) :=
              (List.subperm_of_subset hnd hsub).perm_of_length_le (by simp [hn])
            apply List.Perm.eq_of_pairwise (le := (· < ·)) _ hc.increasing List.pairwise_lt_range
              hperm
            intro a b _ _ h1 h2
            omega
          obtain ⟨cols', rfl, oc⟩ := hall
          rw [hlx] at hi
          obtain ⟨row, v, h1, h2, h3⟩ := ((hk.exact _).1 (List.getElem_mem hi)).2.1
          refine ⟨row, v, ?_, h2, h3⟩
          rw [oc, List.getElem?_map, pick_getElem? _ _ hlt, List.getElem?_eq_getElem hi]
          simp only [Option.bind_some]
          rw [h1]
          simp only [Option.map_some, Option.some.injEq]
          exact pick_all row _ (by rw [hx1 row (List.mem_of_getElem? h1)])

example : (match run Option.isNone
    { x := ⟨2, [[some 1, some 2], [none, none], [none, some 4]]⟩
      y := ⟨1, [[some 1], [some 1], [some 1]]⟩
      s := none (α := List Nat), feat := ["f", "g"], inst := ["a", "b", "c"] } ["p"]
      (some ["g"]) none with
    | .ok o => o.data.x.rows
    | .error _ => []) = [[some 2], [some 4]] := rfl

end Verif.Preprocessing
