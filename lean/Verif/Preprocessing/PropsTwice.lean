import Verif.Preprocessing.PropsRun
/-!
# Preprocessing applied to its own output (C153)
-/
set_option autoImplicit false
set_option linter.unusedSectionVars false

namespace Verif.Preprocessing

variable {V L I S : Type}

theorem Lists.all {is : List Nat} {n : Nat} {P : Nat → Prop} (h : Lists is n P)
    (hP : ∀ i, i < n → P i) : is = List.range n := by
  apply h.unique
  refine ⟨List.pairwise_lt_range, fun i => ?_⟩
  simp only [List.mem_range]
  exact ⟨fun hi => ⟨hi, hP i hi⟩, fun hi => hi.1⟩

theorem pick_nodup {α : Type} {l : List α} {is : List Nat} (h : l.Nodup) (hi : is.Nodup) :
    (pick l is).Nodup := by
  unfold pick
  refine List.Pairwise.filterMap _ ?_ hi
  intro i j hij a ha b hb hab
  subst hab
  obtain ⟨h1, h1'⟩ := List.getElem?_eq_some_iff.1 ha
  obtain ⟨h2, h2'⟩ := List.getElem?_eq_some_iff.1 hb
  rw [List.nodup_iff_pairwise_ne, List.pairwise_iff_getElem] at h
  rcases Nat.lt_or_gt_of_ne hij with hlt | hlt
  · exact h i j h1 h2 hlt (h1'.trans h2'.symm)
  · exact h j i h2 h1 hlt (h2'.trans h1'.symm)

/-- Everything chosen is chosen again from what was chosen. -/
theorem chosen_again {labels : List L} {wanted : Option (List L)} {cols : List Nat}
    (hc : ∀ j ∈ cols, j < labels.length ∧ Chosen labels wanted j) (k : Nat) (hk : k < cols.length) :
    Chosen (pick labels cols) wanted k := by
  rintro w hw ⟨l, hl, hlw⟩
  obtain ⟨h1, h2⟩ := hc cols[k] (List.getElem_mem hk)
  obtain ⟨l', hl', he⟩ := h2 w hw ⟨l, mem_pick hl, hlw⟩
  refine ⟨l', hl', ?_⟩
  rw [pick_getElem? labels cols (fun j hj => (hc j hj).1), List.getElem?_eq_getElem hk]
  exact he

theorem select_self [DecidableEq L] {x : Mat V} {labels : List L} {wanted : Option (List L)}
    (hr : x.Rect) (hl : labels.length = x.ncols) (hnd : labels.Nodup)
    (hc : ∀ k, k < x.ncols → Chosen labels wanted k) :
    select x labels wanted = .ok (x, labels) := by
  obtain ⟨x', labels', cols, h1, h2, h3, h4, h5⟩ := select_pick x labels wanted hr hl hnd
  have e := h2.all hc
  subst e
  have ex : x' = x := by
    cases x
    cases x'
    simp only [List.length_range] at h3 h4
    subst h3
    congr 1
    rw [h4]
    rename_i rows₀ _ _
    conv_rhs => rw [← List.map_id rows₀]
    apply List.map_congr_left
    intro row hrow
    rw [pick_all row _ (by rw [hr row hrow])]
    rfl
  rw [h1, ex, h5, pick_all labels _ (by rw [hl])]

theorem any_false {idx : List Bool} (h : falses idx = List.range idx.length) :
    idx.any id = false := by
  rw [List.any_eq_false]
  intro b hb
  obtain ⟨i, hi, rfl⟩ := List.getElem_of_mem hb
  have : i ∈ falses idx := by rw [h]; simpa using hi
  unfold falses at this
  have := (List.mem_filter.1 this).2
  rw [List.getElem?_eq_getElem hi] at this
  simpa using this

theorem removeMissing_self {nan : V → Bool} {d : Data V L I S} (hd : d.Fits)
    (hne : d.x.rows ≠ [])
    (hx : ∀ i, i < d.x.rows.length → HasValue nan d.x i)
    (hy : ∀ i, i < d.x.rows.length → HasValue nan d.y i)
    (hc : ∀ j, j < d.x.ncols → 5 * missing nan d.x j < d.x.rows.length) :
    removeMissing nan d = .ok d := by
  have e1 : removeRows nan d = d := by
    have : (emptyRows nan d.x d.y).any id = false := by
      apply any_false
      rw [emptyRows_length nan d.x d.y hd.y]
      exact (emptyRows_lists nan d.x d.y hd.y).all fun i hi => ⟨hx i hi, hy i hi⟩
    unfold removeRows
    simp [this]
  have e2 : removeCols nan d = d := by
    have : (sparseCols nan d.x).any id = false := by
      rw [List.any_eq_false]
      intro b hb
      obtain ⟨j, hj, rfl⟩ := List.mem_map.1 hb
      have := hc j (by simpa using hj)
      simp
      intro _
      omega
    unfold removeCols
    simp [this]
  unfold removeMissing
  rw [e1, e2]
  simp [hne]

/-- The full claim: giving the output back with the same options changes nothing. -/
def Idempotent (V L I S : Type) [DecidableEq L] (nan : V → Bool) : Prop :=
  ∀ (d : Data V L I S) (algo : List L) (feats algos : Option (List L)) (out : Output V L I S),
    d.Fits → algo.length = d.y.ncols → d.feat.Nodup → algo.Nodup →
    run nan d algo feats algos = .ok out →
    run nan out.data out.algo feats algos = .ok out

/-- **C153** is false: dropping a feature can leave an instance without any feature value; the
second time that instance is removed. -/
theorem C153_refuted : ¬ Idempotent (Option Nat) String Nat Nat Option.isNone := by
  intro h
  let v : Option Nat := some 1
  have := h
    { x := ⟨2, [[v, none], [none, v], [none, v], [none, v], [none, v], [none, v]]⟩
      y := ⟨1, [[v], [v], [v], [v], [v], [v]]⟩, s := none, feat := ["f", "g"]
      inst := [1, 2, 3, 4, 5, 6] } ["a"] none none
    ⟨{ x := ⟨1, [[none], [v], [v], [v], [v], [v]]⟩, y := ⟨1, [[v], [v], [v], [v], [v], [v]]⟩
       s := none, feat := ["g"], inst := [1, 2, 3, 4, 5, 6] }, ["a"]⟩
    (by
      constructor
      · intro row hr; revert hr; simp only [List.mem_cons, List.not_mem_nil, or_false]
        rintro (h | h | h | h | h | h) <;> subst h <;> rfl
      · intro row hr; revert hr; simp only [List.mem_cons, List.not_mem_nil, or_false]
        rintro (h | h | h | h | h | h) <;> subst h <;> rfl
      · rfl
      · rfl
      · rfl
      · intro s hs; cases hs) rfl (by decide) (by decide) rfl
  have e : run Option.isNone
    { x := ⟨1, [[none], [v], [v], [v], [v], [v]]⟩, y := ⟨1, [[v], [v], [v], [v], [v], [v]]⟩
      s := (none : Option (List Nat)), feat := ["g"], inst := [1, 2, 3, 4, 5, 6] } ["a"] none none =
    .ok ⟨{ x := ⟨1, [[v], [v], [v], [v], [v]]⟩, y := ⟨1, [[v], [v], [v], [v], [v]]⟩
           s := none, feat := ["g"], inst := [2, 3, 4, 5, 6] }, ["a"]⟩ := rfl
  rw [e] at this
  injection this with this
  injection this with this _
  injection this with _ _ _ _ this
  simp at this

/-- What a run returns fits together, and on it only the removal of instances can still change
something. -/
theorem run_out [DecidableEq L] {nan : V → Bool} {d : Data V L I S} {algo : List L}
    {feats algos : Option (List L)} {out : Output V L I S} (hd : d.Fits)
    (ha : algo.length = d.y.ncols) (hf : d.feat.Nodup) (han : algo.Nodup)
    (h : run nan d algo feats algos = .ok out) :
    out.data.Fits ∧ out.algo.length = out.data.y.ncols ∧ out.data.feat.Nodup ∧ out.algo.Nodup ∧
      select out.data.x out.data.feat feats = .ok (out.data.x, out.data.feat) ∧
      select out.data.y out.algo algos = .ok (out.data.y, out.algo) ∧
      out.data.x.rows ≠ [] ∧
      (∀ i, i < out.data.x.rows.length → HasValue nan out.data.y i) ∧
      (∀ j, j < out.data.x.ncols → 5 * missing nan out.data.x j < out.data.x.rows.length) := by
  obtain ⟨hne, hyl, hyv, -⟩ := C30_partial nan d algo feats algos out hd ha h
  obtain ⟨rows, fcols, acols, hac, hfc, hrows, ox, oxn, ofe, oy, oyn, oal, oin, os⟩ :=
    C27_run_partial nan d algo feats algos out hd ha hf han h
  have hrl : ∀ i ∈ rows, i < d.x.rows.length := fun i hi => ((hrows.exact i).1 hi).1
  have hfl : ∀ j ∈ fcols, j < d.x.ncols := fun i hi => ((hfc.exact i).1 hi).1
  have hal : ∀ j ∈ acols, j < d.y.ncols := fun i hi => ((hac.exact i).1 hi).1
  have hxlen : out.data.x.rows.length = rows.length := by
    rw [ox, List.length_map, pick_length _ _ hrl]
  have hfits : out.data.Fits := by
    refine ⟨?_, ?_, ?_, hyl, ?_, ?_⟩
    · intro row hrow
      rw [ox] at hrow
      obtain ⟨r, hr, rfl⟩ := List.mem_map.1 hrow
      rw [pick_length _ _ (by rw [hd.rectX r (mem_pick hr)]; exact hfl), oxn]
    · intro row hrow
      rw [oy] at hrow
      obtain ⟨r, hr, rfl⟩ := List.mem_map.1 hrow
      rw [pick_length _ _ (by rw [hd.rectY r (mem_pick hr)]; exact hal), oyn]
    · rw [ofe, oxn, pick_length _ _ (by rw [hd.feat]; exact hfl)]
    · rw [oin, hxlen, pick_length _ _ (by rw [hd.inst]; exact hrl)]
    · intro s hs
      rw [os] at hs
      cases hds : d.s with
      | none => simp [hds] at hs
      | some s' =>
        rw [hds] at hs
        simp only [Option.map_some, Option.some.injEq] at hs
        rw [← hs, hxlen, pick_length _ _ (by rw [hd.s s' hds]; exact hrl)]
  have hnf : out.data.feat.Nodup := by
    rw [ofe]; exact pick_nodup hf (hfc.increasing.imp fun h => Nat.ne_of_lt h)
  have hna : out.algo.Nodup := by
    rw [oal]; exact pick_nodup han (hac.increasing.imp fun h => Nat.ne_of_lt h)
  have hao : out.algo.length = out.data.y.ncols := by
    rw [oal, oyn, pick_length _ _ (by rw [ha]; exact hal)]
  refine ⟨hfits, hao, hnf, hna, ?_, ?_, hne, hyv, ?_⟩
  · apply select_self hfits.rectX hfits.feat hnf
    intro k hk
    rw [ofe]
    apply chosen_again (fun j hj => ⟨by rw [hd.feat]; exact hfl j hj, ((hfc.exact j).1 hj).2.1⟩)
    rw [← oxn]
    exact hk
  · apply select_self hfits.rectY hao hna
    intro k hk
    rw [oal]
    apply chosen_again (fun j hj => ⟨by rw [ha]; exact hal j hj, ((hac.exact j).1 hj).2⟩)
    rw [← oyn]
    exact hk
  · intro j hj
    classical
    have hjl : j < fcols.length := by rw [← oxn]; exact hj
    have hl : Lists ((List.range out.data.x.rows.length).filter fun i =>
        decide (Missing nan out.data.x i j)) out.data.x.rows.length
        (fun i => Missing nan out.data.x i j) := lists_filter _ _ _ (by simp)
    rw [missing_count nan out.data.x hfits.rectX j hj _ hl, hxlen]
    apply ((hfc.exact _).1 (List.getElem_mem hjl)).2.2
    rw [hxlen] at hl
    refine ⟨hl.increasing, fun i => ?_⟩
    rw [hl.exact i]
    apply and_congr Iff.rfl
    unfold Missing
    rw [ox, List.getElem?_map]
    constructor
    · rintro ⟨row, v, h1, h2, h3⟩
      cases hr : (pick d.x.rows rows)[i]? with
      | none => simp [hr] at h1
      | some r =>
        rw [hr] at h1
        simp only [Option.map_some, Option.some.injEq] at h1
        subst h1
        refine ⟨r, v, rfl, ?_, h3⟩
        have hrl := hd.rectX r (mem_pick (List.mem_of_getElem? hr))
        rw [pick_getElem? r fcols (by rw [hrl]; exact hfl), List.getElem?_eq_getElem hjl] at h2
        exact h2
    · rintro ⟨r, v, h1, h2, h3⟩
      simp only at h1
      refine ⟨pick r fcols, v, by rw [h1]; rfl, ?_, h3⟩
      have hrl := hd.rectX r (mem_pick (List.mem_of_getElem? h1))
      rw [pick_getElem? r fcols (by rw [hrl]; exact hfl), List.getElem?_eq_getElem hjl]
      exact h2

theorem Lists.full {is : List Nat} {n : Nat} {P : Nat → Prop} (h : Lists is n P) :
    is.length ≤ n ∧ (is.length = n ↔ ∀ i, i < n → P i) := by
  classical
  have e : is = (List.range n).filter fun i => decide (P i) :=
    h.unique (lists_filter n P _ (by simp))
  have hle : is.length ≤ n := by
    rw [e]
    simpa using List.length_filter_le (fun i => decide (P i)) (List.range n)
  refine ⟨hle, fun hl i hi => ?_, fun hP => by rw [h.all hP, List.length_range]⟩
  have := List.length_filter_eq_length_iff (p := fun i => decide (P i)) (l := List.range n)
  rw [← e, hl, List.length_range] at this
  simpa using this.1 rfl i (by simpa using hi)

/-- A run on the output of a run: it fails, or it keeps exactly the instances with a feature
value. -/
theorem run_again [DecidableEq L] {nan : V → Bool} {d : Data V L I S} {algo : List L}
    {feats algos : Option (List L)} {out : Output V L I S} (hd : d.Fits)
    (ha : algo.length = d.y.ncols) (hf : d.feat.Nodup) (han : algo.Nodup)
    (h : run nan d algo feats algos = .ok out) :
    run nan out.data out.algo feats algos = .error .zeroDivision ∨
    ∃ out', run nan out.data out.algo feats algos = .ok out' ∧
      out'.data.x.rows.length ≤ out.data.x.rows.length ∧
      (out'.data.x.rows.length = out.data.x.rows.length ↔
        ∀ i, i < out.data.x.rows.length → HasValue nan out.data.x i) := by
  obtain ⟨h1, h2, h3, h4, h5, h6, h7, h8, h9⟩ := run_out hd ha hf han h
  have e : run nan out.data out.algo feats algos =
      match removeMissing nan out.data with
      | .error e => .error e
      | .ok d => .ok ⟨d, out.algo⟩ := by
    unfold run
    simp only [h5, h6]
    rfl
  obtain ⟨kept, hk, hk0, hk1⟩ := C28_rows_aligned nan _ h1
  by_cases hke : kept = []
  · left
    rw [e, hk0 hke]
  · right
    obtain ⟨o, cols, ho, ox, -⟩ := hk1 hke
    refine ⟨⟨o, out.algo⟩, by rw [e, ho], ?_⟩
    have hl : o.x.rows.length = kept.length := by
      rw [ox, List.length_map, pick_length _ _ fun i hi => ((hk.exact i).1 hi).1]
    simp only [hl]
    obtain ⟨a, b⟩ := hk.full
    exact ⟨a, b.trans ⟨fun hv i hi => (hv i hi).1, fun hv i hi => ⟨hv i hi, h8 i hi⟩⟩⟩

/-- **C153**, exactly: giving the output back with the same options changes nothing if and only if
every instance left still has a feature value.  Missing for the full property: the other
outputs. -/
theorem C153_partial [DecidableEq L] (nan : V → Bool) (d : Data V L I S) (algo : List L)
    (feats algos : Option (List L)) (out : Output V L I S) (hd : d.Fits)
    (ha : algo.length = d.y.ncols) (hf : d.feat.Nodup) (han : algo.Nodup)
    (h : run nan d algo feats algos = .ok out) :
    run nan out.data out.algo feats algos = .ok out ↔
      ∀ i, i < out.data.x.rows.length → HasValue nan out.data.x i := by
  constructor
  · intro h'
    rcases run_again hd ha hf han h with h2 | ⟨out', h2, -, h3⟩
    · rw [h2] at h'
      cases h'
    · rw [h2] at h'
      cases h'
      exact h3.1 rfl
  · intro hv
    obtain ⟨h1, h2, h3, h4, h5, h6, h7, h8, h9⟩ := run_out hd ha hf han h
    have := removeMissing_self h1 h7 hv h8 h9
    unfold run
    simp only [h5, h6]
    rw [show ({ out.data with x := out.data.x, y := out.data.y, feat := out.data.feat } :
      Data V L I S) = out.data from rfl, this]

/-- Giving the output back `k` times. -/
def again [DecidableEq L] (nan : V → Bool) (feats algos : Option (List L)) :
    Nat → Output V L I S → Except Err (Output V L I S)
  | 0, o => .ok o
  | k + 1, o =>
    match run nan o.data o.algo feats algos with
    | .error e => .error e
    | .ok o => again nan feats algos k o

/-- **C153**, what happens otherwise: giving the output back at most as often as there are instances,
either nothing is left (and the stage fails) or further repetition changes nothing and every instance
left has a feature value and a performance value.  Missing for the full property: once is not enough. -/
theorem C153_settles_partial [DecidableEq L] (nan : V → Bool) (d : Data V L I S) (algo : List L)
    (feats algos : Option (List L)) (out : Output V L I S) (hd : d.Fits)
    (ha : algo.length = d.y.ncols) (hf : d.feat.Nodup) (han : algo.Nodup)
    (h : run nan d algo feats algos = .ok out) :
    ∃ k, k ≤ out.data.x.rows.length ∧
      (again nan feats algos k out = .error .zeroDivision ∨
        ∃ o, again nan feats algos k out = .ok o ∧ run nan o.data o.algo feats algos = .ok o ∧
          ∀ i, i < o.data.x.rows.length → HasValue nan o.data.x i ∧ HasValue nan o.data.y i) := by
  generalize hn : out.data.x.rows.length = n
  induction n using Nat.strongRecOn generalizing d algo out with
  | _ n ih =>
    obtain ⟨h1, h2, h3, h4, h5, h6, h7, h8, h9⟩ := run_out hd ha hf han h
    by_cases hv : ∀ i, i < out.data.x.rows.length → HasValue nan out.data.x i
    · exact ⟨0, Nat.zero_le _, .inr ⟨out, rfl,
        (C153_partial nan d algo feats algos out hd ha hf han h).2 hv,
        fun i hi => ⟨hv i hi, h8 i hi⟩⟩⟩
    · have hpos : 0 < out.data.x.rows.length := List.length_pos_of_ne_nil h7
      rcases run_again hd ha hf han h with e | ⟨out', e, hle, hiff⟩
      · exact ⟨1, by omega, .inl (by simp only [again, e])⟩
      · have hlt : out'.data.x.rows.length < n := by
          rcases Nat.lt_or_eq_of_le hle with hlt | heq
          · omega
          · exact absurd (hiff.1 heq) hv
        obtain ⟨k, hk, hr⟩ := ih _ hlt out.data out.algo out' h1 h2 h3 h4 e rfl
        refine ⟨k + 1, by omega, ?_⟩
        simpa only [again, e] using hr

-- The hypotheses are met by data on which the first repetition still removes an instance.
example : (match run (L := String) Option.isNone
    { x := ⟨2, [[some 7, none], [none, some 1], [none, some 2], [none, some 3], [none, some 4],
        [none, some 5]]⟩
      y := ⟨1, [[some 1], [some 1], [some 1], [some 1], [some 1], [some 1]]⟩, s := some [0, 0, 0, 1, 1, 1]
      feat := ["f", "g"], inst := [1, 2, 3, 4, 5, 6] } ["a"] (some ["g", "f"]) none with
    | .ok o => match again Option.isNone (some ["g", "f"]) none 1 o with
      | .ok o' => (o.data.x.rows, o'.data.x.rows, o'.data.inst, o'.data.s)
      | .error _ => default
    | .error _ => default) =
    ([[none], [some 1], [some 2], [some 3], [some 4], [some 5]],
      [[some 1], [some 2], [some 3], [some 4], [some 5]], [2, 3, 4, 5, 6], some [0, 0, 1, 1, 1]) := rfl

end Verif.Preprocessing
