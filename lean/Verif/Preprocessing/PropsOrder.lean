import Verif.Preprocessing.PropsRun
/-!
# Preprocessing and the order of the instances (C154)
-/
set_option autoImplicit false
set_option linter.unusedSectionVars false

namespace Verif.Preprocessing

variable {V L I S : Type}

/-- The same data with the instances listed in the order `σ`: the instance at position `k` is the one
that was at position `σ[k]`. -/
def Data.inOrder (σ : List Nat) (d : Data V L I S) : Data V L I S where
  x := ⟨d.x.ncols, pick d.x.rows σ⟩
  y := ⟨d.y.ncols, pick d.y.rows σ⟩
  s := d.s.map fun s => pick s σ
  feat := d.feat
  inst := pick d.inst σ

theorem pick_map {α β : Type} (f : α → β) (l : List α) (is : List Nat) :
    pick (l.map f) is = (pick l is).map f := by
  simp only [pick, List.getElem?_map, List.map_filterMap]

theorem pick_perm {α : Type} {l : List α} {σ : List Nat} (h : σ.Perm (List.range l.length)) :
    (pick l σ).Perm l := by
  have := h.filterMap fun i => l[i]?
  have e := pick_all l _ rfl
  unfold pick at e ⊢
  rw [e] at this
  exact this

theorem select_order [DecidableEq L] (x : Mat V) (labels : List L) (wanted : Option (List L))
    (σ : List Nat) :
    select ⟨x.ncols, pick x.rows σ⟩ labels wanted =
      match select x labels wanted with
      | .error e => .error e
      | .ok (x', labels') => .ok (⟨x'.ncols, pick x'.rows σ⟩, labels') := by
  cases wanted with
  | none => rfl
  | some w =>
    simp only [select]
    split
    · rfl
    · split
      · simp only [pick_map]
      · rfl

/-- Any rearrangement of a list without repetitions is given by positions. -/
theorem exists_order {α : Type} [DecidableEq α] {l l' : List α} (h : l'.Perm l) (hnd : l.Nodup) :
    ∃ τ : List Nat, τ.Perm (List.range l.length) ∧ pick l τ = l' := by
  refine ⟨l'.map fun a => l.idxOf a, ?_, ?_⟩
  · have h1 := h.map fun a => l.idxOf a
    refine h1.trans (List.Perm.of_eq ?_)
    apply List.ext_getElem (by simp)
    intro i h1 h2
    simp only [List.getElem_map, List.getElem_range]
    exact hnd.idxOf_getElem i _
  · have : ∀ m : List α, (∀ a ∈ m, a ∈ l) → pick l (m.map fun a => l.idxOf a) = m := by
      intro m
      induction m with
      | nil => intro _; rfl
      | cons a t ih =>
        intro hm
        have h0 : l[l.idxOf a]? = some a := by
          rw [List.getElem?_eq_getElem (List.idxOf_lt_length_of_mem (hm a (by simp)))]
          simp
        simp only [pick, List.map_cons, List.filterMap_cons, h0]
        exact congrArg _ (ih fun b hb => hm b (by simp [hb]))
    exact this l' fun a ha => h.mem_iff.1 ha

theorem inOrder_fits {d : Data V L I S} (hd : d.Fits) {σ : List Nat}
    (hσ : σ.Perm (List.range d.x.rows.length)) : (d.inOrder σ).Fits := by
  have hlen : ∀ {α : Type} (l : List α), l.length = d.x.rows.length → (pick l σ).length = σ.length :=
    fun l hl => pick_length l σ fun i hi => by
      rw [hl]
      simpa using hσ.mem_iff.1 hi
  refine ⟨fun row hr => hd.rectX row (mem_pick hr), fun row hr => hd.rectY row (mem_pick hr), hd.feat,
    ?_, ?_, ?_⟩
  · exact (hlen _ hd.y).trans (hlen _ rfl).symm
  · exact (hlen _ hd.inst).trans (hlen _ rfl).symm
  · intro s hs
    cases hds : d.s with
    | none => simp [Data.inOrder, hds] at hs
    | some s' =>
      simp only [Data.inOrder, hds, Option.map_some, Option.some.injEq] at hs
      rw [← hs]
      exact (hlen _ (hd.s s' hds)).trans (hlen _ rfl).symm

/-- The positions kept of the rearranged list are the rearranged positions kept. -/
theorem falses_order {idx : List Bool} {σ : List Nat} (hσ : σ.Perm (List.range idx.length)) :
    (pick σ (falses (pick idx σ))).Perm (falses idx) := by
  have hlt : ∀ i ∈ σ, i < idx.length := fun i hi => by simpa using hσ.mem_iff.1 hi
  have e : pick σ (falses (pick idx σ)) = σ.filter fun i => idx[i]? == some false := by
    have hl := pick_length idx σ hlt
    have h1 : falses (pick idx σ) = (List.range σ.length).filter fun k => (pick idx σ)[k]? == some false := by
      rw [falses, hl]
    rw [h1]
    have h2 : ((List.range σ.length).filter fun k => (pick idx σ)[k]? == some false) =
        (List.range σ.length).filter fun k => (σ[k]?.bind fun i => idx[i]?) == some false := by
      apply List.filter_congr
      intro k _
      rw [pick_getElem? idx σ hlt]
    rw [h2]
    clear h1 h2 hl hσ hlt
    unfold pick
    rw [List.filterMap_filter]
    conv_rhs => rw [← pick_all σ _ rfl]
    unfold pick
    rw [List.filter_filterMap]
    apply filterMap_congr'
    intro k hk
    rw [List.mem_range] at hk
    simp [List.getElem?_eq_getElem hk, Option.filter]
  rw [e]
  exact hσ.filter _

theorem emptyRows_order (nan : V → Bool) (x y : Mat V) (hl : y.rows.length = x.rows.length)
    {σ : List Nat} (hσ : ∀ i ∈ σ, i < x.rows.length) :
    emptyRows nan ⟨x.ncols, pick x.rows σ⟩ ⟨y.ncols, pick y.rows σ⟩ =
      pick (emptyRows nan x y) σ := by
  unfold emptyRows
  induction σ with
  | nil => rfl
  | cons i σ ih =>
    have hi := hσ i (by simp)
    have hx : x.rows[i]? = some x.rows[i] := List.getElem?_eq_getElem hi
    have hy : y.rows[i]? = some (y.rows[i]'(by omega)) := List.getElem?_eq_getElem (by omega)
    have ih := ih fun j hj => hσ j (by simp [hj])
    simp only [pick] at ih ⊢
    simp only [List.filterMap_cons, hx, hy, List.zipWith_cons_cons, List.getElem?_zipWith, ih]

theorem removeRows_order (nan : V → Bool) (d : Data V L I S) (hd : d.Fits) {σ : List Nat}
    (hσ : σ.Perm (List.range d.x.rows.length)) :
    ∃ τ : List Nat, τ.Perm (List.range (removeRows nan d).x.rows.length) ∧
      removeRows nan (d.inOrder σ) = (removeRows nan d).inOrder τ := by
  have hlt : ∀ i ∈ σ, i < d.x.rows.length := fun i hi => by simpa using hσ.mem_iff.1 hi
  have hel := emptyRows_length nan d.x d.y hd.y
  have hkl : ∀ i ∈ keptOf nan d, i < d.x.rows.length := fun i hi => by
    rw [← hel]; exact falses_lt hi
  have hperm : (pick σ (keptOf nan (d.inOrder σ))).Perm (keptOf nan d) := by
    unfold keptOf
    rw [show emptyRows nan (d.inOrder σ).x (d.inOrder σ).y = pick (emptyRows nan d.x d.y) σ from
      emptyRows_order nan d.x d.y hd.y hlt]
    apply falses_order
    rw [hel]
    exact hσ
  have hnd : (keptOf nan d).Nodup :=
    (emptyRows_lists nan d.x d.y hd.y).increasing.imp fun h => Nat.ne_of_lt h
  obtain ⟨τ, hτ, heq⟩ := exists_order hperm hnd
  have hτl : ∀ k ∈ τ, k < (keptOf nan d).length := fun k hk => by simpa using hτ.mem_iff.1 hk
  have hk' : ∀ k ∈ keptOf nan (d.inOrder σ), k < σ.length := fun k hk => by
    have h1 := falses_lt hk
    rw [show emptyRows nan (d.inOrder σ).x (d.inOrder σ).y = pick (emptyRows nan d.x d.y) σ from
      emptyRows_order nan d.x d.y hd.y hlt, pick_length _ _ (by rw [hel]; exact hlt)] at h1
    exact h1
  have key : ∀ {α : Type} (l : List α), l.length = d.x.rows.length →
      pick (pick l σ) (keptOf nan (d.inOrder σ)) = pick (pick l (keptOf nan d)) τ := by
    intro α l hl
    rw [pick_pick l σ _ (by rw [hl]; exact hlt) hk',
      pick_pick l (keptOf nan d) τ (by rw [hl]; exact hkl) hτl, heq]
  refine ⟨τ, ?_, ?_⟩
  · rw [removeRows_eq nan d hd]
    simp only [pick_length _ _ hkl]
    exact hτ
  · rw [removeRows_eq nan _ (inOrder_fits hd hσ), removeRows_eq nan d hd]
    unfold Data.inOrder at key ⊢
    simp only at key ⊢
    rw [key _ rfl, key _ hd.y, key _ hd.inst]
    congr 1
    cases hs : d.s with
    | none => rfl
    | some s =>
      simp only [Option.map_some]
      rw [← key s (hd.s s hs)]
      simp only [hs, Option.map_some]

theorem removeCols_order (nan : V → Bool) (d : Data V L I S) {τ : List Nat}
    (hτ : τ.Perm (List.range d.x.rows.length)) :
    removeCols nan (d.inOrder τ) = (removeCols nan d).inOrder τ := by
  have hp := pick_perm hτ
  have e : sparseCols nan (d.inOrder τ).x = sparseCols nan d.x := by
    unfold sparseCols
    apply List.map_congr_left
    intro j _
    have h1 : (pick d.x.rows τ).isEmpty = d.x.rows.isEmpty := by
      rw [Bool.eq_iff_iff, List.isEmpty_iff, List.isEmpty_iff]
      exact ⟨fun h => List.nil_perm.1 (h ▸ hp), fun h => List.perm_nil.1 (h ▸ hp)⟩
    have h2 : missing nan (d.inOrder τ).x j = missing nan d.x j :=
      (hp.filterMap _).countP_eq _
    simp only [h2]
    simp only [Data.inOrder, h1, hp.length_eq]
  unfold removeCols
  simp only [e]
  split
  · simp only [Data.inOrder, pick_map]
  · rfl

theorem removeCols_rows (nan : V → Bool) (d : Data V L I S) :
    (removeCols nan d).x.rows.length = d.x.rows.length := by
  unfold removeCols
  dsimp only
  split
  · simp
  · rfl

/-- **C154** With the instances in another order, the stage fails exactly when it failed before, with
the same error; otherwise the features and algorithms left are the same and the instances left are
the same ones, with the same values, labels and sources, in another order. -/
theorem C154_instances [DecidableEq L] (nan : V → Bool) (d : Data V L I S) (algo : List L)
    (feats algos : Option (List L)) (hd : d.Fits) (ha : algo.length = d.y.ncols) (σ : List Nat)
    (hσ : σ.Perm (List.range d.x.rows.length)) :
    (∀ e, run nan d algo feats algos = .error e → run nan (d.inOrder σ) algo feats algos = .error e) ∧
    (∀ out, run nan d algo feats algos = .ok out →
      ∃ τ : List Nat, τ.Perm (List.range out.data.x.rows.length) ∧
        run nan (d.inOrder σ) algo feats algos = .ok ⟨out.data.inOrder τ, out.algo⟩) := by
  have hsx := select_order d.x d.feat feats σ
  have hsy := select_order d.y algo algos σ
  cases hx : select d.x d.feat feats with
  | error e =>
    rw [hx] at hsx
    have e1 : run nan d algo feats algos = .error e := by unfold run; simp only [hx]
    have e2 : run nan (d.inOrder σ) algo feats algos = .error e := by
      unfold run Data.inOrder; simp only [hsx]
    rw [e1, e2]
    exact ⟨fun e h => by cases h; rfl, fun out h => by cases h⟩
  | ok r =>
    obtain ⟨x, feat⟩ := r
    rw [hx] at hsx
    cases hy : select d.y algo algos with
    | error e =>
      rw [hy] at hsy
      have e1 : run nan d algo feats algos = .error e := by unfold run; simp only [hx, hy]
      have e2 : run nan (d.inOrder σ) algo feats algos = .error e := by
        unfold run Data.inOrder; simp only [hsx, hsy]
      rw [e1, e2]
      exact ⟨fun e h => by cases h; rfl, fun out h => by cases h⟩
    | ok r =>
      obtain ⟨y, algo'⟩ := r
      rw [hy] at hsy
      obtain ⟨hx1, hx2, hx3⟩ := select_fits hd.rectX hd.feat hx
      obtain ⟨hy1, hy2, hy3⟩ := select_fits hd.rectY ha hy
      let d' : Data V L I S := { d with x := x, y := y, feat := feat }
      have hd' : d'.Fits :=
        { rectX := hx1, rectY := hy1, feat := hx2, y := by simp only [d']; rw [hy3, hx3, hd.y]
          inst := by simp only [d']; rw [hd.inst, hx3]
          s := fun s hs => by simp only [d']; rw [hd.s s hs, hx3] }
      have e1 : run nan d algo feats algos =
          match removeMissing nan d' with
          | .error e => .error e
          | .ok d => .ok ⟨d, algo'⟩ := by unfold run; simp only [hx, hy]; rfl
      have e2 : run nan (d.inOrder σ) algo feats algos =
          match removeMissing nan (d'.inOrder σ) with
          | .error e => .error e
          | .ok d => .ok ⟨d, algo'⟩ := by
        unfold run Data.inOrder; simp only [hsx, hsy]; rfl
      obtain ⟨τ, hτ, hr⟩ := removeRows_order nan d' hd' (σ := σ) (by
        simp only [d']; rw [hx3]; exact hσ)
      have hc := removeCols_order nan (removeRows nan d') hτ
      have hlen : (removeCols nan (removeRows nan d')).x.rows.length =
        (removeRows nan d').x.rows.length := removeCols_rows nan _
      rw [← hlen] at hτ
      have hl2 : ((removeCols nan (removeRows nan d')).inOrder τ).x.rows.length =
          (removeCols nan (removeRows nan d')).x.rows.length := (pick_perm hτ).length_eq
      rw [e1, e2]
      unfold removeMissing
      simp only [hr, hc, hl2]
      by_cases h0 : (removeCols nan (removeRows nan d')).x.rows.length = 0
      · simp only [h0, if_true]
        exact ⟨fun e h => by cases h; rfl, fun out h => by cases h⟩
      · simp only [h0, if_false]
        exact ⟨fun e h => (by cases h), fun out h => (by cases h; exact ⟨τ, hτ, rfl⟩)⟩

-- Four instances in reverse order; the second has no feature value.
example : (match run (L := String) (I := Nat) (S := Nat) Option.isNone
    (Data.inOrder [3, 2, 1, 0]
      { x := ⟨1, [[some 7], [none], [some 8], [some 9]]⟩
        y := ⟨1, [[some 1], [some 2], [some 3], [some 4]]⟩, s := some [10, 11, 12, 13]
        feat := ["f"], inst := [1, 2, 3, 4] }) ["a"] none none with
    | .ok o => (o.data.x.rows, o.data.y.rows, o.data.inst, o.data.s)
    | .error _ => default) =
    ([[some 9], [some 8], [some 7]], [[some 4], [some 3], [some 1]], [4, 3, 1], some [13, 12, 10]) ∧
    ([3, 2, 1, 0] : List Nat).Perm (List.range 4) := ⟨rfl, by decide⟩

end Verif.Preprocessing
