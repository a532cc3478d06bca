import Verif.Preprocessing.PropsOrder
import Verif.Preprocessing.PropsRun
/-!
# C198, C199: what preprocessing removes might as well not be in the file
-/
set_option autoImplicit false
set_option linter.unusedSectionVars false

namespace Verif.Preprocessing

variable {V L I S : Type}

/-- The same data with the positions of the instances in place of their labels. -/
def Data.numbered (d : Data V L I S) : Data V L Nat S :=
  ⟨d.x, d.y, d.s, d.feat, List.range d.x.rows.length⟩

/-- The instance at position `i` is not among those the stage returns. -/
def Removes [DecidableEq L] (nan : V → Bool) (d : Data V L I S) (algo : List L)
    (feats algos : Option (List L)) (i : Nat) : Prop :=
  ∀ out, run nan d.numbered algo feats algos = .ok out → i ∉ out.data.inst

theorem inOrder_fits' {d : Data V L I S} (hd : d.Fits) {σ : List Nat}
    (hσ : ∀ i ∈ σ, i < d.x.rows.length) : (d.inOrder σ).Fits := by
  have hlen : ∀ {α : Type} (l : List α), l.length = d.x.rows.length → (pick l σ).length = σ.length :=
    fun l hl => pick_length l σ fun i hi => by rw [hl]; exact hσ i hi
  refine ⟨fun row hr => hd.rectX row (mem_pick hr), fun row hr => hd.rectY row (mem_pick hr), hd.feat,
    ?_, ?_, ?_⟩
  · exact (hlen _ hd.y).trans (hlen _ rfl).symm
  · exact (hlen _ hd.inst).trans (hlen _ rfl).symm
  · intro s hs
    cases hds : d.s with
    | none => simp [Data.inOrder, hds] at hs
    | some s' =>
      simp only [Data.inOrder, hds, Option.map_some, Option.some.injEq] at hs
      rw [← hs]
      exact (hlen _ (hd.s s' hds)).trans (hlen _ rfl).symm

theorem falses_pick {idx : List Bool} {σ : List Nat} (hlt : ∀ i ∈ σ, i < idx.length) :
    pick σ (falses (pick idx σ)) = σ.filter fun i => idx[i]? == some false := by
  have hl := pick_length idx σ hlt
  have h1 : falses (pick idx σ) = (List.range σ.length).filter fun k => (pick idx σ)[k]? == some false := by
    rw [falses, hl]
  rw [h1]
  have h2 : ((List.range σ.length).filter fun k => (pick idx σ)[k]? == some false) =
      (List.range σ.length).filter fun k => (σ[k]?.bind fun i => idx[i]?) == some false := by
    apply List.filter_congr
    intro k _
    rw [pick_getElem? idx σ hlt]
  rw [h2]
  clear h1 h2 hl hlt
  unfold pick
  rw [List.filterMap_filter]
  conv_rhs => rw [← pick_all σ _ rfl]
  unfold pick
  rw [List.filter_filterMap]
  apply filterMap_congr'
  intro k hk
  rw [List.mem_range] at hk
  simp [List.getElem?_eq_getElem hk, Option.filter]

/-- Taking out rows that are removed anyway changes nothing. -/
theorem removeRows_absent (nan : V → Bool) (d : Data V L I S) (hd : d.Fits) {σ : List Nat}
    (hinc : σ.Pairwise (· < ·)) (hlt : ∀ i ∈ σ, i < d.x.rows.length)
    (hout : ∀ i ∈ keptOf nan d, i ∈ σ) :
    removeRows nan (d.inOrder σ) = removeRows nan d := by
  have hel := emptyRows_length nan d.x d.y hd.y
  have hk : pick σ (keptOf nan (d.inOrder σ)) = keptOf nan d := by
    have e : emptyRows nan (d.inOrder σ).x (d.inOrder σ).y = pick (emptyRows nan d.x d.y) σ :=
      emptyRows_order nan d.x d.y hd.y hlt
    rw [keptOf, e, falses_pick fun i hi => by rw [hel]; exact hlt i hi]
    refine Lists.unique (n := (emptyRows nan d.x d.y).length)
      (P := fun i => (emptyRows nan d.x d.y)[i]? = some false) ⟨hinc.filter _, fun i => ?_⟩
      (lists_filter _ _ _ fun i _ => by simp)
    rw [List.mem_filter, beq_iff_eq]
    refine ⟨fun h => ⟨by rw [hel]; exact hlt i h.1, h.2⟩, fun h => ⟨hout i ?_, h.2⟩⟩
    rw [keptOf, falses, List.mem_filter, List.mem_range]
    exact ⟨h.1, by simp [h.2]⟩
  have hkl : ∀ j ∈ keptOf nan (d.inOrder σ), j < σ.length := by
    intro j hj
    have := falses_lt hj
    rwa [emptyRows_length nan _ _ (inOrder_fits' hd hlt).y,
      show (d.inOrder σ).x.rows.length = σ.length from pick_length _ _ hlt] at this
  have pp : ∀ {α : Type} (l : List α), l.length = d.x.rows.length →
      pick (pick l σ) (keptOf nan (d.inOrder σ)) = pick l (keptOf nan d) := by
    intro α l hl
    rw [pick_pick l σ _ (fun i hi => by rw [hl]; exact hlt i hi) hkl, hk]
  rw [removeRows_eq nan _ (inOrder_fits' hd hlt), removeRows_eq nan d hd]
  obtain ⟨x, y, s, feat, inst⟩ := d
  simp only [Data.inOrder] at pp ⊢
  rw [pp x.rows rfl, pp y.rows hd.y, pp inst hd.inst]
  cases s with
  | none => rfl
  | some s => simp only [Option.map_some] at pp ⊢; rw [pp s (hd.s s rfl)]

/-- **C198** for the stage: instances that preprocessing removes can be left out of the data. `σ` lists the
positions of the instances that stay, in increasing order. -/
theorem C198_stage [DecidableEq L] (nan : V → Bool) (d : Data V L I S) (algo : List L)
    (feats algos : Option (List L)) (hd : d.Fits) (ha : algo.length = d.y.ncols) (σ : List Nat)
    (hinc : σ.Pairwise (· < ·)) (hlt : ∀ i ∈ σ, i < d.x.rows.length)
    (hout : ∀ i, i < d.x.rows.length → i ∉ σ → Removes nan d algo feats algos i) :
    run nan (d.inOrder σ) algo feats algos = run nan d algo feats algos := by
  have hsx := select_order d.x d.feat feats σ
  have hsy := select_order d.y algo algos σ
  cases hx : select d.x d.feat feats with
  | error e =>
    rw [hx] at hsx
    unfold run Data.inOrder; simp only [hsx, hx]
  | ok r =>
    obtain ⟨x, feat⟩ := r
    rw [hx] at hsx
    cases hy : select d.y algo algos with
    | error e =>
      rw [hy] at hsy
      unfold run Data.inOrder; simp only [hsx, hsy, hx, hy]
    | ok r =>
      obtain ⟨y, algo'⟩ := r
      rw [hy] at hsy
      obtain ⟨hx1, hx2, hx3⟩ := select_fits hd.rectX hd.feat hx
      obtain ⟨hy1, hy2, hy3⟩ := select_fits hd.rectY ha hy
      let d' : Data V L I S := { d with x := x, y := y, feat := feat }
      have hd' : d'.Fits :=
        { rectX := hx1, rectY := hy1, feat := hx2, y := by simp only [d']; rw [hy3, hx3, hd.y]
          inst := by simp only [d']; rw [hd.inst, hx3]
          s := fun s hs => by simp only [d']; rw [hd.s s hs, hx3] }
      let n : Data V L Nat S := ⟨x, y, d.s, feat, List.range d.x.rows.length⟩
      have hn : n.Fits :=
        { rectX := hx1, rectY := hy1, feat := hx2, y := by simp only [n]; rw [hy3, hx3, hd.y]
          inst := by simp only [n]; rw [List.length_range, hx3]
          s := fun s hs => by simp only [n]; rw [hd.s s hs, hx3] }
      have e1 : run nan d algo feats algos =
          match removeMissing nan d' with
          | .error e => .error e
          | .ok d => .ok ⟨d, algo'⟩ := by unfold run; simp only [hx, hy]; rfl
      have e2 : run nan (d.inOrder σ) algo feats algos =
          match removeMissing nan (d'.inOrder σ) with
          | .error e => .error e
          | .ok d => .ok ⟨d, algo'⟩ := by
        unfold run Data.inOrder; simp only [hsx, hsy]; rfl
      have e3 : run nan d.numbered algo feats algos =
          match removeMissing nan n with
          | .error e => .error e
          | .ok d => .ok ⟨d, algo'⟩ := by 
        unfold run Data.numbered; simp only [hx, hy]
        cases removeMissing nan n <;> rfl
      have key : ∀ i ∈ keptOf nan d', i ∈ σ := by
        intro i hi
        have hi' : i < d.x.rows.length := by
          have := falses_lt hi
          rw [emptyRows_length nan _ _ hd'.y] at this
          rwa [← hx3]
        by_contra hc
        obtain ⟨kept, hk, -, hk1⟩ := C28_rows_aligned nan n hn
        obtain rfl : kept = keptOf nan d' := hk.unique (emptyRows_lists nan n.x n.y hn.y)
        obtain ⟨out, -, ho, -, -, -, oi, -⟩ := hk1 (List.ne_nil_of_mem hi)
        refine hout i hi' hc ⟨out, algo'⟩ (by rw [e3, ho]) ?_
        show i ∈ out.inst
        rw [oi]
        exact List.mem_filterMap.2 ⟨i, hi, by simp [n, hi']⟩
      rw [e1, e2]
      unfold removeMissing
      rw [removeRows_absent nan d' hd' hinc (fun i hi => by simp only [d']; rw [hx3]; exact hlt i hi) key]

-- Four instances; the second has no feature value and the fourth no performance: both can be left out.
example :
    let d : Data (Option Nat) String Nat Nat :=
      { x := ⟨2, [[some 7, some 1], [none, none], [some 8, none], [some 9, some 5]]⟩
        y := ⟨1, [[some 1], [some 2], [some 3], [none]]⟩, s := some [10, 11, 12, 13]
        feat := ["f", "g"], inst := [1, 2, 3, 4] }
    d.Fits ∧ (∀ i, i < 4 → i ∉ [0, 2] → Removes Option.isNone d ["a"] none none i) ∧
    ((run Option.isNone d ["a"] none none).toOption.map fun o => (o.data.inst, o.data.feat)) =
      some ([1, 3], ["f"]) := by
  intro d
  refine ⟨⟨by unfold Mat.Rect; decide, by unfold Mat.Rect; decide, rfl, rfl, rfl, by rintro s ⟨⟩; rfl⟩, ?_, rfl⟩
  intro i hi hne out ho
  have : (run Option.isNone d.numbered ["a"] none none).toOption.map (fun o => o.data.inst) = some [0, 2] := rfl
  rw [ho] at this
  have e : out.data.inst = [0, 2] := Option.some.inj this
  rw [e]
  exact hne

/-- The same data with the features at the positions `ks` only. -/
def Data.features (ks : List Nat) (d : Data V L I S) : Data V L I S :=
  { d with x := ⟨ks.length, d.x.rows.map fun row => pick row ks⟩, feat := pick d.feat ks }

/-- The full claim of C199: features that preprocessing removes can be left out of the data. -/
def FeaturesAbsent (V L I S : Type) [DecidableEq L] (nan : V → Bool) : Prop :=
  ∀ (d : Data V L I S) (algo : List L) (feats algos : Option (List L)) (out : Output V L I S) (ks : List Nat),
    d.Fits → algo.length = d.y.ncols → d.feat.Nodup → algo.Nodup → ks.Pairwise (· < ·) →
    (∀ j ∈ ks, j < d.x.ncols) → run nan d algo feats algos = .ok out →
    (∀ j l, d.feat[j]? = some l → j ∉ ks → l ∉ out.data.feat) →
    run nan (d.features ks) algo feats algos = .ok out

theorem features_fits {d : Data V L I S} (hd : d.Fits) {ks : List Nat} (hlt : ∀ j ∈ ks, j < d.x.ncols) :
    (d.features ks).Fits where
  rectX row hr := by
    obtain ⟨r, hr', rfl⟩ := List.mem_map.1 hr
    exact pick_length r ks fun j hj => by rw [hd.rectX r hr']; exact hlt j hj
  rectY := hd.rectY
  feat := pick_length _ ks fun j hj => by rw [hd.feat]; exact hlt j hj
  y := by simpa [Data.features] using hd.y
  inst := by simpa [Data.features] using hd.inst
  s s hs := by simpa [Data.features] using hd.s s hs

theorem pick_sub_nodup {α : Type} {l : List α} (hl : l.Nodup) {ks : List Nat} (hinc : ks.Pairwise (· < ·))
    (hlt : ∀ j ∈ ks, j < l.length) : (pick l ks).Nodup := by
  unfold List.Nodup
  rw [List.pairwise_iff_getElem]
  intro i j hi hj hij heq
  rw [pick_length l ks hlt] at hi hj
  have e : (pick l ks)[i]? = (pick l ks)[j]? := by
    rw [List.getElem?_eq_getElem (by rwa [pick_length l ks hlt]),
      List.getElem?_eq_getElem (by rwa [pick_length l ks hlt]), heq]
  rw [pick_getElem? l ks hlt, pick_getElem? l ks hlt, List.getElem?_eq_getElem hj,
    List.getElem?_eq_getElem hi, Option.bind_some, Option.bind_some,
    List.getElem?_eq_getElem (hlt _ (List.getElem_mem hi)),
    List.getElem?_eq_getElem (hlt _ (List.getElem_mem hj))] at e
  have h1 := List.pairwise_iff_getElem.1 hinc i j hi hj hij
  exact List.pairwise_iff_getElem.1 hl _ _ _ _ h1 (Option.some.inj e)

theorem pick_increasing {ks cs : List Nat} (hks : ks.Pairwise (· < ·)) (hcs : cs.Pairwise (· < ·))
    (hlt : ∀ c ∈ cs, c < ks.length) : (pick ks cs).Pairwise (· < ·) := by
  rw [List.pairwise_iff_getElem]
  intro i j hi hj hij
  have hi' : i < cs.length := by rwa [pick_length ks cs hlt] at hi
  have hj' : j < cs.length := by rwa [pick_length ks cs hlt] at hj
  have e : ∀ (k : Nat) (hk : k < cs.length) (hk' : k < (pick ks cs).length),
      (pick ks cs)[k] = ks[cs[k]]'(hlt _ (List.getElem_mem hk)) := by
    intro k hk hk'
    have := pick_getElem? ks cs hlt k
    rw [List.getElem?_eq_getElem hk', List.getElem?_eq_getElem hk, Option.bind_some,
      List.getElem?_eq_getElem (hlt _ (List.getElem_mem hk))] at this
    exact Option.some.inj this
  rw [e i hi' hi, e j hj' hj]
  exact List.pairwise_iff_getElem.1 hks _ _ _ _ (List.pairwise_iff_getElem.1 hcs i j hi' hj' hij)

theorem Lists.congr {is : List Nat} {n : Nat} {P Q : Nat → Prop} (h : Lists is n P)
    (hpq : ∀ i, i < n → (P i ↔ Q i)) : Lists is n Q where
  increasing := h.increasing
  exact i := by
    rw [h.exact i]
    exact ⟨fun ⟨h1, h2⟩ => ⟨h1, (hpq i h1).1 h2⟩, fun ⟨h1, h2⟩ => ⟨h1, (hpq i h1).2 h2⟩⟩

/-- With distinct labels the stage fails only when no instance is left. -/
theorem run_total [DecidableEq L] (nan : V → Bool) (d : Data V L I S) (algo : List L)
    (feats algos : Option (List L)) (hd : d.Fits) (ha : algo.length = d.y.ncols) (hf : d.feat.Nodup)
    (han : algo.Nodup) {i : Nat}
    (hi : (∃ j v, j < d.x.ncols ∧ Chosen d.feat feats j ∧
          (d.x.rows[i]?.bind (·[j]?)) = some v ∧ nan v = false) ∧
        (∃ j v, j < d.y.ncols ∧ Chosen algo algos j ∧
          (d.y.rows[i]?.bind (·[j]?)) = some v ∧ nan v = false)) :
    ∃ out, run nan d algo feats algos = .ok out := by
  obtain ⟨x, feat, fc, hx, hfc, xn, xr, rfl⟩ := select_pick d.x d.feat feats hd.rectX hd.feat hf
  obtain ⟨y, al, ac, hy, hac, yn, yr, rfl⟩ := select_pick d.y algo algos hd.rectY ha han
  obtain ⟨hx1, hx2, hx3⟩ := select_fits hd.rectX hd.feat hx
  obtain ⟨hy1, hy2, hy3⟩ := select_fits hd.rectY ha hy
  have hd' : ({ d with x := x, y := y, feat := pick d.feat fc } : Data V L I S).Fits :=
    { rectX := hx1, rectY := hy1, feat := hx2, y := by rw [hy3, hx3, hd.y]
      inst := by rw [hd.inst, hx3], s := fun s hs => by rw [hd.s s hs, hx3] }
  have hv : ∀ (m m' : Mat V) (cs : List Nat) (P : Nat → Prop),
      Lists cs m.ncols P → m'.rows = m.rows.map (fun row => pick row cs) →
      (∃ j v, j < m.ncols ∧ P j ∧ (m.rows[i]?.bind (·[j]?)) = some v ∧ nan v = false) →
      HasValue nan m' i ∧ i < m.rows.length := by
    rintro m m' cs P hcs hm' ⟨j, v, h1, h2, h3, h4⟩
    cases hr : m.rows[i]? with
    | none => simp [hr] at h3
    | some r =>
      rw [hr] at h3
      refine ⟨⟨pick r cs, v, ?_, List.mem_filterMap.2 ⟨j, (hcs.exact j).2 ⟨h1, h2⟩, h3⟩, h4⟩,
        (List.getElem?_eq_some_iff.1 hr).1⟩
      rw [hm', List.getElem?_map, hr]
      rfl
  obtain ⟨kept, hk, -, hk1⟩ := C28_rows_aligned nan _ hd'
  obtain ⟨v1, l1⟩ := hv d.x x fc _ hfc xr hi.1
  obtain ⟨v2, -⟩ := hv d.y y ac _ hac yr hi.2
  have hmem : i ∈ kept := (hk.exact i).2 ⟨by simp only; rw [hx3]; exact l1, v1, v2⟩
  obtain ⟨o, -, ho, -⟩ := hk1 (List.ne_nil_of_mem hmem)
  exact ⟨⟨o, _⟩, by unfold run; simp only [hx, hy, ho]; rfl⟩

/-- **C199 (part).** Features that preprocessing does not return, because they were not selected or because too
many values are missing, can be left out of the data, when some feature is returned and every instance
returned has a value in one of the features returned. `ks` lists the positions of the features that stay, in
increasing order. Missing: an instance whose only values are in a removed feature (`C199_refuted`). -/
theorem C199_partial [DecidableEq L] (nan : V → Bool) (d : Data V L I S) (algo : List L)
    (feats algos : Option (List L)) (out : Output V L I S) (ks : List Nat) (hd : d.Fits)
    (ha : algo.length = d.y.ncols) (hf : d.feat.Nodup) (han : algo.Nodup) (hinc : ks.Pairwise (· < ·))
    (hlt : ∀ j ∈ ks, j < d.x.ncols) (h : run nan d algo feats algos = .ok out)
    (absent : ∀ j l, d.feat[j]? = some l → j ∉ ks → l ∉ out.data.feat)
    (some_left : out.data.feat ≠ [])
    (values : ∀ i, i < out.data.x.rows.length → HasValue nan out.data.x i) :
    run nan (d.features ks) algo feats algos = .ok out := by
  obtain ⟨rows, fcols, acols, Ha, Hf, Hr, ox, oxn, of, oy, oyn, oa, oi, os⟩ :=
    C27_run_partial nan d algo feats algos out hd ha hf han h
  have hd' := features_fits hd hlt
  have hltf : ∀ j ∈ ks, j < d.feat.length := fun j hj => by rw [hd.feat]; exact hlt j hj
  have hf' : (d.features ks).feat.Nodup := pick_sub_nodup hf hinc hltf
  have hfl : ∀ j ∈ fcols, j < d.x.ncols := fun j hj => ((Hf.exact j).1 hj).1
  have hrl : ∀ i ∈ rows, i < d.x.rows.length := fun i hi => ((Hr.exact i).1 hi).1
  -- the features returned stay
  have hsub : ∀ j ∈ fcols, j ∈ ks := by
    intro j hj
    by_contra hc
    have hl : d.feat[j]? = some (d.feat[j]'(by rw [hd.feat]; exact hfl j hj)) :=
      List.getElem?_eq_getElem _
    refine absent j _ hl hc ?_
    rw [of]
    exact List.mem_filterMap.2 ⟨j, hj, hl⟩
  have hfeat : ∀ (c : Nat) (hc : c < ks.length), (d.features ks).feat[c]? = d.feat[ks[c]]? := by
    intro c hc
    show (pick d.feat ks)[c]? = _
    rw [pick_getElem? d.feat ks hltf, List.getElem?_eq_getElem hc]
    rfl
  have hcell : ∀ (i c : Nat) (hc : c < ks.length), ((d.features ks).x.rows[i]?.bind fun r : List V => r[c]?) =
      (d.x.rows[i]?.bind fun r : List V => r[ks[c]]?) := by
    intro i c hc
    show ((d.x.rows.map fun row => pick row ks)[i]?.bind fun r : List V => r[c]?) = _
    rw [List.getElem?_map]
    cases hr : d.x.rows[i]? with
    | none => rfl
    | some r =>
      simp only [Option.map_some, Option.bind_some]
      rw [pick_getElem? r ks fun j hj => by
        rw [hd.rectX r (List.mem_of_getElem? hr)]; exact hlt j hj, List.getElem?_eq_getElem hc]
      rfl
  have hchosen : ∀ (c : Nat) (hc : c < ks.length),
      (Chosen (d.features ks).feat feats c ↔ Chosen d.feat feats ks[c]) := by
    intro c hc
    unfold Chosen
    rw [hfeat c hc]
    have hex : ∀ w, feats = some w → ((∃ l ∈ (d.features ks).feat, l ∈ w) ↔ ∃ l ∈ d.feat, l ∈ w) := by
      intro w hw
      constructor
      · rintro ⟨l, h1, h2⟩
        exact ⟨l, mem_pick h1, h2⟩
      · intro he
        obtain ⟨l, hl⟩ := List.exists_mem_of_ne_nil _ some_left
        rw [of] at hl
        obtain ⟨j, hj, hjl⟩ := List.mem_filterMap.1 hl
        obtain ⟨l', h1, h2⟩ := ((Hf.exact j).1 hj).2.1 w hw he
        exact ⟨l', List.mem_filterMap.2 ⟨j, hsub j hj, h2⟩, h1⟩
    constructor
    · intro hh w hw he
      exact hh w hw ((hex w hw).2 he)
    · intro hh w hw he
      exact hh w hw ((hex w hw).1 he)
  -- the instances returned have a value in a feature that stays
  have hrows : ∀ i, i < d.x.rows.length →
      (((∃ j v, j < (d.features ks).x.ncols ∧ Chosen (d.features ks).feat feats j ∧
          ((d.features ks).x.rows[i]?.bind (·[j]?)) = some v ∧ nan v = false) ∧
        (∃ j v, j < d.y.ncols ∧ Chosen algo algos j ∧
          (d.y.rows[i]?.bind (·[j]?)) = some v ∧ nan v = false)) ↔
      ((∃ j v, j < d.x.ncols ∧ Chosen d.feat feats j ∧
          (d.x.rows[i]?.bind (·[j]?)) = some v ∧ nan v = false) ∧
        (∃ j v, j < d.y.ncols ∧ Chosen algo algos j ∧
          (d.y.rows[i]?.bind (·[j]?)) = some v ∧ nan v = false))) := by
    intro i hi
    constructor
    · rintro ⟨⟨c, v, h1, h2, h3, h4⟩, h5⟩
      have h1 : c < ks.length := h1
      refine ⟨⟨ks[c], v, hlt _ (List.getElem_mem h1), (hchosen c h1).1 h2, ?_, h4⟩, h5⟩
      rw [← hcell i c h1]
      exact h3
    · intro hP
      refine ⟨?_, hP.2⟩
      have hi' : i ∈ rows := (Hr.exact i).2 ⟨hi, hP⟩
      obtain ⟨r, hr, rfl⟩ := List.getElem_of_mem hi'
      have hlen : out.data.x.rows.length = rows.length := by
        rw [ox, List.length_map, pick_length _ _ hrl]
      obtain ⟨row, v, h1, h2, h3⟩ := values r (by rw [hlen]; exact hr)
      rw [ox, List.getElem?_map, pick_getElem? _ _ hrl, List.getElem?_eq_getElem hr, Option.bind_some] at h1
      cases hx : d.x.rows[rows[r]]? with
      | none => simp [hx] at h1
      | some r0 =>
        rw [hx] at h1
        simp only [Option.map_some, Option.some.injEq] at h1
        subst h1
        obtain ⟨j, hj, hjv⟩ := List.mem_filterMap.1 h2
        obtain ⟨c, hc, rfl⟩ := List.getElem_of_mem (hsub j hj)
        refine ⟨c, v, hc, (hchosen c hc).2 ((Hf.exact _).1 hj).2.1, ?_, h3⟩
        rw [hcell _ c hc, hx]
        exact hjv
  obtain ⟨out', h'⟩ : ∃ out', run nan (d.features ks) algo feats algos = .ok out' := by
    have h0 := (C30_partial nan d algo feats algos out hd ha h).1
    have hne : rows ≠ [] := by
      rintro rfl
      rw [ox] at h0
      exact h0 rfl
    obtain ⟨i, hi⟩ := List.exists_mem_of_ne_nil _ hne
    obtain ⟨h1, h2⟩ := (Hr.exact i).1 hi
    exact run_total nan (d.features ks) algo feats algos hd' ha hf' han ((hrows i h1).2 h2)
  obtain ⟨rows', fcols', acols', Ha', Hf', Hr', ox', oxn', of', oy', oyn', oa', oi', os'⟩ :=
    C27_run_partial nan (d.features ks) algo feats algos out' hd' ha hf' han h'
  obtain rfl : acols' = acols := Ha'.unique Ha
  have hn : (d.features ks).x.rows.length = d.x.rows.length := by simp [Data.features]
  obtain rfl : rows' = rows := by
    rw [hn] at Hr'
    exact (Hr'.congr hrows).unique Hr
  have hcl : ∀ c ∈ fcols', c < ks.length := fun c hc => ((Hf'.exact c).1 hc).1
  have hmiss : ∀ (c : Nat) (hc : c < ks.length) i,
      (Missing nan ⟨(d.features ks).x.ncols, pick (d.features ks).x.rows rows'⟩ i c ↔
        Missing nan ⟨d.x.ncols, pick d.x.rows rows'⟩ i ks[c]) := by
    intro c hc i
    unfold Missing
    simp only [Data.features, pick_map, List.getElem?_map]
    have hg : ∀ r, (pick d.x.rows rows')[i]? = some r → (pick r ks)[c]? = r[ks[c]]? := by
      intro r hr
      rw [pick_getElem? r ks fun j hj => by
        rw [hd.rectX r (mem_pick (List.mem_of_getElem? hr))]; exact hlt j hj, List.getElem?_eq_getElem hc]
      rfl
    constructor
    · rintro ⟨row, v, h1, h2, h3⟩
      cases hr : (pick d.x.rows rows')[i]? with
      | none => simp [hr] at h1
      | some r =>
        rw [hr] at h1
        simp only [Option.map_some, Option.some.injEq] at h1
        subst h1
        exact ⟨r, v, rfl, by rw [← hg r hr]; exact h2, h3⟩
    · rintro ⟨r, v, h1, h2, h3⟩
      exact ⟨pick r ks, v, by rw [h1]; rfl, by rw [hg r h1]; exact h2, h3⟩
  have hcols : pick ks fcols' = fcols := by
    refine Lists.unique ⟨pick_increasing hinc Hf'.increasing hcl, fun j => ?_⟩ Hf
    constructor
    · intro hj
      obtain ⟨c, hc, hcj⟩ := List.mem_filterMap.1 hj
      have hcl' := hcl c hc
      rw [List.getElem?_eq_getElem hcl', Option.some.injEq] at hcj
      subst hcj
      obtain ⟨-, h1, h2⟩ := (Hf'.exact c).1 hc
      exact ⟨hlt _ (List.getElem_mem hcl'), (hchosen c hcl').1 h1,
        fun ms hms => h2 ms (hms.congr fun i _ => (hmiss c hcl' i).symm)⟩
    · intro hj
      have hj' := (Hf.exact j).2 hj
      obtain ⟨c, hc, rfl⟩ := List.getElem_of_mem (hsub j hj')
      refine List.mem_filterMap.2 ⟨c, (Hf'.exact c).2 ⟨hc, (hchosen c hc).2 hj.2.1, fun ms hms => ?_⟩,
        List.getElem?_eq_getElem hc⟩
      exact hj.2.2 ms (hms.congr fun i _ => hmiss c hc i)
  have hpp : ∀ row ∈ d.x.rows, pick (pick row ks) fcols' = pick row fcols := by
    intro row hr
    rw [pick_pick row ks fcols' (fun j hj => by rw [hd.rectX row hr]; exact hlt j hj) hcl, hcols]
  rw [h']
  obtain ⟨⟨⟨xn', xr'⟩, ⟨yn', yr'⟩, s', f', i'⟩, a'⟩ := out'
  obtain ⟨⟨⟨xn, xr⟩, ⟨yn, yr⟩, s, f, i⟩, a⟩ := out
  simp only at ox oxn of oy oyn oa oi os ox' oxn' of' oy' oyn' oa' oi' os'
  have e1 : xr' = xr := by
    rw [ox, ox']
    simp only [Data.features, pick_map, List.map_map]
    apply List.map_congr_left
    intro row hr
    exact hpp row (mem_pick hr)
  have e2 : xn' = xn := by
    rw [oxn, oxn', ← hcols, pick_length _ _ hcl]
  have e3 : f' = f := by
    rw [of, of']
    show pick (pick d.feat ks) fcols' = _
    rw [pick_pick d.feat ks fcols' hltf hcl, hcols]
  have e4 : yr' = yr := by rw [oy, oy']; rfl
  rw [e1, e2, e3, e4, oyn', ← oyn, oa', ← oa, oi', os', os, oi]
  rfl

-- Six instances; the first feature is not selected and the second one is missing too often.
example :
    let v : Option Nat := some 1
    let d : Data (Option Nat) String Nat Nat :=
      { x := ⟨3, [[v, none, v], [none, v, v], [v, none, v], [none, none, v], [none, none, v], [none, none, v]]⟩
        y := ⟨1, [[v], [v], [v], [v], [v], [v]]⟩, s := none, feat := ["e", "f", "g"]
        inst := [1, 2, 3, 4, 5, 6] }
    d.Fits ∧ d.feat.Nodup ∧ ∃ out, run Option.isNone d ["a"] (some ["g", "f"]) none = .ok out ∧
      out.data.feat = ["g"] ∧ (∀ j l, d.feat[j]? = some l → j ∉ [2] → l ∉ out.data.feat) ∧
      ∀ i, i < out.data.x.rows.length → HasValue Option.isNone out.data.x i := by
  intro v d
  refine ⟨⟨by unfold Mat.Rect; decide, by unfold Mat.Rect; decide, rfl, rfl, rfl, by rintro s ⟨⟩⟩, by decide, _, rfl, rfl, ?_, ?_⟩
  · intro j l hj hne
    match j with
    | 0 => simp [d] at hj; subst hj; decide
    | 1 => simp [d] at hj; subst hj; decide
    | 2 => simp at hne
    | _ + 3 => simp [d] at hj
  · intro i hi
    have hi : i < 6 := hi
    refine ⟨[v], v, ?_, by simp, rfl⟩
    match i with
    | 0 | 1 | 2 | 3 | 4 | 5 => rfl
    | _ + 6 => omega

/-- **C199** is false: the first instance has its only value in the first feature, which is removed because the
other instances miss it. With the feature in the data the instance stays, without it the instance goes. -/
theorem C199_refuted : ¬ FeaturesAbsent (Option Nat) String Nat Nat Option.isNone := by
  intro h
  let v : Option Nat := some 1
  have := h
    { x := ⟨2, [[v, none], [none, v], [none, v], [none, v], [none, v], [none, v]]⟩
      y := ⟨1, [[v], [v], [v], [v], [v], [v]]⟩, s := none, feat := ["f", "g"]
      inst := [1, 2, 3, 4, 5, 6] } ["a"] none none
    ⟨{ x := ⟨1, [[none], [v], [v], [v], [v], [v]]⟩, y := ⟨1, [[v], [v], [v], [v], [v], [v]]⟩
       s := none, feat := ["g"], inst := [1, 2, 3, 4, 5, 6] }, ["a"]⟩ [1]
    (by
      constructor
      · intro row hr; simp at hr; rcases hr with rfl | rfl <;> rfl
      · intro row hr; simp at hr; subst hr; rfl
      · rfl
      · rfl
      · rfl
      · intro s hs; cases hs)
    rfl (by decide) (by decide) (by decide) (by decide) rfl (by
      intro j l hj hne
      match j with
      | 0 => simp at hj; subst hj; decide
      | 1 => simp at hne
      | _ + 2 => simp at hj)
  have e : ((run (I := Nat) (S := Nat) Option.isNone (Data.features [1]
    { x := ⟨2, [[v, none], [none, v], [none, v], [none, v], [none, v], [none, v]]⟩
      y := ⟨1, [[v], [v], [v], [v], [v], [v]]⟩, s := none, feat := ["f", "g"]
      inst := [1, 2, 3, 4, 5, 6] }) ["a"] none none).toOption.map fun o => o.data.inst) =
      some [2, 3, 4, 5, 6] := rfl
  rw [this] at e
  exact absurd e (by decide)

end Verif.Preprocessing
