import Verif.EndToEnd.SubsetLemmas
import Verif.EndToEnd.OrderLemmas
import Verif.EndToEnd.RescoreLemmas
import Verif.EndToEnd.SpecColumns
/-! The columns of the table in another order. -/
set_option autoImplicit false
set_option linter.unusedSectionVars false

namespace Verif.EndToEnd

open Verif (Num)
open Verif.Pipeline (Stg Name)
open Verif.Metadata (Table Squeezed Begins fromDataFrame Meta)
open Verif.Preprocessing (Lists Mat Chosen pick)
open Verif.Runner (Dict)

variable {V W : Type} {lower : String → String} {numeric : Squeezed V → Bool} {str : V → V}
  {num : V → Num} {env : Env V W} {t t' : Table V} {labels : List V}

/-! ### The table -/

theorem cell_perm (h : SameColumns t t') {a : String} {i : Nat} {v : V} : Cell t' a i v ↔ Cell t a i v := by
  unfold Cell
  simp only [h.2.mem_iff]

theorem wanted_perm (h : SameColumns t t') {Q : String → Prop} {list : Option (List String)} {a : String} :
    Wanted t' Q list a ↔ Wanted t Q list a := by
  unfold Wanted
  simp only [h.2.mem_iff]

theorem kept_perm (h : SameColumns t t') {rows : List Nat} (hk : KeptRows lower num env t rows) :
    KeptRows lower num env t' rows := by
  refine ⟨hk.increasing, fun i => ?_⟩
  rw [hk.exact]
  unfold HasSome
  simp only [cell_perm h, wanted_perm h, h.1]

theorem perm_one {α : Type} {l l' : List α} (h : l'.Perm l) (hl : l.length ≤ 1) : l' = l := by
  match l, hl with
  | [], _ => exact h.eq_nil
  | [a], _ => exact List.perm_singleton.1 h

theorem readable_perm (h : SameColumns t t') (ho : Readable lower env t labels) :
    Readable lower env t' labels where
  rect := by
    intro c hc
    rw [h.1]
    exact ho.rect c (h.2.mem_iff.1 hc)
  distinct := (h.2.map Prod.fst).nodup_iff.2 ho.distinct
  several := h.1 ▸ ho.several
  labels := by
    obtain ⟨name, hn⟩ := ho.labels
    exact ⟨name, by rw [perm_one (h.2.filter _) (by rw [hn]; simp), hn]⟩
  sources := by rw [(h.2.filter _).length_eq]; exact ho.sources
  tuples := ho.tuples

theorem meta_perm (h : SameColumns t t') (ho : Readable lower env t labels) :
    (fromDataFrame lower numeric str t').labels = (fromDataFrame lower numeric str t).labels ∧
    (fromDataFrame lower numeric str t').sources = (fromDataFrame lower numeric str t).sources := by
  obtain ⟨name, hn⟩ := ho.labels
  have e1 : t'.loc (Metadata.isName lower) = t.loc (Metadata.isName lower) := by
    unfold Table.loc Metadata.isName
    rw [h.1, perm_one (h.2.filter _) (by rw [hn]; simp)]
  have e2 : t'.loc (Metadata.isSource lower) = t.loc (Metadata.isSource lower) := by
    unfold Table.loc Metadata.isSource
    rw [h.1, perm_one (h.2.filter _) ho.sources]
  have e3 : (t'.cols.any fun c => Metadata.isSource lower c.1) = t.cols.any fun c => Metadata.isSource lower c.1 := by
    rw [Bool.eq_iff_iff, List.any_eq_true, List.any_eq_true]
    simp only [h.2.mem_iff]
  constructor <;> simp only [fromDataFrame, e1, e2, e3]

/-! ### Which features and algorithms remain -/

/-- Fewer than a fifth of the rows miss the feature. -/
def Dense (num : V → Num) (t : Table V) (rows : List Nat) (a : String) : Prop :=
  ∀ ms, Lists ms rows.length (fun k => ∃ i v, rows[k]? = some i ∧ Cell t a i v ∧ num v = .nan) →
    5 * ms.length < rows.length

theorem names_exact (ho : Readable lower env t labels) {rows : List Nat} (hk : KeptRows lower num env t rows)
    {inst : List V} {s : Option (List V)} {o : Preprocessing.Output Num String V V}
    (hi : (fromDataFrame lower numeric str t).labels = .series inst)
    (hs : ((fromDataFrame lower numeric str t).sources = none ∧ s = none) ∨
      ∃ l, (fromDataFrame lower numeric str t).sources = some (.series l) ∧ s = some l)
    (hrun : Preprocessing.run Num.isNan ⟨featMat num (fromDataFrame lower numeric str t),
      algoMat num (fromDataFrame lower numeric str t), s,
      (fromDataFrame lower numeric str t).featureNames, inst⟩
      (fromDataFrame lower numeric str t).algorithmNames env.feats env.algos = .ok o) :
    (∀ a, a ∈ o.algo ↔ Wanted t (Begins lower "algo_") env.algos a) ∧
    (∀ a, a ∈ o.data.feat ↔ Wanted t (Begins lower "feature_") env.feats a ∧ Dense num t rows a) := by
  obtain ⟨⟨fps, hf⟩, ⟨aps, ha⟩⟩ := Metadata.C47_columns lower numeric str t ho.rect
  obtain ⟨fits, -⟩ := meta_fits (num := num) ho hi hs
  generalize hm : fromDataFrame lower numeric str t = m at *
  obtain ⟨rows', fcols, acols, c1, c2, c3, c4, c5, c6, c7, c8, c9, c10, c11⟩ :=
    Preprocessing.C27_run_partial _ _ _ _ _ _ fits rfl (columns_nodup hf ho.distinct)
      (columns_nodup ha ho.distinct) hrun
  have hrows : rows' = rows := by
    refine Lists.unique (P := fun i => HasSome num t (Begins lower "feature_") env.feats i ∧
      HasSome num t (Begins lower "algo_") env.algos i) (n := t.nrows) ⟨c3.increasing, ?_⟩ hk
    intro i
    have e := c3.exact i
    simp only [featMat, algoMat] at e
    rw [hasSome_iff hf ho.rect ho.distinct num, hasSome_iff ha ho.rect ho.distinct num,
      List.length_map, hf.nrows] at e
    exact e
  subst hrows
  have hr : ∀ i ∈ rows', i < t.nrows := fun i hi => ((hk.exact i).1 hi).1
  have hmr : ∀ i ∈ rows', i < (m.features.map (·.map num)).length := by
    simpa [hf.nrows] using hr
  have hmiss : ∀ (j : Nat) (a : String), m.featureNames[j]? = some a → ∀ k : Nat,
      (Preprocessing.Missing Num.isNan ⟨(featMat num m).ncols, pick (featMat num m).rows rows'⟩ k j ↔
        ∃ i v, rows'[k]? = some i ∧ Cell t a i v ∧ num v = .nan) := by
    intro j a hj k
    unfold Preprocessing.Missing
    simp only [featMat]
    rw [Preprocessing.pick_getElem? _ _ hmr]
    have nan : ∀ x : Num, x.isNan = true ↔ x = .nan := by intro x; cases x <;> simp [Num.isNan]
    constructor
    · rintro ⟨row, v, h1, h2, h3⟩
      cases hk' : rows'[k]? with
      | none => rw [hk'] at h1; cases h1
      | some i =>
        rw [hk'] at h1
        simp only [Option.bind_some, List.getElem?_map, Option.map_eq_some_iff] at h1
        obtain ⟨r, h4, rfl⟩ := h1
        simp only [List.getElem?_map, Option.map_eq_some_iff] at h2
        obtain ⟨w, h5, rfl⟩ := h2
        exact ⟨i, w, rfl, (columns_cell hf ho.rect ho.distinct hj).1 (by rw [h4]; exact h5), (nan _).1 h3⟩
    · rintro ⟨i, v, h1, h2, h3⟩
      have := (columns_cell hf ho.rect ho.distinct hj).2 h2
      cases h4 : m.features[i]? with
      | none => rw [h4] at this; cases this
      | some r =>
        rw [h4] at this
        exact ⟨r.map num, num v, by simp [h1, h4], by
          rw [List.getElem?_map]
          simp only [Option.bind_some] at this
          rw [this]; rfl, (nan _).2 h3⟩
  constructor
  · intro a
    rw [c9]
    constructor
    · intro hm'
      obtain ⟨j, hj, hja⟩ := List.mem_filterMap.1 hm'
      exact (chosen_wanted ha hja).1 ((c1.exact j).1 hj).2
    · intro hw
      obtain ⟨j, hj, rfl⟩ := List.getElem_of_mem ((columns_mem ha a).2 ⟨hw.1, hw.2.1⟩)
      have hja := List.getElem?_eq_getElem hj
      exact List.mem_filterMap.2 ⟨j, (c1.exact j).2 ⟨hj, (chosen_wanted ha hja).2 hw⟩, hja⟩
  · intro a
    rw [c6]
    have conv : ∀ j : Nat, m.featureNames[j]? = some a →
        ((Chosen m.featureNames env.feats j ∧ ∀ ms, Lists ms rows'.length (fun i =>
          Preprocessing.Missing Num.isNan ⟨(featMat num m).ncols, pick (featMat num m).rows rows'⟩ i j) →
          5 * ms.length < rows'.length) ↔
        Wanted t (Begins lower "feature_") env.feats a ∧ Dense num t rows' a) := by
      intro j hj
      rw [chosen_wanted hf hj]
      unfold Dense
      have : (fun i => Preprocessing.Missing Num.isNan
          ⟨(featMat num m).ncols, pick (featMat num m).rows rows'⟩ i j) =
          fun k => ∃ i v, rows'[k]? = some i ∧ Cell t a i v ∧ num v = .nan :=
        funext fun k => propext (hmiss j a hj k)
      rw [this]
    constructor
    · intro hm'
      obtain ⟨j, hj, hja⟩ := List.mem_filterMap.1 hm'
      exact (conv j hja).1 ((c2.exact j).1 hj).2
    · intro hw
      obtain ⟨j, hj, rfl⟩ := List.getElem_of_mem ((columns_mem hf a).2 ⟨hw.1.1, hw.1.2.1⟩)
      have hja := List.getElem?_eq_getElem hj
      exact List.mem_filterMap.2 ⟨j, (c2.exact j).2 ⟨hj, (conv j hja).2 hw⟩, hja⟩

theorem dense_perm (h : SameColumns t t') {rows : List Nat} {a : String} :
    Dense num t' rows a ↔ Dense num t rows a := by
  unfold Dense
  simp only [cell_perm h]

/-! ### The arrays -/

theorem located_perm (h : SameColumns t t') (ho : Readable lower env t labels) {rows τ : List Nat} {names names' : List String}
    {m m' : List (List Num)} (hl : Located num t rows names m) (hl' : Located num t' rows names' m')
    (hτ : τ.Perm (List.range names.length)) (hn : names' = pick names τ) :
    m' = m.map (pick · τ) := by
  subst hn
  have hlt := perm_lt hτ
  have hlen : (pick names τ).length = names.length := pick_perm_length hτ rfl
  apply List.ext_getElem (by rw [List.length_map, hl.nrows, hl'.nrows])
  intro k h1 h2
  have hk : k < rows.length := by rw [← hl'.nrows]; exact h1
  have hkm : k < m.length := by rw [hl.nrows]; exact hk
  have hki := List.getElem?_eq_getElem hk
  rw [List.getElem_map]
  have r1 : m'[k].length = names.length := by rw [hl'.ncols _ (List.getElem_mem h1), hlen]
  have r2 : m[k].length = names.length := hl.ncols _ (List.getElem_mem hkm)
  have r3 : (pick m[k] τ).length = names.length := pick_perm_length hτ r2
  apply List.ext_getElem (by rw [r1, r3])
  intro j g1 g2
  have hj : j < (pick names τ).length := by rw [hlen, ← r1]; exact g1
  have hjτ : j < τ.length := by rw [perm_length hτ, ← hlen]; exact hj
  have hja := List.getElem?_eq_getElem hj
  obtain ⟨v, hv⟩ := hl'.all k _ j _ hki hja
  have e1 := hl'.cells k _ j _ v hki hja hv
  rw [List.getElem?_eq_getElem h1, Option.bind_some, List.getElem?_eq_getElem g1] at e1
  have hτj := List.getElem?_eq_getElem hjτ
  have hna : names[τ[j]]? = some (pick names τ)[j] := by
    rw [← hja, Preprocessing.pick_getElem? _ _ hlt, hτj]; rfl
  have e2 := hl.cells k _ τ[j] _ v hki hna ((cell_perm h).1 hv)
  rw [List.getElem?_eq_getElem hkm, Option.bind_some] at e2
  have e3 : (pick m[k] τ)[j]? = some (num v) := by
    rw [Preprocessing.pick_getElem? _ _ (by rw [r2]; exact hlt), hτj]
    exact e2
  rw [List.getElem?_eq_getElem g2] at e3
  exact (Option.some.inj e1).trans (Option.some.inj e3).symm

/-- Entries under the same name. -/
theorem agree_pick {α : Type} {names : List String} {τ : List Nat} {m : List (List α)} (hnd : names.Nodup)
    (hτ : τ.Perm (List.range names.length)) (hr : ∀ r ∈ m, r.length = names.length) :
    AgreeByName names (pick names τ) m (m.map (pick · τ)) := by
  refine ⟨by simp, ?_⟩
  intro j j' a hj hj' k v
  have hlt := perm_lt hτ
  obtain ⟨q, hq, hqa⟩ := of_pick hlt hj'
  have hqj : q = j := by
    have h1 := (List.getElem?_eq_some_iff.1 hqa).1
    have h2 := (List.getElem?_eq_some_iff.1 hj).1
    exact (List.Nodup.getElem_inj_iff hnd).1 (Option.some.inj ((List.getElem?_eq_getElem h1).symm.trans
      (hqa.trans (hj.symm.trans (List.getElem?_eq_getElem h2)))))
  subst hqj
  unfold At
  rw [List.getElem?_map]
  cases hk : m[k]? with
  | none => simp
  | some r =>
    have := hr r (List.mem_of_getElem? hk)
    simp only [Option.map_some, Option.some.injEq, exists_eq_left']
    rw [at_pick (by rw [this]; exact hlt) hq]

theorem columns_sub {n : Nat} {m : List (List Num)} {τ : List Nat} (hτ : τ.Perm (List.range n))
    (hr : ∀ r ∈ m, r.length = n) :
    Prelim.columns n (m.map (pick · τ)) = pick (Prelim.columns n m) τ := by
  have hlt := perm_lt hτ
  apply List.ext_getElem?
  intro j
  have hc : (Prelim.columns n m).length = n := by simp [Prelim.columns]
  rw [Preprocessing.pick_getElem? _ _ (by rw [hc]; exact hlt)]
  unfold Prelim.columns
  by_cases hj : j < n
  · have hjτ : j < τ.length := by rw [perm_length hτ]; exact hj
    have hq := hlt _ (List.getElem_mem hjτ)
    simp only [List.getElem?_map, List.getElem?_range hj, List.getElem?_eq_getElem hjτ, Option.map_some,
      Option.bind_some, List.getElem?_range hq, Option.some.injEq, List.map_map]
    apply List.map_congr_left
    intro r hrm
    simp only [Function.comp, List.getD_eq_getElem?_getD]
    rw [at_pick (by rw [hr r hrm]; exact hlt) (List.getElem?_eq_getElem hjτ)]
  · rw [List.getElem?_eq_none (by simpa using hj), List.getElem?_eq_none (l := τ)
      (by rw [perm_length hτ]; omega)]
    rfl

theorem normY_sub (tr : List Num → List Num) {cols : List (List Num)} {τ : List Nat}
    (hτ : τ.Perm (List.range cols.length)) :
    Prelim.normY tr (pick cols τ) = pick (Prelim.normY tr cols) τ := by
  have hp : (pick cols τ).flatten.Perm cols.flatten := (Preprocessing.pick_perm hτ).flatten
  unfold Prelim.normY
  cases h : cols.flatten with
  | nil =>
    rw [h] at hp
    rw [hp.eq_nil]
  | cons a l =>
    cases h' : (pick cols τ).flatten with
    | nil => rw [h, h'] at hp; exact absurd hp.symm.eq_nil (by simp)
    | cons b l' =>
      rw [h, h'] at hp
      dsimp only
      rw [Prelim.npMin_perm hp, Preprocessing.pick_map]

theorem rowsOf_sub (n : Nat) (cols : List (List Num)) (τ : List Nat) :
    rowsOf n (pick cols τ) = (rowsOf n cols).map (pick · τ) := by
  unfold rowsOf
  rw [List.map_map]
  apply List.map_congr_left
  intro i _
  simp only [Function.comp, Preprocessing.pick_map]

theorem outX_sub (o : Prelim.Opts) (junk : Num × Num) (tr : List Num → List Num) (cols : List (List Num))
    (τ : List Nat) : Prelim.outX o junk tr (pick cols τ) = pick (Prelim.outX o junk tr cols) τ := by
  unfold Prelim.outX
  cases o.bound <;> cases o.norm <;> simp [Preprocessing.pick_map]

/-- PRELIM on the algorithms in another order. -/
theorem rows_sub {o : Prelim.Opts} {m : List (List Num)} {n : Nat} {τ : List Nat} {outs outs' : List Prelim.Row}
    (hτ : τ.Perm (List.range n)) (hr : ∀ r ∈ m, r.length = n) (h : Prelim.rows o m = some outs)
    (h' : Prelim.rows o (m.map (pick · τ)) = some outs') :
    outs'.map (·.yBin) = (outs.map (·.yBin)).map (pick · τ) ∧
    outs'.map (·.y) = (outs.map (·.y)).map (pick · τ) ∧
    outs'.map (·.yIn) = (outs.map (·.yIn)).map (pick · τ) ∧
    outs'.map (·.yBest) = outs.map (·.yBest) ∧ outs'.map (·.numGood) = outs.map (·.numGood) ∧
    outs'.map (·.beta) = outs.map (·.beta) := by
  obtain ⟨l1, r1⟩ := outs_row h
  obtain ⟨l2, r2⟩ := outs_row h'
  rw [List.length_map] at l2
  have key : ∀ (k : Nat) (h1 : k < outs.length) (h2 : k < outs'.length),
      outs'[k].yBin = pick outs[k].yBin τ ∧ outs'[k].y = pick outs[k].y τ ∧
      outs'[k].yIn = pick outs[k].yIn τ ∧ outs'[k].yBest = outs[k].yBest ∧
      outs'[k].numGood = outs[k].numGood ∧ outs'[k].beta = outs[k].beta := by
    intro k h1 h2
    have hk : k < m.length := by omega
    obtain ⟨o1, a1, a2⟩ := r1 k m[k] (List.getElem?_eq_getElem hk)
    obtain ⟨o2, b1, b2⟩ := r2 k (pick m[k] τ) (by simp [List.getElem?_eq_getElem hk])
    rw [List.getElem?_eq_getElem h1] at a1
    rw [List.getElem?_eq_getElem h2] at b1
    cases a1
    cases b1
    have hlen := hr _ (List.getElem_mem hk)
    obtain ⟨e1, e2, e3, e4, e5, -⟩ := Prelim.C141_algorithms o m[k] τ outs[k] outs'[k]
      (by rw [hlen]; exact hτ) a2 b2
    refine ⟨e1, e2, ?_, e3, e4, e5⟩
    rw [(Prelim.rowStep_parts a2).1, (Prelim.rowStep_parts b2).1]
    cases o.absPerf <;> simp [Preprocessing.pick_map]
  have lift : ∀ {β : Type} (f : Prelim.Row → β) (g : β → β),
      (∀ (k : Nat) (h1 : k < outs.length) (h2 : k < outs'.length), f outs'[k] = g (f outs[k])) →
      outs'.map f = (outs.map f).map g := by
    intro β f g hfg
    apply List.ext_getElem (by simp; omega)
    intro k g1 g2
    simp only [List.getElem_map]
    exact hfg k (by simpa using g2) (by simpa using g1)
  refine ⟨lift _ _ fun k h1 h2 => (key k h1 h2).1, lift _ _ fun k h1 h2 => (key k h1 h2).2.1,
    lift _ _ fun k h1 h2 => (key k h1 h2).2.2.1, ?_, ?_, ?_⟩
  · simpa using lift _ id fun k h1 h2 => (key k h1 h2).2.2.2.1
  · simpa using lift _ id fun k h1 h2 => (key k h1 h2).2.2.2.2.1
  · simpa using lift _ id fun k h1 h2 => (key k h1 h2).2.2.2.2.2

theorem rows_widths {o : Prelim.Opts} {m : List (List Num)} {n : Nat} {outs : List Prelim.Row}
    (hr : ∀ r ∈ m, r.length = n) (h : Prelim.rows o m = some outs) :
    (∀ r ∈ outs.map (·.yBin), r.length = n) ∧ (∀ r ∈ outs.map (·.y), r.length = n) ∧
      ∀ r ∈ outs.map (·.yIn), r.length = n := by
  rw [Prelim.rows_iff] at h
  have key : ∀ out ∈ outs, out.yBin.length = n ∧ out.y.length = n ∧ out.yIn.length = n := by
    intro out ho
    have : some out ∈ m.map (Prelim.rowStep o) := by rw [h]; exact List.mem_map_of_mem ho
    obtain ⟨r, hrm, hs⟩ := List.mem_map.1 this
    have hl := hr r hrm
    obtain ⟨p1, p2⟩ := Prelim.rowStep_parts hs
    have hyin : out.yIn.length = n := by rw [p1]; split <;> simp [hl]
    refine ⟨?_, ?_, hyin⟩
    · obtain ⟨b, -, -, -, h4, -⟩ := Prelim.rowStep_some hs
      rw [h4, List.length_map, hl]
    · rw [p2]; split <;> simp [hyin]
  refine ⟨?_, ?_, ?_⟩ <;>
  · intro r hrm
    obtain ⟨out, ho, rfl⟩ := List.mem_map.1 hrm
    have := key out ho
    tauto

theorem outY_sub {o : Prelim.Opts} {tr : List Num → List Num} {m : List (List Num)} {n : Nat} {τ : List Nat}
    {ys ys' : List (List Num)} (hτ : τ.Perm (List.range n)) (hr : ∀ r ∈ m, r.length = n)
    (h : Prelim.outY o tr n m = some ys) (h' : Prelim.outY o tr n (m.map (pick · τ)) = some ys') :
    ys' = pick ys τ := by
  unfold Prelim.outY at h h'
  obtain ⟨outs, ho, rfl⟩ := Option.map_eq_some_iff.1 h
  obtain ⟨outs', ho', rfl⟩ := Option.map_eq_some_iff.1 h'
  obtain ⟨-, e2, e3, -⟩ := rows_sub hτ hr ho ho'
  obtain ⟨-, w2, w3⟩ := rows_widths hr ho
  have e2' : List.map Prelim.Row.y outs' = (outs.map Prelim.Row.y).map (pick · τ) := e2
  have e3' : List.map Prelim.Row.yIn outs' = (outs.map Prelim.Row.yIn).map (pick · τ) := e3
  rw [e2', e3', columns_sub hτ w2, columns_sub hτ w3, normY_sub]
  · split <;> rfl
  · simpa [Prelim.columns] using hτ

/-! ### Subsets -/

theorem same_subset {X Y B N T P L S : Type} {so : Prelim.SubsetOpts} {tests : Filter.Tests (X × Y × B)}
    {nf nf' : Nat} {split : Option (List Nat)} {file : Option (List Int)} {n : Nat}
    {A b A' b' : Prelim.Arrays X Y B N T P L S} {dd dd' : Option (Prelim.Arrays X Y B N T P L S)}
    (hd : ¬ Prelim.UsesDensity so) (hA : A.Fits n) (hA' : A'.Fits n)
    (h : Prelim.filter so tests nf split file A = .ok (b, dd))
    (h' : Prelim.filter so tests nf' split file A' = .ok (b', dd')) :
    ∃ is : List Nat, is.Pairwise (· < ·) ∧ (∀ i ∈ is, i < n) ∧ Prelim.SamePicks is A b ∧
      Prelim.SamePicks is A' b' := by
  obtain ⟨m, h1, h2, h3, -⟩ := Prelim.filter_ok hA h
  obtain ⟨m', h1', h2', h3', -⟩ := Prelim.filter_ok hA' h'
  have hx : A'.x.length = A.x.length := by rw [hA.x, hA'.x]
  have : m' = m := by
    unfold Prelim.subsetIndex at h1 h1'
    rw [hx] at h1'
    by_cases hf : so.fractional = true
    · rw [if_pos hf] at h1 h1'
      rw [h1] at h1'
      exact (Except.ok.inj h1').symm
    · rw [if_neg hf] at h1 h1'
      by_cases hi : so.fileIndexed = true
      · rw [if_pos hi] at h1 h1'
        rw [h1] at h1'
        exact (Except.ok.inj h1').symm
      · rw [if_neg hi] at h1 h1'
        have hb : ¬ so.byDensity = true := by
          intro hb
          refine hd ⟨fun h => hf ((Prelim.fractional_iff so).2 h), ?_, (Prelim.byDensity_iff so).1 hb⟩
          rintro ⟨-, g1, g2⟩
          exact hi (by simp [Prelim.SubsetOpts.fileIndexed, g1, g2])
        rw [if_neg hb] at h1 h1'
        cases h1
        cases h1'
        rw [List.map_const', List.map_const', hx]
  subst this
  refine ⟨Prelim.trues m', Prelim.trues_increasing m', ?_, h3, h3'⟩
  intro i hi
  unfold Prelim.trues at hi
  rw [List.mem_filter, List.mem_range, h2] at hi
  exact hi.1

end Verif.EndToEnd
