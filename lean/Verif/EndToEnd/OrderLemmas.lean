import Verif.EndToEnd.Props
import Verif.EndToEnd.SpecOrder
import Verif.Preprocessing.PropsOrder
import Verif.Prelim.PropsMeta
/-! The metadata and the stages on a table with its rows in another order. -/
set_option autoImplicit false
set_option linter.unusedSectionVars false

namespace Verif.EndToEnd

open Verif (Num)
open Verif.Pipeline (Stg Name)
open Verif.Metadata (Table Squeezed Begins fromDataFrame Meta)
open Verif.Preprocessing (Mat pick)
open Verif.Runner (Dict)

variable {V W : Type} {lower : String → String} {numeric : Squeezed V → Bool} {str : V → V}
  {num : V → Num} {env : Env V W} {t : Table V} {labels : List V} {σ : List Nat}

theorem pick_eq {α : Type} (l : List α) (is : List Nat) : Prelim.pick is l = pick l is := rfl
theorem pick_eq' {α : Type} (l : List α) (is : List Nat) : Sifted.pick l is = pick l is := rfl

theorem perm_lt {n : Nat} (h : σ.Perm (List.range n)) : ∀ i ∈ σ, i < n := fun i hi => by
  simpa using h.mem_iff.1 hi

theorem perm_length {n : Nat} (h : σ.Perm (List.range n)) : σ.length = n := by
  simpa using h.length_eq

theorem pick_perm_length {α : Type} {n : Nat} (h : σ.Perm (List.range n)) {l : List α}
    (hl : l.length = n) : (pick l σ).length = n := by
  rw [Preprocessing.pick_length _ _ (by rw [hl]; exact perm_lt h), perm_length h]

theorem loc_reordered (mask : String → Bool) : (reordered σ t).loc mask = reordered σ (t.loc mask) := by
  simp only [reordered, Table.loc, List.filter_map]
  rfl

theorem toNumpy_reordered (ht : t.Rect) (hσ : σ.Perm (List.range t.nrows)) :
    (reordered σ t).toNumpy = pick t.toNumpy σ := by
  have hlt := perm_lt hσ
  apply List.ext_getElem?
  intro k
  rw [Preprocessing.pick_getElem? _ _ (by simpa [Table.toNumpy] using hlt)]
  simp only [Table.toNumpy, reordered, List.getElem?_map]
  by_cases hk : k < t.nrows
  · have hk' : k < σ.length := by rw [perm_length hσ]; exact hk
    rw [List.getElem?_range hk, List.getElem?_eq_getElem hk']
    have hi : σ[k] < t.nrows := hlt _ (List.getElem_mem hk')
    simp only [Option.bind_some, Option.map_some, List.getElem?_range hi, Option.some.injEq, Table.row,
      List.filterMap_map]
    apply Preprocessing.filterMap_congr'
    intro c hc
    simp only [Function.comp]
    rw [Preprocessing.pick_getElem? _ _ (by rw [ht c hc]; exact hlt), List.getElem?_eq_getElem hk']
    rfl
  · have hk' : ¬ k < σ.length := by rw [perm_length hσ]; exact hk
    rw [List.getElem?_eq_none (by simpa using hk), List.getElem?_eq_none (by simpa using hk')]
    rfl

theorem rect_loc (ht : t.Rect) (mask : String → Bool) : (t.loc mask).Rect :=
  fun c hc => ht c (List.mem_filter.1 hc).1

theorem rect_reordered (ht : t.Rect) (hσ : σ.Perm (List.range t.nrows)) : (reordered σ t).Rect := by
  intro c hc
  obtain ⟨c', hc', rfl⟩ := List.mem_map.1 hc
  exact pick_perm_length hσ (ht c' hc')

theorem ordinary_reordered (ho : Ordinary lower env t labels) (hσ : σ.Perm (List.range t.nrows)) :
    Ordinary lower env (reordered σ t) (pick labels σ) where
  rect := rect_reordered ho.rect hσ
  distinct := by
    have : (reordered σ t).cols.map Prod.fst = t.cols.map Prod.fst := by
      simp only [reordered, List.map_map]; rfl
    rw [this]
    exact ho.distinct
  several := ho.several
  labels := by
    obtain ⟨name, hone⟩ := ho.labels
    refine ⟨name, ?_⟩
    simp only [reordered, List.filter_map]
    have : (t.cols.filter ((fun c => lower c.1 == "instances") ∘ fun c => (c.1, pick c.2 σ))) =
        [(name, labels)] := hone
    rw [this]
    rfl
  sources := by
    simp only [reordered, List.filter_map, List.length_map]
    exact ho.sources
  tuples := ho.tuples
  noFraction := ho.noFraction
  noFile := ho.noFile
  noDensity := ho.noDensity

theorem squeeze_one {u : Table V} {c : String × List V} (hc : u.cols = [c]) (hn : u.nrows ≠ 1) :
    u.squeeze = .series c.2 := by
  unfold Table.squeeze
  rw [hc]
  simp only
  split
  · exact absurd ‹_› hn
  · rfl

theorem labels_eq (ho : Ordinary lower env t labels) :
    (fromDataFrame lower numeric str t).labels =
      .series (labels.map (if numeric (.series labels) then str else id)) := by
  obtain ⟨name, hone⟩ := ho.labels
  have h : (t.loc (Metadata.isName lower)).squeeze = .series labels :=
    squeeze_one (u := t.loc (Metadata.isName lower)) (c := (name, labels)) hone ho.several
  simp only [fromDataFrame, h]
  split <;> rename_i hn
  · simp [hn, Squeezed.astype]
  · simp [hn]

theorem sources_reordered (ho : Ordinary lower env t labels) (σ : List Nat) :
    ((fromDataFrame lower numeric str t).sources = none →
      (fromDataFrame lower numeric str (reordered σ t)).sources = none) ∧
    (∀ l, (fromDataFrame lower numeric str t).sources = some (.series l) →
      (fromDataFrame lower numeric str (reordered σ t)).sources = some (.series (pick l σ))) := by
  have hany : ((reordered σ t).cols.any fun c => Metadata.isSource lower c.1) =
      t.cols.any fun c => Metadata.isSource lower c.1 := by
    simp only [reordered, List.any_map]
    rfl
  constructor
  · intro h
    simp only [fromDataFrame] at h ⊢
    rw [hany]
    split at h
    · cases h
    · rename_i hn
      simp [hn]
  · intro l h
    obtain ⟨name, hone, -⟩ := sources_series ho.toReadable h
    simp only [fromDataFrame] at h ⊢
    rw [hany]
    split at h
    · rename_i hn
      simp only [hn, if_true]
      rw [loc_reordered, squeeze_one (u := reordered σ (t.loc (Metadata.isSource lower)))
        (c := (name, pick l σ)) ?_ ho.several]
      simp only [reordered]
      rw [show (t.loc (Metadata.isSource lower)).cols = [(name, l)] from hone]
      rfl
    · cases h

theorem kept_exists (lower : String → String) (num : V → Num) (env : Env V W) (t : Table V) :
    ∃ rows, KeptRows lower num env t rows := by
  classical
  refine ⟨(List.range t.nrows).filter fun i => decide (HasSome num t (Begins lower "feature_") env.feats i ∧
    HasSome num t (Begins lower "algo_") env.algos i), ?_, ?_⟩
  · exact List.pairwise_lt_range.filter _
  · intro i
    simp only [List.mem_filter, List.mem_range, decide_eq_true_eq]

/-- The arrays the first stage receives fit together. -/
theorem meta_fits (ho : Readable lower env t labels) {inst : List V} {s : Option (List V)}
    (hi : (fromDataFrame lower numeric str t).labels = .series inst)
    (hs : ((fromDataFrame lower numeric str t).sources = none ∧ s = none) ∨
      ∃ l, (fromDataFrame lower numeric str t).sources = some (.series l) ∧ s = some l) :
    (⟨featMat num (fromDataFrame lower numeric str t), algoMat num (fromDataFrame lower numeric str t), s,
      (fromDataFrame lower numeric str t).featureNames, inst⟩ :
      Preprocessing.Data Num String V V).Fits ∧
    (featMat num (fromDataFrame lower numeric str t)).rows.length = t.nrows := by
  obtain ⟨⟨fps, hf⟩, ⟨aps, ha⟩⟩ := Metadata.C47_columns lower numeric str t ho.rect
  obtain ⟨f, hf1, hf2, hf3⟩ := labels_series ho hi
  have hsl : ∀ l, s = some l → l.length = t.nrows := by
    intro l hl
    rcases hs with ⟨-, rfl⟩ | ⟨l', h1, h2⟩
    · cases hl
    · rw [hl] at h2
      cases h2
      obtain ⟨-, -, h3⟩ := sources_series ho h1
      exact h3
  generalize hm : fromDataFrame lower numeric str t = m at *
  refine ⟨?_, by simp only [featMat, List.length_map, hf.nrows]⟩
  constructor
  · intro r hr
    obtain ⟨r', hr', rfl⟩ := List.mem_map.1 hr
    simp only [featMat, List.length_map]
    rw [hf.ncols r' hr', columns_length hf]
  · intro r hr
    obtain ⟨r', hr', rfl⟩ := List.mem_map.1 hr
    simp only [algoMat, List.length_map]
    rw [ha.ncols r' hr', columns_length ha]
  · rfl
  · simp only [featMat, algoMat, List.length_map]
    rw [hf.nrows, ha.nrows]
  · simp only [featMat, List.length_map, hf2, hf.nrows, hf3]
  · intro l hl
    simp only [featMat, List.length_map, hf.nrows]
    exact hsl l hl

theorem mats_reordered (ht : t.Rect) (hσ : σ.Perm (List.range t.nrows)) :
    featMat num (fromDataFrame lower numeric str (reordered σ t)) =
      ⟨(featMat num (fromDataFrame lower numeric str t)).ncols,
        pick (featMat num (fromDataFrame lower numeric str t)).rows σ⟩ ∧
    algoMat num (fromDataFrame lower numeric str (reordered σ t)) =
      ⟨(algoMat num (fromDataFrame lower numeric str t)).ncols,
        pick (algoMat num (fromDataFrame lower numeric str t)).rows σ⟩ ∧
    (fromDataFrame lower numeric str (reordered σ t)).featureNames =
      (fromDataFrame lower numeric str t).featureNames ∧
    (fromDataFrame lower numeric str (reordered σ t)).algorithmNames =
      (fromDataFrame lower numeric str t).algorithmNames := by
  have names : ∀ mask : String → Bool, (reordered σ (t.loc mask)).cols.map Prod.fst =
      (t.loc mask).cols.map Prod.fst := by
    intro mask
    simp only [reordered, List.map_map]
    rfl
  have e1 := toNumpy_reordered (rect_loc ht (Metadata.isFeat lower)) (σ := σ) hσ
  have e2 := toNumpy_reordered (rect_loc ht (Metadata.isAlgo lower)) (σ := σ) hσ
  refine ⟨?_, ?_, ?_, ?_⟩
  · simp only [featMat, fromDataFrame, loc_reordered, names, e1, Preprocessing.pick_map]
  · simp only [algoMat, fromDataFrame, loc_reordered, names, e2, Preprocessing.pick_map]
  · simp only [fromDataFrame, loc_reordered, names]
  · simp only [fromDataFrame, loc_reordered, names]

theorem rowsOf_pick {n : Nat} {τ : List Nat} (hτ : τ.Perm (List.range n)) {cols : List (List Num)}
    (hc : ∀ c ∈ cols, c.length = n) :
    rowsOf n (cols.map fun c => pick c τ) = pick (rowsOf n cols) τ := by
  have hlt := perm_lt hτ
  apply List.ext_getElem?
  intro k
  rw [Preprocessing.pick_getElem? _ _ (by simpa [rowsOf] using hlt)]
  simp only [rowsOf, List.getElem?_map]
  by_cases hk : k < n
  · have hk' : k < τ.length := by rw [perm_length hτ]; exact hk
    rw [List.getElem?_range hk, List.getElem?_eq_getElem hk']
    have hi : τ[k] < n := hlt _ (List.getElem_mem hk')
    simp only [Option.bind_some, Option.map_some, List.getElem?_range hi, Option.some.injEq,
      List.map_map]
    apply List.map_congr_left
    intro c hc'
    simp only [Function.comp, List.getD_eq_getElem?_getD]
    rw [Preprocessing.pick_getElem? _ _ (by rw [hc c hc']; exact hlt), List.getElem?_eq_getElem hk']
    rfl
  · have hk' : ¬ k < τ.length := by rw [perm_length hτ]; exact hk
    rw [List.getElem?_eq_none (by simpa using hk), List.getElem?_eq_none (by simpa using hk')]
    rfl

theorem refill_length (l ts : List Num) : (Prelim.refill l ts).length = l.length := by
  induction l generalizing ts with
  | nil => rfl
  | cons v l ih =>
    cases ts <;> simp only [Prelim.refill] <;> split <;> simp [ih]

theorem columns_len (n : Nat) (m : List (List Num)) : ∀ c ∈ Prelim.columns n m, c.length = m.length := by
  intro c hc
  obtain ⟨j, -, rfl⟩ := List.mem_map.1 hc
  simp

theorem outX_len (o : Prelim.Opts) (junk : Num × Num) (tr : List Num → List Num) {n : Nat}
    {cols : List (List Num)} (h : ∀ c ∈ cols, c.length = n) :
    ∀ c ∈ Prelim.outX o junk tr cols, c.length = n := by
  have hn : ∀ c : List Num, (Prelim.normX tr c).length = c.length := by
    intro c
    cases c with
    | nil => rfl
    | cons a l => simp [Prelim.normX, Prelim.transform, refill_length]
  intro c hc
  unfold Prelim.outX at hc
  cases hb : o.bound <;> cases hm : o.norm <;>
    simp only [hb, hm, if_true, if_false, Bool.false_eq_true, List.mem_map] at hc
  · exact h c hc
  · obtain ⟨c', h', rfl⟩ := hc
    rw [hn]; exact h c' h'
  · obtain ⟨c', h', rfl⟩ := hc
    simp only [Prelim.boundCol, List.length_map]
    exact h c' h'
  · obtain ⟨c', ⟨c'', h', rfl⟩, rfl⟩ := hc
    rw [hn]
    simp only [Prelim.boundCol, List.length_map]
    exact h c'' h'

theorem outY_len {o : Prelim.Opts} {tr : List Num → List Num} {nalgos : Nat} {m cols : List (List Num)}
    (h : Prelim.outY o tr nalgos m = some cols) : ∀ c ∈ cols, c.length = m.length := by
  unfold Prelim.outY at h
  cases hr : Prelim.rows o m with
  | none => rw [hr] at h; cases h
  | some outs =>
    rw [hr] at h
    simp only [Option.map_some, Option.some.injEq] at h
    have hl := (outs_row hr).1
    intro c hc
    cases hm : o.norm <;> simp only [hm, if_true, if_false, Bool.false_eq_true] at h <;> subst h
    · rw [columns_len _ _ c hc, List.length_map, hl]
    · unfold Prelim.normY at hc
      split at hc
      · rw [columns_len _ _ c hc, List.length_map, hl]
      · obtain ⟨c', h', rfl⟩ := List.mem_map.1 hc
        simp only [Prelim.transform, refill_length, List.length_map]
        rw [columns_len _ _ c' h', List.length_map, hl]

theorem prelimX_pick (htr : Prelim.OrderBlind env.tr) {x : Mat Num} {τ : List Nat}
    (hτ : τ.Perm (List.range x.rows.length)) :
    prelimX env ⟨x.ncols, pick x.rows τ⟩ = pick (prelimX env x) τ := by
  unfold prelimX
  have hl : (pick x.rows τ).length = x.rows.length := pick_perm_length hτ rfl
  have e1 : Prelim.columns x.ncols (pick x.rows τ) =
      (Prelim.columns x.ncols x.rows).map (Prelim.pick τ) := Prelim.columns_pick _ _ _
  simp only [hl]
  rw [e1, Prelim.C142_features env.prelim env.junk env.tr htr x.rows.length τ hτ _ (columns_len _ _)]
  exact rowsOf_pick hτ (outX_len _ _ _ (columns_len _ _))

/-- What SIFTED returns about features, in terms of the features it selects. -/
theorem sifted_pick {α : Type} {lib : Sifted.Lib} {rho : List (List Num)} {thr : Num} {k nalgos : Nat}
    {x : List α} {feat : List String} {dense : Bool} {out : Sifted.Out α} (hl : feat.length = x.length)
    (h : Sifted.sifted lib rho thr k nalgos x feat dense = .ok out) :
    out.x = pick x out.selvars ∧ out.featLabels = pick feat out.selvars := by
  have al := Sifted.C69_aligned hl h
  constructor
  · apply List.ext_getElem?
    intro j
    rw [Preprocessing.pick_getElem? _ _ al.inRange]
    cases hj : out.selvars[j]? with
    | none =>
      rw [List.getElem?_eq_none]
      · rfl
      · rw [al.columns]; exact List.getElem?_eq_none_iff.1 hj
    | some i => exact (al.same j i hj).1
  · apply List.ext_getElem?
    intro j
    rw [Preprocessing.pick_getElem? _ _ (by rw [hl]; exact al.inRange)]
    cases hj : out.selvars[j]? with
    | none =>
      rw [List.getElem?_eq_none]
      · rfl
      · rw [al.names]; exact List.getElem?_eq_none_iff.1 hj
    | some i => exact (al.same j i hj).2

end Verif.EndToEnd
