import Verif.EndToEnd.Lemmas2
/-! From the metadata to the columns and rows of the table. -/
set_option autoImplicit false
set_option linter.unusedSectionVars false

namespace Verif.EndToEnd

open Verif (Num)
open Verif.Pipeline (Stg Name inputs outputs)
open Verif.Metadata (Table Squeezed Begins fromDataFrame Columns Meta)
open Verif.Preprocessing (Lists Mat Chosen pick)
open Verif.Runner (Dict override)

variable {V W : Type}

theorem pick_sublist {α : Type} (l : List α) (is : List Nat) (h : is.Pairwise (· < ·)) :
    (pick l is).Sublist l := by
  induction l generalizing is with
  | nil =>
    have : pick ([] : List α) is = [] := by
      induction is with
      | nil => rfl
      | cons i is ih => simpa [pick] using ih (List.pairwise_cons.1 h).2
    rw [this]
  | cons a l ih =>
    have shift : ∀ js : List Nat, (∀ j ∈ js, 0 < j) →
        pick (a :: l) js = pick l (js.map (· - 1)) := by
      intro js
      induction js with
      | nil => intro _; rfl
      | cons j js ihj =>
        intro hj
        obtain ⟨j', rfl⟩ : ∃ j', j = j' + 1 := ⟨j - 1, by have := hj j (by simp); omega⟩
        have := ihj fun i hi => hj i (by simp [hi])
        simp only [pick] at this ⊢
        simp only [List.filterMap_cons, List.getElem?_cons_succ, List.map_cons,
          Nat.add_sub_cancel, this]
    have inc : ∀ js : List Nat, (∀ j ∈ js, 0 < j) → js.Pairwise (· < ·) →
        (js.map (· - 1)).Pairwise (· < ·) := by
      intro js hj hp
      rw [List.pairwise_map]
      refine List.Pairwise.imp_of_mem ?_ hp
      intro x y hx hy hxy
      have := hj x hx
      omega
    cases is with
    | nil => exact List.nil_sublist _
    | cons i is =>
      obtain ⟨hi, hp⟩ := List.pairwise_cons.1 h
      cases i with
      | zero =>
        have hpos : ∀ j ∈ is, 0 < j := hi
        have : pick (a :: l) (0 :: is) = a :: pick (a :: l) is := by simp [pick]
        rw [this, shift is hpos]
        exact (ih _ (inc is hpos hp)).cons_cons a
      | succ i =>
        have hpos : ∀ j ∈ (i + 1) :: is, 0 < j := by
          intro j hj
          rcases List.mem_cons.1 hj with rfl | hj
          · omega
          · have := hi j hj; omega
        rw [shift _ hpos]
        exact (ih _ (inc _ hpos h)).cons a

section
variable {t : Table V} {Q : String → Prop} {names : List String} {rows : List (List V)} {ps : List Nat}

theorem columns_names (h : Columns t Q names rows ps) : names = pick (t.cols.map Prod.fst) ps := by
  rw [h.names]
  simp only [pick, List.getElem?_map]

theorem columns_range (h : Columns t Q names rows ps) : ∀ i ∈ ps, i < t.cols.length := by
  intro i hi
  obtain ⟨c, hc, -⟩ := (h.exact i).1 hi
  exact (List.getElem?_eq_some_iff.1 hc).1

theorem columns_length (h : Columns t Q names rows ps) : names.length = ps.length := by
  rw [columns_names h, Preprocessing.pick_length _ _ (by simpa using columns_range h)]

theorem columns_getElem (h : Columns t Q names rows ps) (j : Nat) :
    names[j]? = (ps[j]?).bind fun i => (t.cols[i]?).map Prod.fst := by
  rw [columns_names h, Preprocessing.pick_getElem? _ _ (by simpa using columns_range h)]
  simp only [List.getElem?_map]

theorem columns_mem (h : Columns t Q names rows ps) (a : String) :
    a ∈ names ↔ (∃ c ∈ t.cols, c.1 = a) ∧ Q a := by
  rw [h.names, List.mem_filterMap]
  constructor
  · rintro ⟨i, hi, hia⟩
    obtain ⟨c, hc, hq⟩ := (h.exact i).1 hi
    rw [hc] at hia
    simp only [Option.map_some, Option.some.injEq] at hia
    subst hia
    exact ⟨⟨c, List.mem_of_getElem? hc, rfl⟩, hq⟩
  · rintro ⟨⟨c, hc, rfl⟩, hq⟩
    obtain ⟨i, hi, rfl⟩ := List.getElem_of_mem hc
    exact ⟨i, (h.exact i).2 ⟨_, List.getElem?_eq_getElem hi, hq⟩, by
      rw [List.getElem?_eq_getElem hi]; rfl⟩

theorem same_column (hnd : (t.cols.map Prod.fst).Nodup) {c c' : String × List V} (hc : c ∈ t.cols)
    (hc' : c' ∈ t.cols) (h : c.1 = c'.1) : c = c' :=
  List.inj_on_of_nodup_map hnd hc hc' h

theorem cell_unique (hnd : (t.cols.map Prod.fst).Nodup) {a : String} {i : Nat} {v w : V}
    (h : Cell t a i v) (h' : Cell t a i w) : v = w := by
  obtain ⟨c, hc, e, hv⟩ := h
  obtain ⟨c', hc', e', hw⟩ := h'
  rw [same_column hnd hc hc' (e.trans e'.symm), hw] at hv
  exact (Option.some.inj hv).symm

theorem cell_lt (ht : t.Rect) {a : String} {i : Nat} {v : V} (h : Cell t a i v) : i < t.nrows := by
  obtain ⟨c, hc, -, hv⟩ := h
  rw [← ht c hc]
  exact (List.getElem?_eq_some_iff.1 hv).1

/-- An entry of the matrix is the cell of the column with its name. -/
theorem columns_cell (h : Columns t Q names rows ps) (ht : t.Rect)
    (hnd : (t.cols.map Prod.fst).Nodup) {j i : Nat} {a : String} {v : V} (hj : names[j]? = some a) :
    (rows[i]?.bind (·[j]?)) = some v ↔ Cell t a i v := by
  rw [columns_getElem h] at hj
  cases hp : ps[j]? with
  | none => rw [hp] at hj; cases hj
  | some q =>
    rw [hp] at hj
    simp only [Option.bind_some] at hj
    cases hc : t.cols[q]? with
    | none => rw [hc] at hj; cases hj
    | some c =>
      rw [hc] at hj
      simp only [Option.map_some, Option.some.injEq] at hj
      subst hj
      have hcm := List.mem_of_getElem? hc
      constructor
      · intro hv
        have hi : i < t.nrows := by
          rw [← h.nrows]
          by_contra hn
          rw [List.getElem?_eq_none (by omega)] at hv
          cases hv
        obtain ⟨row, h1, h2⟩ := h.cells j i q c hp hc hi
        rw [h1] at hv
        exact ⟨c, hcm, rfl, h2 ▸ hv⟩
      · intro hcell
        have hi := cell_lt ht hcell
        obtain ⟨c', hc', e, hv⟩ := hcell
        obtain rfl := same_column hnd hcm hc' e.symm
        obtain ⟨row, h1, h2⟩ := h.cells j i q c hp hc hi
        rw [h1]
        exact h2.trans hv

theorem columns_nodup (h : Columns t Q names rows ps) (hnd : (t.cols.map Prod.fst).Nodup) :
    names.Nodup := by
  rw [columns_names h]
  exact (pick_sublist _ _ h.increasing).nodup hnd

theorem chosen_wanted (h : Columns t Q names rows ps) {list : Option (List String)} {j : Nat}
    {a : String} (hj : names[j]? = some a) : Chosen names list j ↔ Wanted t Q list a := by
  have ha := (columns_mem h a).1 (List.mem_of_getElem? hj)
  unfold Chosen Wanted
  constructor
  · intro hc
    refine ⟨ha.1, ha.2, ?_⟩
    rintro l hl ⟨c, hc', hq, hm⟩
    obtain ⟨b, hb, hjb⟩ := hc l hl ⟨c.1, (columns_mem h _).2 ⟨⟨c, hc', rfl⟩, hq⟩, hm⟩
    rw [hj] at hjb
    cases hjb
    exact hb
  · rintro ⟨-, -, hw⟩ l hl ⟨b, hb, hbl⟩
    obtain ⟨⟨c, hc, rfl⟩, hq⟩ := (columns_mem h b).1 hb
    exact ⟨a, hw l hl ⟨c, hc, hq, hbl⟩, hj⟩

theorem isNan_iff (v : Num) : v.isNan = false ↔ v ≠ .nan := by cases v <;> simp [Num.isNan]

theorem hasSome_iff (h : Columns t Q names rows ps) (ht : t.Rect)
    (hnd : (t.cols.map Prod.fst).Nodup) (num : V → Num) (list : Option (List String)) (i : Nat) :
    (∃ j v, j < names.length ∧ Chosen names list j ∧
      ((rows.map (·.map num))[i]?.bind (·[j]?)) = some v ∧ v.isNan = false) ↔
    HasSome num t Q list i := by
  have entry : ∀ j : Nat, ((rows.map (·.map num))[i]?.bind (·[j]?)) =
      (rows[i]?.bind (·[j]?)).map num := by
    intro j
    rw [List.getElem?_map]
    cases rows[i]? with
    | none => rfl
    | some r => simp
  constructor
  · rintro ⟨j, v, hj, hc, hv, hn⟩
    have ha : names[j]? = some names[j] := List.getElem?_eq_getElem hj
    rw [entry] at hv
    cases hr : rows[i]?.bind (·[j]?) with
    | none => rw [hr] at hv; cases hv
    | some w =>
      rw [hr] at hv
      simp only [Option.map_some, Option.some.injEq] at hv
      subst hv
      exact ⟨names[j], w, (chosen_wanted h ha).1 hc, (columns_cell h ht hnd ha).1 hr,
        (isNan_iff _).1 hn⟩
  · rintro ⟨a, w, hw, hcell, hn⟩
    have ham := (columns_mem h a).2 ⟨hw.1, hw.2.1⟩
    obtain ⟨j, hj, rfl⟩ := List.getElem_of_mem ham
    have ha : names[j]? = some names[j] := List.getElem?_eq_getElem hj
    refine ⟨j, num w, hj, (chosen_wanted h ha).2 hw, ?_, (isNan_iff _).2 hn⟩
    rw [entry, (columns_cell h ht hnd ha).2 hcell]
    rfl

end

/-- The data of the Model and the table. -/
structure Located (num : V → Num) (t : Table V) (rows : List Nat) (names : List String)
    (m : List (List Num)) : Prop where
  distinct : names.Nodup
  nrows : m.length = rows.length
  ncols : ∀ r ∈ m, r.length = names.length
  cells : ∀ (k i j : Nat) (a : String) (v : V), rows[k]? = some i → names[j]? = some a → Cell t a i v →
    (m[k]?.bind (·[j]?)) = some (num v)
  all : ∀ (k i j : Nat) (a : String), rows[k]? = some i → names[j]? = some a → ∃ v, Cell t a i v

theorem located {t : Table V} {Q : String → Prop} {names : List String} {mat : List (List V)}
    {ps : List Nat} (h : Columns t Q names mat ps) (ht : t.Rect) (hnd : (t.cols.map Prod.fst).Nodup)
    (num : V → Num) {rows cols : List Nat} (hr : ∀ i ∈ rows, i < t.nrows)
    (hc : cols.Pairwise (· < ·)) (hcl : ∀ j ∈ cols, j < names.length) :
    Located num t rows (pick names cols)
      ((pick (mat.map (·.map num)) rows).map fun row => pick row cols) := by
  have hmr : ∀ i ∈ rows, i < (mat.map (·.map num)).length := by
    simpa [h.nrows] using hr
  have hpl : (pick (mat.map (·.map num)) rows).length = rows.length :=
    Preprocessing.pick_length _ _ hmr
  have rowl : ∀ r ∈ pick (mat.map (·.map num)) rows, r.length = names.length := by
    intro r hr'
    obtain ⟨r', hr1, rfl⟩ := List.mem_map.1 (Preprocessing.mem_pick hr')
    rw [List.length_map, h.ncols r' hr1, columns_length h]
  have cell : ∀ (k i j : Nat) (a : String), rows[k]? = some i → (pick names cols)[j]? = some a →
      ∃ q, cols[j]? = some q ∧ names[q]? = some a := by
    intro k i j a _ hj
    rw [Preprocessing.pick_getElem? _ _ hcl] at hj
    cases hq : cols[j]? with
    | none => rw [hq] at hj; cases hj
    | some q => rw [hq] at hj; exact ⟨q, rfl, hj⟩
  refine ⟨(pick_sublist _ _ hc).nodup (columns_nodup h hnd), by rw [List.length_map, hpl], ?_, ?_, ?_⟩
  · intro r hr'
    obtain ⟨r', hr1, rfl⟩ := List.mem_map.1 hr'
    rw [Preprocessing.pick_length _ _ (by rw [rowl r' hr1]; exact hcl),
      Preprocessing.pick_length _ _ hcl]
  · intro k i j a v hk hj hcell
    obtain ⟨q, hq, ha⟩ := cell k i j a hk hj
    have hv := (columns_cell h ht hnd ha).2 hcell
    rw [List.getElem?_map, Preprocessing.pick_getElem? _ _ hmr, hk]
    simp only [Option.bind_some, List.getElem?_map]
    cases hm : mat[i]? with
    | none => rw [hm] at hv; cases hv
    | some r =>
      rw [hm] at hv
      simp only [Option.bind_some] at hv
      simp only [Option.map_some, Option.bind_some]
      have hrl : r.length = names.length := by
        rw [h.ncols r (List.mem_of_getElem? hm), columns_length h]
      rw [Preprocessing.pick_getElem? _ _ (by rw [List.length_map, hrl]; exact hcl), hq]
      simp [hv]
  · intro k i j a hk hj
    obtain ⟨q, hq, ha⟩ := cell k i j a hk hj
    have hi := hr i (List.mem_of_getElem? hk)
    rw [← h.nrows] at hi
    have hql : q < mat[i].length := by
      rw [h.ncols _ (List.getElem_mem hi), ← columns_length h]
      exact (List.getElem?_eq_some_iff.1 ha).1
    exact ⟨mat[i][q], (columns_cell h ht hnd ha).1 (by
      rw [List.getElem?_eq_getElem hi, Option.bind_some, List.getElem?_eq_getElem hql])⟩

/-- The labels the metadata holds. -/
theorem labels_series {lower : String → String} {numeric : Squeezed V → Bool} {str : V → V}
    {env : Env V W} {t : Table V} {labels inst : List V} (ho : Readable lower env t labels)
    (h : (fromDataFrame lower numeric str t).labels = .series inst) :
    ∃ f, (f = id ∨ f = str) ∧ inst = labels.map f ∧ labels.length = t.nrows := by
  obtain ⟨name, hone⟩ := ho.labels
  have hl : labels.length = t.nrows := by
    have hm : (name, labels) ∈ t.cols.filter fun c => lower c.1 == "instances" := by simp [hone]
    exact ho.rect (name, labels) (List.mem_filter.1 hm).1
  rcases Metadata.C48_partial lower numeric str t name labels hone ho.several with h' | h' <;>
    rw [h] at h' <;> cases h'
  · exact ⟨id, .inl rfl, by simp, hl⟩
  · exact ⟨str, .inr rfl, rfl, hl⟩

/-- The sources the metadata holds. -/
theorem sources_series {lower : String → String} {numeric : Squeezed V → Bool} {str : V → V}
    {env : Env V W} {t : Table V} {labels l : List V} (ho : Readable lower env t labels)
    (h : (fromDataFrame lower numeric str t).sources = some (.series l)) :
    ∃ name, (t.cols.filter fun c => lower c.1 == "source") = [(name, l)] ∧ l.length = t.nrows := by
  simp only [fromDataFrame] at h
  split at h
  · rename_i hany
    simp only [Option.some.injEq] at h
    obtain ⟨c, hc⟩ : ∃ c, (t.cols.filter fun c => lower c.1 == "source") = [c] := by
      obtain ⟨c, hc, hs⟩ := List.any_eq_true.1 hany
      have hm : c ∈ t.cols.filter fun c => lower c.1 == "source" := List.mem_filter.2 ⟨hc, hs⟩
      have := ho.sources
      cases hf : t.cols.filter fun c => lower c.1 == "source" with
      | nil => rw [hf] at hm; cases hm
      | cons a r =>
        rw [hf] at this
        cases r with
        | nil => exact ⟨a, rfl⟩
        | cons b r => simp at this
    have hcols : (t.loc (Metadata.isSource lower)).cols = [c] := hc
    unfold Table.squeeze at h
    rw [hcols] at h
    dsimp only at h
    have hcr : c.2.length = t.nrows := by
      have hm : c ∈ t.cols.filter fun c => lower c.1 == "source" := by simp [hc]
      exact ho.rect c (List.mem_filter.1 hm).1
    split at h
    · cases h
    · cases h
      exact ⟨c.1, hc, hcr⟩
  · cases h

/-- Everything about a successful run that the theorems use. -/
theorem run_located {lower : String → String} {numeric : Squeezed V → Bool} {str : V → V}
    {num : V → Num} {env : Env V W} {t : Table V} {labels : List V} {d : Dict Name (Val V W)}
    (ho : Ordinary lower env t labels) (h : Succeeds lower numeric str num env t d) {rows : List Nat}
    (hk : KeptRows lower num env t rows) :
    ∃ inst s o outs ys sel f, Traced num env (fromDataFrame lower numeric str t) d inst s o outs ys sel ∧
      (f = id ∨ f = str) ∧ inst = labels.map f ∧ labels.length = t.nrows ∧
      o.data.inst = pick inst rows ∧ o.data.s = s.map (pick · rows) ∧
      Located num t rows o.algo o.data.y.rows ∧ Located num t rows o.data.feat o.data.x.rows ∧
      o.data.y.ncols = o.algo.length ∧ o.data.x.ncols = o.data.feat.length ∧
      o.algo.Sublist (t.cols.map Prod.fst) ∧ o.data.feat.Sublist (t.cols.map Prod.fst) ∧
      (∀ a, a ∈ o.algo ↔ Wanted t (Begins lower "algo_") env.algos a) ∧
      (∀ a ∈ o.data.feat, Wanted t (Begins lower "feature_") env.feats a) := by
  obtain ⟨inst, s, o, outs, ys, sel, tr⟩ := traced ho h
  obtain ⟨⟨fps, hf⟩, ⟨aps, ha⟩⟩ := Metadata.C47_columns lower numeric str t ho.rect
  obtain ⟨f, hf1, hf2, hf3⟩ := labels_series ho.toReadable tr.labels
  have hsl : ∀ l, s = some l → l.length = t.nrows := by
    intro l hl
    rcases tr.sources with ⟨-, rfl⟩ | ⟨l', h1, h2⟩
    · cases hl
    · rw [hl] at h2
      cases h2
      obtain ⟨-, -, h3⟩ := sources_series ho.toReadable h1
      exact h3
  generalize hm : fromDataFrame lower numeric str t = m at *
  have fits : (⟨featMat num m, algoMat num m, s, m.featureNames, inst⟩ :
      Preprocessing.Data Num String V V).Fits := by
    constructor
    · intro r hr
      obtain ⟨r', hr', rfl⟩ := List.mem_map.1 hr
      simp only [featMat, List.length_map]
      rw [hf.ncols r' hr', columns_length hf]
    · intro r hr
      obtain ⟨r', hr', rfl⟩ := List.mem_map.1 hr
      simp only [algoMat, List.length_map]
      rw [ha.ncols r' hr', columns_length ha]
    · rfl
    · simp only [featMat, algoMat, List.length_map]
      rw [hf.nrows, ha.nrows]
    · simp only [featMat, List.length_map, hf2, hf.nrows, hf3]
    · intro l hl
      simp only [featMat, List.length_map, hf.nrows]
      exact hsl l hl
  obtain ⟨rows', fcols, acols, c1, c2, c3, c4, c5, c6, c7, c8, c9, c10, c11⟩ :=
    Preprocessing.C27_run_partial _ _ _ _ _ _ fits rfl (columns_nodup hf ho.distinct)
      (columns_nodup ha ho.distinct) tr.run
  have hrows : rows' = rows := by
    refine Lists.unique (P := fun i => HasSome num t (Begins lower "feature_") env.feats i ∧
      HasSome num t (Begins lower "algo_") env.algos i) (n := t.nrows) ⟨c3.increasing, ?_⟩ hk
    intro i
    have e := c3.exact i
    simp only [featMat, algoMat] at e
    rw [hasSome_iff hf ho.rect ho.distinct num, hasSome_iff ha ho.rect ho.distinct num,
      List.length_map, hf.nrows] at e
    exact e
  subst hrows
  have hr : ∀ i ∈ rows', i < t.nrows := fun i hi => ((hk.exact i).1 hi).1
  have hacl : ∀ j ∈ acols, j < m.algorithmNames.length := fun j hj => ((c1.exact j).1 hj).1
  have hfcl : ∀ j ∈ fcols, j < m.featureNames.length := fun j hj => ((c2.exact j).1 hj).1
  refine ⟨inst, s, o, outs, ys, sel, f, tr, hf1, hf2, hf3, c10, c11, ?_, ?_, ?_, ?_, ?_, ?_, ?_, ?_⟩
  · rw [c9, c7]
    exact located ha ho.rect ho.distinct num hr c1.increasing hacl
  · rw [c6, c4]
    exact located hf ho.rect ho.distinct num hr c2.increasing hfcl
  · rw [c8, c9, Preprocessing.pick_length _ _ hacl]
  · rw [c5, c6, Preprocessing.pick_length _ _ hfcl]
  · rw [c9]
    exact (pick_sublist _ _ c1.increasing).trans
      (by rw [columns_names ha]; exact pick_sublist _ _ ha.increasing)
  · rw [c6]
    exact (pick_sublist _ _ c2.increasing).trans
      (by rw [columns_names hf]; exact pick_sublist _ _ hf.increasing)
  · intro a
    rw [c9]
    constructor
    · intro hm'
      obtain ⟨j, hj, hja⟩ := List.mem_filterMap.1 hm'
      exact (chosen_wanted ha hja).1 ((c1.exact j).1 hj).2
    · intro hw
      obtain ⟨j, hj, rfl⟩ := List.getElem_of_mem ((columns_mem ha a).2 ⟨hw.1, hw.2.1⟩)
      have hja := List.getElem?_eq_getElem hj
      exact List.mem_filterMap.2 ⟨j, (c1.exact j).2 ⟨hj, (chosen_wanted ha hja).2 hw⟩, hja⟩
  · intro a hm'
    rw [c6] at hm'
    obtain ⟨j, hj, hja⟩ := List.mem_filterMap.1 hm'
    exact (chosen_wanted hf hja).1 ((c2.exact j).1 hj).2.1

end Verif.EndToEnd
