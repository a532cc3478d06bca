import Verif.EndToEnd.CompletesLemmas
import Verif.EndToEnd.PatchyLemmas
import Verif.EndToEnd.SpecSelection
import Verif.EndToEnd.Props
/-! A whole run on clean data. -/
set_option autoImplicit false
set_option linter.unusedSectionVars false

namespace Verif.EndToEnd

open Verif (Num)
open Verif.Pipeline (Stg Name inputs outputs runner)
open Verif.Metadata (Table Squeezed Begins fromDataFrame Columns Meta)
open Verif.Preprocessing (Mat)
open Verif.Runner (Dict override applyAll applyStage RunError runFrom_apply exec_inv exec contents)

variable {V W G : Type}

/-! ### The metadata -/

theorem located_all {t : Table V} {Q : String → Prop} {names : List String} {mat : List (List V)}
    {ps : List Nat} (h : Columns t Q names mat ps) (ht : t.Rect) (hnd : (t.cols.map Prod.fst).Nodup)
    (num : V → Num) : Located num t (List.range t.nrows) names (mat.map (·.map num)) where
  distinct := columns_nodup h hnd
  nrows := by simp [h.nrows]
  ncols r hr := by
    obtain ⟨r', hr', rfl⟩ := List.mem_map.1 hr
    rw [List.length_map, h.ncols r' hr', columns_length h]
  cells k i j a v hk hj hv := by
    obtain ⟨hlt, rfl⟩ : k < t.nrows ∧ k = i := by
      obtain ⟨h1, h2⟩ := List.getElem?_eq_some_iff.1 hk
      exact ⟨by simpa using h1, by simpa using h2⟩
    have := (columns_cell h ht hnd hj).2 hv
    rw [List.getElem?_map]
    cases hm : mat[k]? with
    | none => rw [hm] at this; cases this
    | some r =>
      rw [hm] at this
      simp only [Option.bind_some] at this
      simp [this]
  all k i j a hk hj := by
    obtain ⟨hlt, rfl⟩ : k < t.nrows ∧ k = i := by
      obtain ⟨h1, h2⟩ := List.getElem?_eq_some_iff.1 hk
      exact ⟨by simpa using h1, by simpa using h2⟩
    rw [← h.nrows] at hlt
    have hjl : j < mat[k].length := by
      rw [h.ncols _ (List.getElem_mem hlt), ← columns_length h]
      exact (List.getElem?_eq_some_iff.1 hj).1
    exact ⟨mat[k][j], (columns_cell h ht hnd hj).1 (by
      rw [List.getElem?_eq_getElem hlt, Option.bind_some, List.getElem?_eq_getElem hjl])⟩

theorem range_get {n i : Nat} (h : i < n) : (List.range n)[i]? = some i := by simp [h]

/-- A column of the array is the column of the table. -/
theorem located_column {t : Table V} {num : V → Num} {names : List String} {m : List (List Num)}
    (h : Located num t (List.range t.nrows) names m) (ht : t.Rect) {j : Nat} {c : String × List V}
    (hj : names[j]? = some c.1) (hc : c ∈ t.cols) :
    (m.map fun r => r.getD j .nan) = c.2.map num := by
  have hm : m.length = t.nrows := by simpa using h.nrows
  have hcl := ht c hc
  apply List.ext_getElem?
  intro i
  by_cases hi : i < t.nrows
  · have hv : c.2[i]? = some c.2[i] := List.getElem?_eq_getElem (by omega)
    have hcell := h.cells i i j c.1 c.2[i] (range_get hi) hj ⟨c, hc, rfl, hv⟩
    have hmi : m[i]? = some m[i] := List.getElem?_eq_getElem (by omega)
    rw [hmi, Option.bind_some] at hcell
    rw [List.getElem?_map, List.getElem?_map, hmi, hv, Option.map_some, Option.map_some,
      List.getD_eq_getElem?_getD, hcell]
    rfl
  · rw [List.getElem?_eq_none (by simp; omega), List.getElem?_eq_none (by simp; omega)]

/-- The entries of the array are finite. -/
theorem located_fin {t : Table V} {num : V → Num} {names : List String} {m : List (List Num)}
    (h : Located num t (List.range t.nrows) names m)
    (hf : ∀ a ∈ names, ∀ i v, Cell t a i v → ∃ q, num v = .fin q) :
    ∀ r ∈ m, FinCol names.length r := by
  intro r hr
  obtain ⟨i, hi, rfl⟩ := List.getElem_of_mem hr
  have hm : m.length = t.nrows := by simpa using h.nrows
  obtain ⟨h1, -, h3⟩ := located_row h (range_get (by omega)) (List.getElem?_eq_getElem hi)
  refine finCol_iff.2 ⟨h1, ?_⟩
  intro w hw
  obtain ⟨a, ha, v, hv, rfl⟩ := (h3 w).1 hw
  exact hf a ha i v hv

/-- The entries of the array are finite or missing. -/
theorem located_tame {t : Table V} {num : V → Num} {names : List String} {m : List (List Num)}
    (h : Located num t (List.range t.nrows) names m)
    (hf : ∀ a ∈ names, ∀ i v, Cell t a i v → num v = .nan ∨ ∃ q, num v = .fin q) :
    ∀ r ∈ m, TameCol names.length r := by
  intro r hr
  obtain ⟨i, hi, rfl⟩ := List.getElem_of_mem hr
  have hm : m.length = t.nrows := by simpa using h.nrows
  obtain ⟨h1, -, h3⟩ := located_row h (range_get (by omega)) (List.getElem?_eq_getElem hi)
  refine ⟨h1, ?_⟩
  intro w hw
  obtain ⟨a, ha, v, hv, rfl⟩ := (h3 w).1 hw
  exact hf a ha i v hv

theorem located_counted {t : Table V} {num : V → Num} {names : List String} {m : List (List Num)}
    (h : Located num t (List.range t.nrows) names m)
    (hf : ∀ i < t.nrows, ∃ a ∈ names, ∃ v q, Cell t a i v ∧ num v = .fin q) : ∀ r ∈ m, Counted r := by
  intro r hr
  obtain ⟨i, hi, rfl⟩ := List.getElem_of_mem hr
  have hm : m.length = t.nrows := by simpa using h.nrows
  obtain ⟨h1, -, h3⟩ := located_row h (range_get (by omega)) (List.getElem?_eq_getElem hi)
  obtain ⟨a, ha, v, q, hv, hq⟩ := hf i (by omega)
  exact ⟨q, (h3 _).2 ⟨a, ha, v, hv, hq⟩⟩

/-- A clean table is one without gaps. -/
theorem patchy_of_clean {lower : String → String} {num : V → Num} {t : Table V} (ht : t.Rect)
    (h : Clean lower num t) : Patchy lower num t where
  rows := h.rows
  numbers c hc hb v hv := h.finite c hc (.inl hb) v hv
  scores c hc hb v hv := .inr (h.finite c hc (.inr hb) v hv)
  scored i hi := by
    obtain ⟨c, hc, -, -, -, hb, -⟩ := h.algorithms
    have hl : i < c.2.length := by rw [ht c hc]; exact hi
    obtain ⟨q, hq⟩ := h.finite c hc (.inr hb) c.2[i] (List.getElem_mem hl)
    exact ⟨c.1, c.2[i], q, hb, ⟨c, hc, rfl, List.getElem?_eq_getElem hl⟩, hq⟩
  features := h.features
  algorithms := h.algorithms
  spread := h.spread
  varied c hc hb := by
    obtain ⟨v, hv, w, hw, h1, h2, h3⟩ := h.varied c hc hb
    obtain ⟨p, hp⟩ := h.finite c hc (.inr hb) v hv
    obtain ⟨q, hq⟩ := h.finite c hc (.inr hb) w hw
    rw [hp] at h1 h2
    rw [hq] at h1 h3
    exact ⟨v, hv, w, hw, p, q, hp, hq, by simpa using h1, by simpa using h2, by simpa using h3⟩

theorem two_le {α : Type} {l : List α} {a b : α} (ha : a ∈ l) (hb : b ∈ l) (hab : a ≠ b) :
    2 ≤ l.length := by
  match l with
  | [] => cases ha
  | [c] => simp at ha hb; exact absurd (ha.trans hb.symm) hab
  | _ :: _ :: _ => simp

theorem sources_known {lower : String → String} {numeric : Squeezed V → Bool} {str : V → V}
    {env : Env V W} {t : Table V} {labels : List V} (ho : Ordinary lower env t labels) :
    (fromDataFrame lower numeric str t).sources = none ∨
      ∃ l, (fromDataFrame lower numeric str t).sources = some (.series l) := by
  simp only [fromDataFrame]
  split
  · rename_i hany
    right
    obtain ⟨c, hc⟩ : ∃ c, (t.cols.filter fun c => lower c.1 == "source") = [c] := by
      obtain ⟨c, hc, hs⟩ := List.any_eq_true.1 hany
      have hm : c ∈ t.cols.filter fun c => lower c.1 == "source" := List.mem_filter.2 ⟨hc, hs⟩
      have := ho.sources
      cases hf : t.cols.filter fun c => lower c.1 == "source" with
      | nil => rw [hf] at hm; cases hm
      | cons a r =>
        rw [hf] at this
        cases r with
        | nil => exact ⟨a, rfl⟩
        | cons b r => simp at this
    have hcols : (t.loc (Metadata.isSource lower)).cols = [c] := hc
    unfold Table.squeeze
    rw [hcols]
    dsimp only
    have hcr : c.2.length = t.nrows := by
      have hm : c ∈ t.cols.filter fun c => lower c.1 == "source" := by simp [hc]
      exact ho.rect c (List.mem_filter.1 hm).1
    split
    · rename_i v hv
      rw [hv] at hcr
      exact absurd hcr.symm ho.several
    · exact ⟨_, rfl⟩
  · exact .inl rfl

theorem verdicts_of {t : Table V} {num : V → Num} {o : Prelim.Opts} {names : List String}
    {m : List (List Num)} (h : Located num t (List.range t.nrows) names m) (ht : t.Rect)
    {outs : List Prelim.Row} (hr : Prelim.rows o m = some outs) :
    Verdicts num o t names (outs.map Prelim.Row.yBin) := by
  obtain ⟨hol, hor⟩ := outs_row hr
  have hm : m.length = t.nrows := by simpa using h.nrows
  constructor
  · rw [List.length_map, hol, hm]
  · intro r hr'
    obtain ⟨out, h1, rfl⟩ := List.mem_map.1 hr'
    obtain ⟨i, hi, rfl⟩ := List.getElem_of_mem h1
    have hmi : m[i]? = some m[i] := List.getElem?_eq_getElem (by omega)
    obtain ⟨out, h2, h3⟩ := hor i _ hmi
    rw [List.getElem?_eq_getElem hi, Option.some.injEq] at h2
    rw [h2]
    have hl := h.ncols _ (List.mem_of_getElem? hmi)
    rw [← hl]
    obtain ⟨_, -, -, -, hyb, -⟩ := Prelim.rowStep_some h3
    rw [hyb, List.length_map]
  · intro habs e he i j a v q hj hv hq
    have hi := cell_lt ht hv
    have hmi : m[i]? = some m[i] := List.getElem?_eq_getElem (by omega)
    obtain ⟨out, ho1, ho2⟩ := hor i _ hmi
    have hcell := (located_row h (range_get hi) hmi).2.1 j a v hj hv
    have := Prelim.C35_absolute o e habs he _ out ho2 j (num v) hcell
    rw [hq] at this
    have e1 : At (outs.map Prelim.Row.yBin) i j true ↔ Prelim.MarkedGood out j := by
      unfold At Prelim.MarkedGood
      rw [List.getElem?_map, ho1]
      simp
    rw [e1, this]
    cases o.maxPerf <;> simp [Num.le]
  · intro habs e he i j a v hj hv hq hg
    have hi := cell_lt ht hv
    have hmi : m[i]? = some m[i] := List.getElem?_eq_getElem (by omega)
    obtain ⟨out, ho1, ho2⟩ := hor i _ hmi
    have hcell := (located_row h (range_get hi) hmi).2.1 j a v hj hv
    refine ((Prelim.C35_absolute o e habs he _ out ho2 j (num v) hcell).1 ?_).1 hq
    unfold At at hg
    unfold Prelim.MarkedGood
    rw [List.getElem?_map, ho1] at hg
    simpa using hg
  · intro habs e he he1 i j a v best hj hv hb hpos
    have hi := cell_lt ht hv
    have hmi : m[i]? = some m[i] := List.getElem?_eq_getElem (by omega)
    obtain ⟨out, ho1, ho2⟩ := hor i _ hmi
    have hcell := (located_row h (range_get hi) hmi).2.1 j a v hj hv
    rw [← Prelim.C36_partial o e _ out j (num v) best habs he he1 ho2 hcell
      (isBest_of_cell h (range_get hi) hmi hb) hpos]
    unfold At Prelim.MarkedGood
    rw [List.getElem?_map, ho1]
    simp

theorem winners_of {t : Table V} {num : V → Num} {o : Prelim.Opts} {names : List String}
    {m : List (List Num)} (h : Located num t (List.range t.nrows) names m) (ht : t.Rect)
    {outs : List Prelim.Row} (hr : Prelim.rows o m = some outs) :
    Winners num o t names (outs.map Prelim.Row.p) := by
  obtain ⟨hol, hor⟩ := outs_row hr
  have hm : m.length = t.nrows := by simpa using h.nrows
  refine ⟨by rw [List.length_map, hol, hm], ?_⟩
  intro i b hb hex
  obtain ⟨a0, ha0, v0, hv0, -⟩ := hb.reached
  have hi := cell_lt ht hv0
  have hmi : m[i]? = some m[i] := List.getElem?_eq_getElem (by omega)
  obtain ⟨out, ho1, ho2⟩ := hor i _ hmi
  obtain ⟨hrl, hrc, -⟩ := located_row h (range_get hi) hmi
  obtain ⟨p1, p2, p3, p4, p5⟩ := Prelim.C38_partial o _ out (.fin b) ho2
    (isBest_of_cell h (range_get hi) hmi hb) (by cases o.maxPerf <;> simp [Prelim.worst]) (by
      rcases hex with h | h | h
      · exact .inl h
      · exact .inr (.inl h)
      · exact .inr (.inr (.inl (by
          intro e
          apply h
          have e : Num.fin b = .fin ((0 : ℕ) : ℚ) := e
          simpa using e))))
  have hj : out.p - 1 < names.length := by rw [← hrl]; omega
  have hja : names[out.p - 1]? = some names[out.p - 1] := List.getElem?_eq_getElem hj
  obtain ⟨v, hv⟩ := h.all i i _ _ (range_get hi) hja
  have hcell := hrc _ _ v hja hv
  rw [p3] at hcell
  refine ⟨out.p - 1, names[out.p - 1], v, ?_, hja, hv, (Option.some.inj hcell).symm, ?_⟩
  · rw [List.getElem?_map, ho1]
    simp only [Option.map_some, Option.some.injEq]
    omega
  · intro j' a' v' hlt hja' hv' he
    apply p4 j' hlt
    rw [hrc j' a' v' hja' hv', he]

/-! ### The run -/

/-- What the selection gives on two tables. -/
def siftedResult (env : Env V W) (x y : Mat Num) (yb : List (List Bool)) (feats : List String) :
    Except Sifted.Err (Sifted.Out (List Num)) :=
  match correlations env x y yb with
  | .error e => .error e
  | .ok c => Sifted.sifted (env.lib x y yb) ((c.map (·.rho)).getD []) env.thr env.clusters y.ncols
      (Prelim.columns x.ncols x.rows) feats false

/-- What SIFTED returns. -/
def siftedOut (env : Env V W) (n : Nat) (y yRaw xRaw : Mat Num) (outs : List Prelim.Row) (inst : List V)
    (s : Option (List V)) (c : Option Sifted.Performance) (o : Sifted.Out (List Num)) : List (Name × Val V W) :=
  [(.x, .table ⟨o.x.length, rowsOf n o.x⟩), (.y, .table y),
    (.y_bin, .verdicts (outs.map Prelim.Row.yBin)), (.x_raw, .table xRaw), (.y_raw, .table yRaw),
    (.beta, .flags (outs.map Prelim.Row.beta)), (.num_good_algos, .counts (outs.map Prelim.Row.numGood)),
    (.y_best, .numbers (outs.map Prelim.Row.yBest)), (.p, .counts (outs.map Prelim.Row.p)),
    (.inst_labels, .labels inst), (.s, .sources s), (.feat_labels, .names o.featLabels),
    (.selvars, .counts o.selvars), (.idx, .counts o.idx)] ++ grounds env y.ncols c o

theorem outcome_patchy {lower : String → String} {numeric : Squeezed V → Bool} {str : V → V}
    {num : V → Num} {env : Env V (Kept G)} {le : Nat → Late V (Kept G)} {te : Nat → TraceEnv G}
    {t : Table V} {labels : List V} {r : Except (RunError Name Err) (Dict Name (Val V (Kept G)))}
    (ho : Ordinary lower env t labels) (hc : CompleteTrace env le te) (hu : Usable env le)
    (hcl : Patchy lower num t) (h : Outcome lower numeric str num env t r) :
    ∃ feats algos, Listed t (Begins lower "feature_") feats ∧ Listed t (Begins lower "algo_") algos ∧
      ∃ x y yb, PrelimTables num env t feats algos x y ∧ Verdicts num env.prelim t algos yb ∧
      ((∃ e, r = .error (.stage (.sifted e)) ∧ siftedResult env x y yb feats = .error e ∧ 3 < feats.length) ∨
      (∃ o, siftedResult env x y yb feats = .ok o) ∧ ((∃ d, r = .ok d) ∨
      ((∃ e, r = .error (.stage (.pythia e))) ∧ ∃ k z y b j, Verdicts num env.prelim t algos b ∧
        j < algos.length ∧ Untrainable ((le k).fitted z y b) b j) ∨
      ((∃ e, r = .error (.stage (.trace e))) ∧ ∃ k p, Winners num env.prelim t algos p ∧
        Clash (te k) algos.length t.nrows p))) := by
  obtain ⟨order, π, sched, ops, horder, hs, hd⟩ := h
  have hB := (Pipeline.builderOf_tables order horder).1
  have hP : (runner order sched (run env)).Proper := Runner.built_proper hB hs _
  obtain ⟨g1, -⟩ := runFrom_apply hP (exec_inv hP.once ops)
    (args env num (fromDataFrame lower numeric str t)) sched [] (by simp [Runner.pipelineOf])
  change contents (Runner.runFrom _ _ _ sched.flatten) = r at hd
  rw [g1] at hd
  generalize (exec (runner order sched (run env)) ops).st.calls.length = k at hd
  have hflat : ∃ post, sched.flatten = .preprocessing :: .prelim :: .sifted :: post ∧
      (post = [.pilot, .pythia, .cloister, .trace] ∨ post = [.pilot, .cloister, .pythia, .trace]) := by
    rcases Pipeline.C10_default_schedule order horder π with h | h <;> rw [h] at hs <;> cases hs
    · exact ⟨_, rfl, by decide⟩
    · exact ⟨_, rfl, by decide⟩
  obtain ⟨post, hpost, hmem⟩ := hflat
  rw [hpost, Pipeline.runner_eq order horder] at hd
  -- the metadata
  obtain ⟨⟨fps, hf⟩, ⟨aps, ha⟩⟩ := Metadata.C47_columns lower numeric str t ho.rect
  obtain ⟨inst, hinst⟩ : ∃ inst, (fromDataFrame lower numeric str t).labels = .series inst := by
    obtain ⟨name, hone⟩ := ho.labels
    rcases Metadata.C48_partial lower numeric str t name labels hone ho.several with h' | h' <;>
      exact ⟨_, h'⟩
  obtain ⟨s, hsrc⟩ : ∃ s, args env num (fromDataFrame lower numeric str t) .instance_sources =
      some (.sources s) := by
    rcases sources_known (numeric := numeric) (str := str) ho with h | ⟨l, h⟩
    · exact ⟨none, by simp only [args, h]⟩
    · exact ⟨some l, by simp only [args, h]⟩
  have hlab : args env num (fromDataFrame lower numeric str t) .instance_labels =
      some (.labels inst) := by simp only [args, hinst]
  have lf := located_all hf ho.rect ho.distinct num
  have la := located_all ha ho.rect ho.distinct num
  generalize fromDataFrame lower numeric str t = m at *
  have listed : ∀ {Q : String → Prop} {names : List String} {mat : List (List V)} {ps : List Nat},
      Columns t Q names mat ps → Listed t Q names := fun h => ⟨by
    rw [columns_names h]; exact pick_sublist _ _ h.increasing, columns_mem h⟩
  refine ⟨m.featureNames, m.algorithmNames, listed hf, listed ha, ?_⟩
  have hx : ∀ r ∈ (featMat num m).rows, FinCol (featMat num m).ncols r :=
    located_fin lf fun a hm i v ⟨c, hc, e, hv⟩ =>
      hcl.numbers c hc (e ▸ ((columns_mem hf a).1 hm).2) v (List.mem_of_getElem? hv)
  have hy : ∀ r ∈ (algoMat num m).rows, TameCol (algoMat num m).ncols r :=
    located_tame la fun a hm i v ⟨c, hc, e, hv⟩ =>
      hcl.scores c hc (e ▸ ((columns_mem ha a).1 hm).2) v (List.mem_of_getElem? hv)
  have hyc : ∀ r ∈ (algoMat num m).rows, Counted r := located_counted la fun i hi => by
    obtain ⟨a, v, q, hb, hv, hq⟩ := hcl.scored i hi
    have ham : a ∈ m.algorithmNames := (columns_mem ha a).2 ⟨by
      obtain ⟨c, hc, e, -⟩ := hv
      exact ⟨c, hc, e⟩, hb⟩
    exact ⟨a, ham, v, q, hv, hq⟩
  have hxr : (featMat num m).rows.length = t.nrows := by simp [featMat, hf.nrows]
  have hyr : (algoMat num m).rows.length = t.nrows := by simp [algoMat, ha.nrows]
  have h3 := hcl.rows
  have hfl : 2 ≤ m.featureNames.length := by
    obtain ⟨c, hc1, c', hc2, hne, b1, b2⟩ := hcl.features
    exact two_le ((columns_mem hf _).2 ⟨⟨c, hc1, rfl⟩, b1⟩) ((columns_mem hf _).2 ⟨⟨c', hc2, rfl⟩, b2⟩) hne
  have hal : 2 ≤ m.algorithmNames.length := by
    obtain ⟨c, hc1, c', hc2, hne, b1, b2⟩ := hcl.algorithms
    exact two_le ((columns_mem ha _).2 ⟨⟨c, hc1, rfl⟩, b1⟩) ((columns_mem ha _).2 ⟨⟨c', hc2, rfl⟩, b2⟩) hne
  have hcolx : ∀ c ∈ Prelim.columns (featMat num m).ncols (featMat num m).rows, Spread c := by
    intro c hc
    obtain ⟨j, hj, rfl⟩ := List.mem_map.1 hc
    rw [List.mem_range] at hj
    have hj' : m.featureNames[j]? = some m.featureNames[j] := List.getElem?_eq_getElem hj
    obtain ⟨⟨c, hc1, hc2⟩, hb⟩ := (columns_mem hf _).1 (List.mem_of_getElem? hj')
    rw [← hc2] at hj' hb
    have e : ((featMat num m).rows.map fun r => r.getD j .nan) = c.2.map num :=
      located_column lf ho.rect hj' hc1
    rw [e]
    intro v
    rw [List.length_map, ho.rect c hc1]
    exact hcl.spread c hc1 hb v
  have hcoly : ∀ c ∈ Prelim.columns (algoMat num m).ncols (algoMat num m).rows, TwoScores c := by
    intro c hc
    obtain ⟨j, hj, rfl⟩ := List.mem_map.1 hc
    rw [List.mem_range] at hj
    have hj' : m.algorithmNames[j]? = some m.algorithmNames[j] := List.getElem?_eq_getElem hj
    obtain ⟨⟨c, hc1, hc2⟩, hb⟩ := (columns_mem ha _).1 (List.mem_of_getElem? hj')
    rw [← hc2] at hj' hb
    have e : ((algoMat num m).rows.map fun r => r.getD j .nan) = c.2.map num :=
      located_column la ho.rect hj' hc1
    rw [e]
    obtain ⟨v, hv, w, hw, p, q, h1, h2, h4, h5, h6⟩ := hcl.varied c hc1 hb
    exact ⟨p, q, h1 ▸ List.mem_map_of_mem hv, h2 ▸ List.mem_map_of_mem hw, h4, h5, h6⟩
  -- Preprocessing
  have hopt : ∀ n ∈ [Name.selvars_options, .prelim_options, .sifted_options, .parallel_options,
      .pilot_options, .pythia_options, .cloister_options, .trace_options],
      args env num m n = some (.other (env.fill n)) := by
    intro n hn
    simp only [List.mem_cons, List.not_mem_nil, or_false] at hn
    rcases hn with rfl | rfl | rfl | rfl | rfl | rfl | rfl | rfl <;> rfl
  have e1 := applyStage_eq (P := ⟨sched, fun s => (inputs s).map Prod.fst, run env⟩) (k := k)
    (s := Stg.preprocessing) (d := args env num m)
    (vs := [.names m.featureNames, .names m.algorithmNames, .labels inst, .sources s,
      .table (featMat num m), .table (algoMat num m), .other (env.fill .selvars_options)]) (by
      change [some (Val.names m.featureNames), some (.names m.algorithmNames),
        args env num m .instance_labels, args env num m .instance_sources,
        some (.table (featMat num m)), some (.table (algoMat num m)), args env num m .selvars_options] = _
      rw [hlab, hsrc]
      rfl)
  have r1 : run env k .preprocessing [.names m.featureNames, .names m.algorithmNames, .labels inst,
      .sources s, .table (featMat num m), .table (algoMat num m), .other (env.fill .selvars_options)] =
      .ok [(.inst_labels, .labels inst), (.feat_labels, .names m.featureNames),
        (.algo_labels, .names m.algorithmNames), (.x, .table (featMat num m)),
        (.y, .table (algoMat num m)), (.s, .sources s), (.x_raw, .table (featMat num m)),
        (.y_raw, .table (algoMat num m))] := by
    rw [show ∀ k vs, run env k .preprocessing vs = runPreprocessing env vs from fun _ _ => rfl]
    unfold runPreprocessing
    dsimp only
    rw [hu.allFeatures, hu.allAlgorithms, preprocessing_patchy hx hyc
      (by intro e; rw [e] at hxr; simp at hxr; omega) (by simp only [featMat]; omega)]
  dsimp only at e1
  rw [r1] at e1
  -- PRELIM
  obtain ⟨outs, ys, hrows, houtY, hysl, hysc⟩ := outY_tame (o := env.prelim) hu.transforms hy hyc
    (by simp only [algoMat]; omega) (by omega) hcoly
  have hyst := fun c hc => (hysc c hc).1
  obtain ⟨hxl, hxf⟩ := outX_fin (o := env.prelim) (junk := env.junk) hu.transforms (hxr ▸ h3)
    (column_fin hx) hcolx
  have e2 := applyStage_eq (P := ⟨sched, fun s => (inputs s).map Prod.fst, run env⟩) (k := k + 1)
    (s := Stg.prelim) (d := override (args env num m) [(.inst_labels, .labels inst),
        (.feat_labels, .names m.featureNames),
        (.algo_labels, .names m.algorithmNames), (.x, .table (featMat num m)),
        (.y, .table (algoMat num m)), (.s, .sources s), (.x_raw, .table (featMat num m)),
        (.y_raw, .table (algoMat num m))])
    (vs := [.table (featMat num m), .table (algoMat num m), .table (featMat num m),
      .table (algoMat num m), .sources s, .labels inst, .other (env.fill .prelim_options),
      .other (env.fill .selvars_options)]) rfl
  have r2 : run env (k + 1) .prelim [.table (featMat num m), .table (algoMat num m),
      .table (featMat num m), .table (algoMat num m), .sources s, .labels inst,
      .other (env.fill .prelim_options), .other (env.fill .selvars_options)] =
      .ok (prelimOut env (featMat num m) (algoMat num m) (featMat num m) (algoMat num m)
        (arrays env (featMat num m) (algoMat num m) (featMat num m) (algoMat num m) s inst outs ys)
        false) := by
    rw [show ∀ k vs, run env k .prelim vs = runPrelim env vs from fun _ _ => rfl]
    unfold runPrelim
    dsimp only
    rw [hrows, houtY]
    dsimp only
    rw [Prelim.C44_all _ _ _ _ _ _ ho.noFraction ho.noFile ho.noDensity]
    unfold prelimOut
    rw [hrows]
    rfl
  dsimp only at e2
  rw [r2] at e2
  -- SIFTED
  have e3 := applyStage_eq (P := ⟨sched, fun s => (inputs s).map Prod.fst, run env⟩) (k := k + 1 + 1)
    (s := Stg.sifted) (d := override (override (args env num m) [(.inst_labels, .labels inst),
        (.feat_labels, .names m.featureNames),
        (.algo_labels, .names m.algorithmNames), (.x, .table (featMat num m)),
        (.y, .table (algoMat num m)), (.s, .sources s), (.x_raw, .table (featMat num m)),
        (.y_raw, .table (algoMat num m))])
      (prelimOut env (featMat num m) (algoMat num m) (featMat num m) (algoMat num m)
        (arrays env (featMat num m) (algoMat num m) (featMat num m) (algoMat num m) s inst outs ys)
        false))
    (vs := [Val.table ⟨(featMat num m).ncols, prelimX env (featMat num m)⟩,
      .table ⟨(algoMat num m).ncols, rowsOf (algoMat num m).rows.length ys⟩,
      .verdicts (outs.map Prelim.Row.yBin), .table (featMat num m),
      .table ⟨(algoMat num m).ncols, Prelim.yRawOut env.prelim (fun _ => (algoMat num m).rows) 0 0⟩,
      .flags (outs.map Prelim.Row.beta), .counts (outs.map Prelim.Row.numGood),
      .numbers (outs.map Prelim.Row.yBest), .counts (outs.map Prelim.Row.p),
      .labels inst, .names m.featureNames, .sources s, .other (env.fill .sifted_options),
      .other (env.fill .selvars_options), .dense false, .other (env.fill .parallel_options)]) rfl
  dsimp only at e3
  rw [show ∀ k vs, run env k .sifted vs = runSifted env vs from fun _ _ => rfl] at e3
  unfold runSifted at e3
  dsimp only at e3
  rw [Bool.and_false] at e3
  simp only [applyAll, e1, e2] at hd
  have hpl : (prelimX env (featMat num m)).length = t.nrows := by simp [prelimX, hxr]
  have hpr : ∀ r ∈ prelimX env (featMat num m), FinCol (featMat num m).ncols r := by
    have := rowsOf_fin hxf
    rw [hxl] at this
    simpa [Prelim.columns, prelimX] using this
  refine ⟨⟨(featMat num m).ncols, prelimX env (featMat num m)⟩,
    ⟨(algoMat num m).ncols, rowsOf (algoMat num m).rows.length ys⟩, outs.map Prelim.Row.yBin,
    ⟨rfl, rfl, hpl, by simp [hyr], hpr, by
      have hcols := columns_of_rowsOf (n := (algoMat num m).rows.length) fun c hc => (hyst c hc).1
      rw [hysl] at hcols
      rw [show Prelim.columns _ _ = ys from hcols, ← hyr]
      exact fun c hc => ⟨(hyst c hc).1, (hyst c hc).2, (hysc c hc).2⟩, _, _, ys, lf, la, houtY, by simp [prelimX, featMat, hf.nrows], by simp [hyr]⟩,
    verdicts_of (o := env.prelim) la ho.rect hrows, ?_⟩
  unfold siftedResult
  dsimp only
  cases hcorr : correlations env ⟨(featMat num m).ncols, prelimX env (featMat num m)⟩
      ⟨(algoMat num m).ncols, rowsOf (algoMat num m).rows.length ys⟩ (outs.map Prelim.Row.yBin) with
  | error e =>
    rw [hcorr] at e3
    dsimp only at e3
    simp only [e3] at hd
    refine .inl ⟨e, hd.symm, rfl, ?_⟩
    by_contra hle
    unfold correlations at hcorr
    rw [if_pos (by simp only [featMat]; omega)] at hcorr
    cases hcorr
  | ok corr =>
  rw [hcorr] at e3
  dsimp only at e3 ⊢
  cases hsel : Sifted.sifted (env.lib ⟨(featMat num m).ncols, prelimX env (featMat num m)⟩
      ⟨(algoMat num m).ncols, rowsOf (algoMat num m).rows.length ys⟩ (outs.map Prelim.Row.yBin))
      ((corr.map (·.rho)).getD []) env.thr env.clusters
      (algoMat num m).ncols (Prelim.columns (featMat num m).ncols (prelimX env (featMat num m)))
      m.featureNames false with
  | error e =>
    rw [hsel] at e3
    simp only [e3] at hd
    refine .inl ⟨e, hd.symm, rfl, ?_⟩
    by_contra hle
    have hcl : (Prelim.columns (featMat num m).ncols (prelimX env (featMat num m))).length =
        m.featureNames.length := by simp [Prelim.columns, featMat]
    unfold Sifted.sifted at hsel
    simp only [hcl] at hsel
    rw [if_neg (by omega), if_pos (by omega)] at hsel
    cases hsel
  | ok sel =>
    rw [hsel] at e3
    simp only [e3] at hd
    have al := Sifted.C69_aligned (by simp [Prelim.columns, featMat]) hsel
    have hselx : ∀ c ∈ sel.x, FinCol t.nrows c := by
      intro c hc
      obtain ⟨j, hj, rfl⟩ := List.getElem_of_mem hc
      have hj' : j < sel.selvars.length := by rw [← al.columns]; exact hj
      have hs1 : sel.selvars[j]? = some sel.selvars[j] := List.getElem?_eq_getElem hj'
      have := (al.same j _ hs1).1
      rw [List.getElem?_eq_getElem hj] at this
      have hm := List.mem_of_getElem? this.symm
      rw [← hpl]
      exact column_fin hpr _ hm
    have hv := verdicts_of (o := env.prelim) la ho.rect hrows
    have hou := (outs_row hrows).1
    rw [hyr] at hou
    have late := late_clean hc hu.pilot hu.sized
      (d := override (override (override (args env num m) [(.inst_labels, .labels inst),
        (.feat_labels, .names m.featureNames),
        (.algo_labels, .names m.algorithmNames), (.x, .table (featMat num m)),
        (.y, .table (algoMat num m)), (.s, .sources s), (.x_raw, .table (featMat num m)),
        (.y_raw, .table (algoMat num m))])
      (prelimOut env (featMat num m) (algoMat num m) (featMat num m) (algoMat num m)
        (arrays env (featMat num m) (algoMat num m) (featMat num m) (algoMat num m) s inst outs ys)
        false)) (siftedOut env (prelimX env (featMat num m)).length
          ⟨(algoMat num m).ncols, rowsOf (algoMat num m).rows.length ys⟩
          ⟨(algoMat num m).ncols, Prelim.yRawOut env.prelim (fun _ => (algoMat num m).rows) 0 0⟩
          (featMat num m) outs inst s corr sel)) (x := ⟨sel.x.length, rowsOf (prelimX env (featMat num m)).length sel.x⟩)
      (y := ⟨(algoMat num m).ncols, rowsOf (algoMat num m).rows.length ys⟩)
      (yRaw := ⟨(algoMat num m).ncols, Prelim.yRawOut env.prelim (fun _ => (algoMat num m).rows) 0 0⟩)
      (feat := sel.featLabels) (algo := m.algorithmNames) (b := outs.map Prelim.Row.yBin)
      (best := outs.map Prelim.Row.yBest) (p := outs.map Prelim.Row.p) (beta := outs.map Prelim.Row.beta)
      ⟨rfl, rfl, rfl, rfl, rfl, rfl, rfl, rfl, rfl, by
        intro n hn
        simp only [List.mem_cons, List.not_mem_nil, or_false] at hn
        rcases hn with rfl | rfl | rfl | rfl | rfl <;> rfl⟩
      (by rw [hpl]; exact rowsOf_fin hselx)
      (by
        have := rowsOf_tame hyst
        rw [hysl] at this
        exact noInfinity_of_tame this)
      (by simp [hpl, hyr]) (by simp [hpl]; exact h3) (by simp [al.columns, al.names])
      (by simp [hpl, hou]) (by simp [hpl, hou]) rfl (by omega) hv.cols
      (weights_patchy hy (by simp only [algoMat]; omega) hcoly) sched (k + 1 + 1 + 1) hmem
    have late' := late
    unfold siftedOut at late'
    rw [hd] at late'
    clear late
    rcases late' with h | ⟨h, k, z, j, hj, hun⟩ | ⟨h, k, hcl⟩
    · exact .inr ⟨⟨_, rfl⟩, .inl h⟩
    · exact .inr ⟨⟨_, rfl⟩, .inr (.inl ⟨h, k, z, _, _, j, hv, hj, hun⟩)⟩
    · refine .inr ⟨⟨_, rfl⟩, .inr (.inr ⟨h, k, _, winners_of (o := env.prelim) la ho.rect hrows, ?_⟩)⟩
      simpa [hpl] using hcl

theorem outcome_gaps {lower : String → String} {numeric : Squeezed V → Bool} {str : V → V}
    {num : V → Num} {env : Env V (Kept G)} {le : Nat → Late V (Kept G)} {te : Nat → TraceEnv G}
    {t : Table V} {labels : List V} {r : Except (RunError Name Err) (Dict Name (Val V (Kept G)))}
    (ho : Ordinary lower env t labels) (hc : CompleteTrace env le te) (hu : Usable env le)
    (hcl : Patchy lower num t) (h : Outcome lower numeric str num env t r) :
    ∃ feats algos, Listed t (Begins lower "feature_") feats ∧ Listed t (Begins lower "algo_") algos ∧
      ((∃ d, r = .ok d) ∨ ((∃ e, r = .error (.stage (.sifted e))) ∧ 3 < feats.length) ∨
      ((∃ e, r = .error (.stage (.pythia e))) ∧ ∃ k z y b j, Verdicts num env.prelim t algos b ∧
        j < algos.length ∧ Untrainable ((le k).fitted z y b) b j) ∨
      ((∃ e, r = .error (.stage (.trace e))) ∧ ∃ k p, Winners num env.prelim t algos p ∧
        Clash (te k) algos.length t.nrows p)) := by
  obtain ⟨feats, algos, h1, h2, x, y, yb, -, -, ⟨e, h3, -, h4⟩ | ⟨-, h3⟩⟩ := outcome_patchy ho hc hu hcl h
  · exact ⟨feats, algos, h1, h2, .inr (.inl ⟨⟨e, h3⟩, h4⟩)⟩
  · rcases h3 with h3 | h3 | h3
    · exact ⟨feats, algos, h1, h2, .inl h3⟩
    · exact ⟨feats, algos, h1, h2, .inr (.inr (.inl h3))⟩
    · exact ⟨feats, algos, h1, h2, .inr (.inr (.inr h3))⟩

theorem outcome_clean {lower : String → String} {numeric : Squeezed V → Bool} {str : V → V}
    {num : V → Num} {env : Env V (Kept G)} {le : Nat → Late V (Kept G)} {te : Nat → TraceEnv G}
    {t : Table V} {labels : List V} {r : Except (RunError Name Err) (Dict Name (Val V (Kept G)))}
    (ho : Ordinary lower env t labels) (hc : CompleteTrace env le te) (hu : Usable env le)
    (hcl : Clean lower num t) (h : Outcome lower numeric str num env t r) :
    ∃ feats algos, Listed t (Begins lower "feature_") feats ∧ Listed t (Begins lower "algo_") algos ∧
      ((∃ d, r = .ok d) ∨ ((∃ e, r = .error (.stage (.sifted e))) ∧ 3 < feats.length) ∨
      ((∃ e, r = .error (.stage (.pythia e))) ∧ ∃ k z y b j, Verdicts num env.prelim t algos b ∧
        j < algos.length ∧ Untrainable ((le k).fitted z y b) b j) ∨
      ((∃ e, r = .error (.stage (.trace e))) ∧ ∃ k p, Winners num env.prelim t algos p ∧
        Clash (te k) algos.length t.nrows p)) :=
  outcome_gaps ho hc hu (patchy_of_clean ho.rect hcl) h

end Verif.EndToEnd
