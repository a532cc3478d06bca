import Verif.EndToEnd.Lemmas3
import Verif.Prelim.PropsMeasure
/-!
# C162: the data of the Model are about the right cells of the metadata table
-/
set_option autoImplicit false
set_option linter.unusedSectionVars false

namespace Verif.EndToEnd

open Verif (Num)
open Verif.Pipeline (Stg Name outputs defaultStages runner)
open Verif.Metadata (Table Squeezed Begins fromDataFrame)
open Verif.Preprocessing (Lists pick)
open Verif.Prelim (worst)
open Verif.Runner (Dict)

variable {V W : Type} {lower : String → String} {numeric : Squeezed V → Bool} {str : V → V}
  {num : V → Num} {env : Env V W} {t : Table V} {labels : List V} {d : Dict Name (Val V W)}

/-! ### Rows of performances -/

theorem bind_at {α : Type} {m : List (List α)} {k j : Nat} {v : α} :
    (m[k]?.bind (·[j]?)) = some v ↔ At m k j v := by
  unfold At
  cases m[k]? with
  | none => simp
  | some r => simp

theorem located_row {rows : List Nat} {names : List String} {m : List (List Num)}
    (h : Located num t rows names m) {k i : Nat} {r : List Num} (hk : rows[k]? = some i)
    (hr : m[k]? = some r) :
    r.length = names.length ∧
    (∀ (j : Nat) (a : String) (v : V), names[j]? = some a → Cell t a i v → r[j]? = some (num v)) ∧
    (∀ w, w ∈ r ↔ ∃ a ∈ names, ∃ v, Cell t a i v ∧ num v = w) := by
  have hl := h.ncols r (List.mem_of_getElem? hr)
  have hc : ∀ (j : Nat) (a : String) (v : V), names[j]? = some a → Cell t a i v →
      r[j]? = some (num v) := by
    intro j a v hj hv
    have := h.cells k i j a v hk hj hv
    rw [hr] at this
    exact this
  refine ⟨hl, hc, ?_⟩
  intro w
  constructor
  · intro hw
    obtain ⟨j, hj, rfl⟩ := List.getElem_of_mem hw
    have hj' : j < names.length := hl ▸ hj
    have ha : names[j]? = some names[j] := List.getElem?_eq_getElem hj'
    obtain ⟨v, hv⟩ := h.all k i j _ hk ha
    have := hc j _ v ha hv
    rw [List.getElem?_eq_getElem hj] at this
    exact ⟨names[j], List.getElem_mem hj', v, hv, (Option.some.inj this).symm⟩
  · rintro ⟨a, ha, v, hv, rfl⟩
    obtain ⟨j, hj, rfl⟩ := List.getElem_of_mem ha
    exact List.mem_of_getElem? (hc j _ v (List.getElem?_eq_getElem hj) hv)

theorem isBest_of_cell {rows : List Nat} {names : List String} {m : List (List Num)}
    (h : Located num t rows names m) {k i : Nat} {r : List Num} (hk : rows[k]? = some i)
    (hr : m[k]? = some r) {maxPerf : Bool} {b : Num} (hb : BestCell num maxPerf t names i b) :
    Prelim.IsBest maxPerf r b := by
  have hm := (located_row h hk hr).2.2
  refine ⟨(hm b).2 hb.reached, hb.present, ?_⟩
  intro c hc hn
  obtain ⟨a, ha, v, hv, rfl⟩ := (hm c).1 hc
  exact hb.best a ha v hv hn

theorem outs_row {o : Prelim.Opts} {m : List (List Num)} {outs : List Prelim.Row}
    (h : Prelim.rows o m = some outs) :
    outs.length = m.length ∧ ∀ (k : Nat) (r : List Num), m[k]? = some r →
      ∃ out, outs[k]? = some out ∧ Prelim.rowStep o r = some out := by
  have he := Prelim.rows_iff.1 h
  have hl : outs.length = m.length := by
    have := congrArg List.length he
    simpa using this.symm
  refine ⟨hl, ?_⟩
  intro k r hr
  have := congrArg (fun l => l[k]?) he
  simp only [List.getElem?_map, hr, Option.map_some] at this
  cases ho : outs[k]? with
  | none => rw [ho] at this; cases this
  | some out =>
    rw [ho] at this
    simp only [Option.map_some, Option.some.injEq] at this
    exact ⟨out, rfl, this⟩

theorem row_exists {rows : List Nat} {names : List String} {m : List (List Num)}
    (h : Located num t rows names m) {k i : Nat} (hk : rows[k]? = some i) : ∃ r, m[k]? = some r := by
  have hl : k < m.length := by rw [h.nrows]; exact (List.getElem?_eq_some_iff.1 hk).1
  exact ⟨_, List.getElem?_eq_getElem hl⟩

/-! ### C162 -/

/-- The full claim, here about the labels and the verdicts: whatever the options, label `k` and row `k` of
`y_bin` belong to the same row of the table. -/
def DataFaithful : Prop :=
  ∀ (lower : String → String) (numeric : Squeezed Nat → Bool) (num : Nat → Num) (env : Env Nat Unit)
    (t : Table Nat) (labels rows : List Nat) (d : Dict Name (Val Nat Unit)),
    Readable lower env t labels → Succeeds lower numeric id num env t d →
    KeptRows lower num env t rows →
    ∃ (sub ls : List Nat) (yb : List (List Bool)), sub.Sublist rows ∧
      d .inst_labels = some (.labels ls) ∧ d .y_bin = some (.verdicts yb) ∧
      ls.length = sub.length ∧ yb.length = sub.length ∧
      ∀ k i : Nat, sub[k]? = some i → ls[k]? = labels[i]?

/-- Four instances, one of them without features; two features and two algorithms are left. -/
def smallTable : Table Nat :=
  ⟨4, [("instances", [10, 11, 12, 13]), ("feature_a", [1, 2, 0, 3]), ("algo_p", [4, 1, 7, 2]),
    ("feature_b", [5, 6, 0, 9]), ("algo_q", [1, 3, 7, 2]), ("feature_c", [5, 0, 0, 1])]⟩

/-- Numbers are numbers, except that 0 stands for a missing value. -/
def smallNum (n : Nat) : Num := if n = 0 then .nan else .fin n

/-- Maximise, good means at least 2; no library function is called. -/
def smallEnv (subset : Prelim.SubsetOpts) (file : Option (List Int)) : Env Nat Unit where
  feats := none
  algos := none
  prelim := ⟨true, true, .fin 2, .fin (1 / 2), false, false⟩
  junk := (.nan, .nan)
  tr := id
  mid := (.nan, .nan)
  fit := fun _ => (0, 0, 0)
  subset := subset
  tests := ⟨fun _ _ => false, fun _ _ => false, fun _ _ => false⟩
  split := none
  file := file
  lib := fun _ _ _ => ⟨fun _ => [], fun _ _ => 0, fun _ _ => [], fun _ _ => [], fun _ _ => 0,
    fun _ => .ok []⟩
  pearson := fun _ => (.nan, .nan)
  thr := 0
  clusters := 2
  fill := fun _ => ()
  rest := fun _ s _ => .ok ((outputs s).map fun a => (a.1, .other ()))

/-- The index file is used. -/
def withFile : Prelim.SubsetOpts := ⟨false, false, true, true, false, false, false, ""⟩
/-- No subset. -/
def noSubset : Prelim.SubsetOpts := ⟨false, false, false, false, false, false, false, ""⟩

/-- The run on the small table. -/
def smallRun (subset : Prelim.SubsetOpts) (file : Option (List Int)) :
    Except (Runner.RunError Name Err) (Dict Name (Val Nat Unit)) :=
  Runner.contents (Runner.runAll (runner defaultStages Pipeline.defaultSchedule
    (run (smallEnv subset file))) Runner.State.init
    (args (smallEnv subset file) smallNum (fromDataFrame id (fun _ => false) id smallTable)))

theorem small_readable (subset : Prelim.SubsetOpts) (file : Option (List Int)) :
    Readable id (smallEnv subset file) smallTable [10, 11, 12, 13] where
  rect := by
    intro c hc
    simp only [smallTable, List.mem_cons, List.not_mem_nil, or_false] at hc
    rcases hc with rfl | rfl | rfl | rfl | rfl | rfl <;> rfl
  distinct := by decide
  several := by decide
  labels := ⟨"instances", by decide +kernel⟩
  sources := by decide +kernel
  tuples := by
    intro k s vs out h
    cases h
    simp

theorem small_succeeds (subset : Prelim.SubsetOpts) (file : Option (List Int))
    (d : Dict Name (Val Nat Unit)) (h : smallRun subset file = .ok d) :
    Succeeds id (fun _ => false) id smallNum (smallEnv subset file) smallTable d :=
  ⟨defaultStages, Pipeline.listOrder, Pipeline.defaultSchedule, [], .refl _, Pipeline.default_once, h⟩

theorem small_kept (subset : Prelim.SubsetOpts) (file : Option (List Int)) :
    KeptRows id smallNum (smallEnv subset file) smallTable [0, 1, 3] := by
  have cell : ∀ (p name : String) (vals : List Nat) (i v : Nat), (name, vals) ∈ smallTable.cols →
      Begins id p name → vals[i]? = some v → v ≠ 0 →
      HasSome smallNum smallTable (Begins id p) none i := by
    intro p name vals i v hm hb hi hv
    refine ⟨name, v, ⟨⟨_, hm, rfl⟩, hb, ?_⟩, ⟨_, hm, rfl, hi⟩, by simp [smallNum, hv]⟩
    intro l hl
    cases hl
  have hx : Begins id "feature_" "feature_a" := ⟨['a'], by decide +kernel⟩
  have hy : Begins id "algo_" "algo_p" := ⟨['p'], by decide +kernel⟩
  refine ⟨by decide, ?_⟩
  intro i
  constructor
  · intro hi
    simp only [List.mem_cons, List.not_mem_nil, or_false] at hi
    rcases hi with rfl | rfl | rfl
    · exact ⟨by decide, cell _ _ [1, 2, 0, 3] 0 1 (by decide) hx rfl (by decide),
        cell _ _ [4, 1, 7, 2] 0 4 (by decide) hy rfl (by decide)⟩
    · exact ⟨by decide, cell _ _ [1, 2, 0, 3] 1 2 (by decide) hx rfl (by decide),
        cell _ _ [4, 1, 7, 2] 1 1 (by decide) hy rfl (by decide)⟩
    · exact ⟨by decide, cell _ _ [1, 2, 0, 3] 3 3 (by decide) hx rfl (by decide),
        cell _ _ [4, 1, 7, 2] 3 2 (by decide) hy rfl (by decide)⟩
  · rintro ⟨hi, hf, -⟩
    have hi4 : i < 4 := hi
    have h2 : i ≠ 2 := by
      rintro rfl
      obtain ⟨name, v, ⟨-, hb, -⟩, ⟨c, hc, rfl, hv⟩, hn⟩ := hf
      have : ∀ c ∈ smallTable.cols, "feature_".toList.isPrefixOf c.1.toList = true →
          c.2[2]? = some 0 := by decide +kernel
      obtain ⟨l, hl⟩ := hb
      have := this c hc (by
        rw [List.isPrefixOf_iff_prefix]
        exact ⟨l, hl.symm⟩)
      rw [hv] at this
      cases this
      exact hn rfl
    simp only [List.mem_cons, List.not_mem_nil, or_false]
    omega

/-- The labels of a value. -/
def theLabels : Option (Val Nat Unit) → Option (List Nat)
  | some (.labels l) => some l
  | _ => none
/-- The verdicts of a value. -/
def theVerdicts : Option (Val Nat Unit) → Option (List (List Bool))
  | some (.verdicts l) => some l
  | _ => none
/-- The counts of a value. -/
def theCounts : Option (Val Nat Unit) → Option (List Nat)
  | some (.counts l) => some l
  | _ => none

/-- **C162** is false when a subset of the instances is taken: with an index file naming instance 1 only,
there are three labels and one row of verdicts. -/
theorem C162_refuted : ¬ DataFaithful := by
  intro h
  unfold DataFaithful at h
  have hrun : ((smallRun withFile (some [1])).toOption.map fun d =>
      ((theLabels (d .inst_labels)).map List.length, (theVerdicts (d .y_bin)).map List.length)) =
      some (some 3, some 1) := by decide +kernel
  cases hd : smallRun withFile (some [1]) with
  | error e => rw [hd] at hrun; cases hrun
  | ok d =>
    rw [hd] at hrun
    obtain ⟨sub, ls, yb, -, h1, h2, h3, h4, -⟩ := h id (fun _ => false) smallNum _ smallTable _ _ d
      (small_readable withFile (some [1])) (small_succeeds _ _ d hd) (small_kept _ _)
    simp only [Except.toOption, Option.map_some, h1, h2, theLabels, theVerdicts, Option.some.injEq,
      Prod.mk.injEq] at hrun
    omega

/-- **C162, labels and sources.**  Label `k` of the Model is the label of the `k`-th row of the table that
has a feature value and a performance value (converted to a string if the column is numeric), and so is
source `k`.  Missing for the full property: a subset of the instances (see the refutation), repeated column
names, tables with one row. -/
theorem C162_labels_partial (ho : Ordinary lower env t labels)
    (h : Succeeds lower numeric str num env t d) {rows : List Nat}
    (hk : KeptRows lower num env t rows) :
    (∃ (f : V → V) (ls : List V), (f = id ∨ f = str) ∧ d .inst_labels = some (.labels ls) ∧ ls.length = rows.length ∧
      ∀ k i : Nat, rows[k]? = some i → ∃ l, labels[i]? = some l ∧ ls[k]? = some (f l)) ∧
    ((d .s = some (.sources none) ∧ ∀ c ∈ t.cols, lower c.1 ≠ "source") ∨
      ∃ ss, d .s = some (.sources (some ss)) ∧ ss.length = rows.length ∧
        ∀ k i : Nat, rows[k]? = some i → ∃ c ∈ t.cols, lower c.1 = "source" ∧ ss[k]? = c.2[i]?) := by
  obtain ⟨inst, s, o, outs, ys, sel, f, tr, hf, rfl, hl, hi, hs, -⟩ := run_located ho h hk
  have hr : ∀ i ∈ rows, i < t.nrows := fun i hi => ((hk.exact i).1 hi).1
  constructor
  · refine ⟨f, _, hf, tr.inst_labels, ?_, ?_⟩
    · rw [hi, Preprocessing.pick_length _ _ (by simpa [hl] using hr)]
    · intro k i hki
      rw [hi, Preprocessing.pick_getElem? _ _ (by simpa [hl] using hr), hki]
      have hlt : i < labels.length := hl ▸ hr i (List.mem_of_getElem? hki)
      exact ⟨labels[i], List.getElem?_eq_getElem hlt, by simp [List.getElem?_eq_getElem hlt]⟩
  · rcases tr.sources with ⟨h1, rfl⟩ | ⟨l, h1, rfl⟩
    · refine .inl ⟨by rw [tr.s_out, hs]; rfl, ?_⟩
      intro c hc hcs
      simp only [fromDataFrame] at h1
      split at h1
      · cases h1
      · rename_i hn
        exact hn (List.any_eq_true.2 ⟨c, hc, by simp [Metadata.isSource, hcs]⟩)
    · obtain ⟨name, hone, hll⟩ := sources_series ho.toReadable h1
      refine .inr ⟨_, by rw [tr.s_out, hs]; rfl, ?_, ?_⟩
      · rw [Preprocessing.pick_length _ _ (by rw [hll]; exact hr)]
      · intro k i hki
        have hm : (name, l) ∈ t.cols.filter fun c => lower c.1 == "source" := by simp [hone]
        refine ⟨(name, l), (List.mem_filter.1 hm).1, by simpa using (List.mem_filter.1 hm).2, ?_⟩
        rw [Preprocessing.pick_getElem? _ _ (by rw [hll]; exact hr), hki]
        rfl

/-- **C162, names.**  The algorithm labels of the Model are exactly the wanted algorithm columns, and the
feature labels are wanted feature columns, both in the order of the file and without repetition. -/
theorem C162_names_partial (ho : Ordinary lower env t labels)
    (h : Succeeds lower numeric str num env t d) {rows : List Nat}
    (hk : KeptRows lower num env t rows) :
    ∃ algos feats, d .algo_labels = some (.names algos) ∧ d .feat_labels = some (.names feats) ∧
      algos.Nodup ∧ feats.Nodup ∧ algos.Sublist (t.cols.map Prod.fst) ∧
      feats.Sublist (t.cols.map Prod.fst) ∧
      (∀ a, a ∈ algos ↔ Wanted t (Begins lower "algo_") env.algos a) ∧
      (∀ a ∈ feats, Wanted t (Begins lower "feature_") env.feats a) := by
  obtain ⟨inst, s, o, outs, ys, sel, f, tr, -, -, -, -, -, hy, hx, hyn, hxn, hsa, hsf, ha, hf⟩ :=
    run_located ho h hk
  obtain ⟨lib, rho, hsel⟩ := tr.sifted
  have al := Sifted.C69_aligned (by simp [Prelim.columns, hxn]) hsel
  have hfl : sel.featLabels = pick o.data.feat sel.selvars := by
    have hin : ∀ i ∈ sel.selvars, i < o.data.feat.length := by
      intro i hi
      have := al.inRange i hi
      simpa [Prelim.columns, hxn] using this
    apply List.ext_getElem?
    intro j
    rw [Preprocessing.pick_getElem? _ _ hin]
    cases hj : sel.selvars[j]? with
    | none =>
      rw [List.getElem?_eq_none]
      · rfl
      · rw [al.names]
        exact List.getElem?_eq_none_iff.1 hj
    | some i => exact (al.same j i hj).2
  have hsub := pick_sublist o.data.feat sel.selvars al.increasing
  refine ⟨_, _, tr.algo_labels, tr.feat_labels, hy.distinct, ?_, hsa, ?_, ha, ?_⟩
  · rw [hfl]
    exact hsub.nodup hx.distinct
  · rw [hfl]
    exact hsub.trans hsf
  · intro a ha'
    rw [hfl] at ha'
    exact hf a (Preprocessing.mem_pick ha')

/-- **C162, absolute goodness.**  With a finite absolute threshold `e`, entry `(k, j)` of `y_bin` is true
exactly when the cell of the table in the `k`-th kept row and in the column called like algorithm label
`j` is present and not beyond the threshold. -/
theorem C162_absolute_partial (ho : Ordinary lower env t labels)
    (h : Succeeds lower numeric str num env t d) {rows : List Nat}
    (hk : KeptRows lower num env t rows) (habs : env.prelim.absPerf = true) (e : ℚ)
    (he : env.prelim.epsilon = .fin e) {algos : List String}
    (ha : d .algo_labels = some (.names algos)) :
    ∃ yb, d .y_bin = some (.verdicts yb) ∧ yb.length = rows.length ∧
      ∀ (k i j : Nat) (a : String) (v : V), rows[k]? = some i → algos[j]? = some a → Cell t a i v →
        (At yb k j true ↔ num v ≠ .nan ∧
          if env.prelim.maxPerf then Num.le (.fin e) (num v) = true else Num.le (num v) (.fin e) = true) := by
  obtain ⟨inst, s, o, outs, ys, sel, f, tr, -, -, -, -, -, hy, -⟩ := run_located ho h hk
  have ha' := tr.algo_labels
  rw [ha] at ha'
  simp only [Option.some.injEq, Val.names.injEq] at ha'
  subst ha'
  obtain ⟨hol, hor⟩ := outs_row tr.rows
  refine ⟨_, tr.y_bin, by rw [List.length_map, hol, hy.nrows], ?_⟩
  intro k i j a v hki hja hv
  obtain ⟨r, hr⟩ := row_exists hy hki
  obtain ⟨out, ho1, ho2⟩ := hor k r hr
  have hcell := (located_row hy hki hr).2.1 j a v hja hv
  rw [← Prelim.C35_absolute env.prelim e habs he r out ho2 j (num v) hcell]
  unfold At Prelim.MarkedGood
  rw [List.getElem?_map, ho1]
  simp

/-- **C162, relative goodness.**  With a relative threshold `e < 1` and a positive best performance `b` in
the row, entry `(k, j)` of `y_bin` is true exactly when the cell is within the fraction of the best cell. -/
theorem C162_relative_partial (ho : Ordinary lower env t labels)
    (h : Succeeds lower numeric str num env t d) {rows : List Nat}
    (hk : KeptRows lower num env t rows) (habs : env.prelim.absPerf = false) (e : ℚ)
    (he : env.prelim.epsilon = .fin e) (he1 : e < 1) {algos : List String}
    (ha : d .algo_labels = some (.names algos)) :
    ∃ yb, d .y_bin = some (.verdicts yb) ∧ yb.length = rows.length ∧
      ∀ (k i j : Nat) (a : String) (v : V) (b : ℚ), rows[k]? = some i → algos[j]? = some a →
        Cell t a i v → BestCell num env.prelim.maxPerf t algos i (.fin b) → 0 < b →
        (At yb k j true ↔ Prelim.WithinFraction env.prelim.maxPerf e b (num v)) := by
  obtain ⟨inst, s, o, outs, ys, sel, f, tr, -, -, -, -, -, hy, -⟩ := run_located ho h hk
  have ha' := tr.algo_labels
  rw [ha] at ha'
  simp only [Option.some.injEq, Val.names.injEq] at ha'
  subst ha'
  obtain ⟨hol, hor⟩ := outs_row tr.rows
  refine ⟨_, tr.y_bin, by rw [List.length_map, hol, hy.nrows], ?_⟩
  intro k i j a v b hki hja hv hb hpos
  obtain ⟨r, hr⟩ := row_exists hy hki
  obtain ⟨out, ho1, ho2⟩ := hor k r hr
  have hcell := (located_row hy hki hr).2.1 j a v hja hv
  rw [← Prelim.C36_partial env.prelim e r out j (num v) b habs he he1 ho2 hcell
    (isBest_of_cell hy hki hr hb) hpos]
  unfold At Prelim.MarkedGood
  rw [List.getElem?_map, ho1]
  simp

/-- **C162, the best algorithm.**  Entry `k` of `p` is the number (from 1) of the first algorithm label whose
cell in the `k`-th kept row is the best of that row, and entry `k` of `y_best` is that cell.  Left out: rows
whose best value is the infinity that missing values are replaced by, and a best value 0 when minimising a
relative measure (C38). -/
theorem C162_best_partial (ho : Ordinary lower env t labels)
    (h : Succeeds lower numeric str num env t d) {rows : List Nat}
    (hk : KeptRows lower num env t rows) {algos : List String}
    (ha : d .algo_labels = some (.names algos)) :
    ∃ ps bs, d .p = some (.counts ps) ∧ d .y_best = some (.numbers bs) ∧ ps.length = rows.length ∧
      bs.length = rows.length ∧
      ∀ (k i : Nat) (b : Num), rows[k]? = some i → BestCell num env.prelim.maxPerf t algos i b →
        b ≠ worst env.prelim.maxPerf →
        (env.prelim.maxPerf = true ∨ env.prelim.absPerf = true ∨ b ≠ 0) →
        ∃ j a v, ps[k]? = some (j + 1) ∧ algos[j]? = some a ∧ Cell t a i v ∧ num v = b ∧
          (∀ (j' : Nat) a' v', j' < j → algos[j']? = some a' → Cell t a' i v' → num v' ≠ b) ∧
          (env.prelim.absPerf = true ∨ b ≠ 0 → bs[k]? = some b) := by
  obtain ⟨inst, s, o, outs, ys, sel, f, tr, -, -, -, -, -, hy, -⟩ := run_located ho h hk
  have ha' := tr.algo_labels
  rw [ha] at ha'
  simp only [Option.some.injEq, Val.names.injEq] at ha'
  subst ha'
  obtain ⟨hol, hor⟩ := outs_row tr.rows
  refine ⟨_, _, tr.p, tr.y_best, by rw [List.length_map, hol, hy.nrows],
    by rw [List.length_map, hol, hy.nrows], ?_⟩
  intro k i b hki hb hw hex
  obtain ⟨r, hr⟩ := row_exists hy hki
  obtain ⟨out, ho1, ho2⟩ := hor k r hr
  obtain ⟨hrl, hrc, -⟩ := located_row hy hki hr
  obtain ⟨p1, p2, p3, p4, p5⟩ := Prelim.C38_partial env.prelim r out b ho2
    (isBest_of_cell hy hki hr hb) hw (by
      rcases hex with h | h | h
      · exact .inl h
      · exact .inr (.inl h)
      · exact .inr (.inr (.inl h)))
  have hj : out.p - 1 < o.algo.length := by rw [← hrl]; omega
  have hja : o.algo[out.p - 1]? = some o.algo[out.p - 1] := List.getElem?_eq_getElem hj
  obtain ⟨v, hv⟩ := hy.all k i _ _ hki hja
  have hcell := hrc _ _ v hja hv
  rw [p3] at hcell
  refine ⟨out.p - 1, o.algo[out.p - 1], v, ?_, hja, hv, (Option.some.inj hcell).symm, ?_, ?_⟩
  · rw [List.getElem?_map, ho1]
    simp only [Option.map_some, Option.some.injEq]
    omega
  · intro j' a' v' hlt hja' hv' he
    apply p4 j' hlt
    rw [hrc j' a' v' hja' hv', he]
  · intro hz
    rw [List.getElem?_map, ho1]
    simp only [Option.map_some, Option.some.injEq]
    rw [p5, if_neg]
    rintro ⟨q1, q2⟩
    rcases hz with hz | hz
    · rw [q1] at hz; cases hz
    · exact hz q2

/-- **C162, raw values.**  Entry `(k, j)` of `y_raw` is the cell of algorithm label `j` in the `k`-th kept
row (with 0 replaced by the machine epsilon in the relative case), and entry `(k, selvars[j])` of `x_raw` is
the cell of feature label `j`. -/
theorem C162_raw_partial (ho : Ordinary lower env t labels)
    (h : Succeeds lower numeric str num env t d) {rows : List Nat}
    (hk : KeptRows lower num env t rows) {algos feats : List String} {selvars : List Nat}
    (ha : d .algo_labels = some (.names algos)) (hf : d .feat_labels = some (.names feats))
    (hs : d .selvars = some (.counts selvars)) :
    ∃ xr yr, d .x_raw = some (.table xr) ∧ d .y_raw = some (.table yr) ∧
      xr.rows.length = rows.length ∧ yr.rows.length = rows.length ∧ yr.ncols = algos.length ∧
      (∀ (k i j : Nat) (a : String) (v : V), rows[k]? = some i → algos[j]? = some a → Cell t a i v →
        At yr.rows k j (if env.prelim.absPerf = false ∧ num v = 0 then .fin Num.eps else num v)) ∧
      (∀ (k i j c : Nat) (a : String) (v : V), rows[k]? = some i → feats[j]? = some a →
        selvars[j]? = some c → Cell t a i v → At xr.rows k c (num v)) := by
  obtain ⟨inst, s, o, outs, ys, sel, f, tr, -, -, -, -, -, hy, hx, hyn, hxn, -⟩ := run_located ho h hk
  have ha' := tr.algo_labels
  rw [ha] at ha'
  simp only [Option.some.injEq, Val.names.injEq] at ha'
  subst ha'
  have hf' := tr.feat_labels
  rw [hf] at hf'
  simp only [Option.some.injEq, Val.names.injEq] at hf'
  subst hf'
  have hs' := tr.selvars
  rw [hs] at hs'
  simp only [Option.some.injEq, Val.counts.injEq] at hs'
  subst hs'
  obtain ⟨lib, rho, hsel⟩ := tr.sifted
  have al := Sifted.C69_aligned (by simp [Prelim.columns, hxn]) hsel
  have hfz : ∀ v : Num, Prelim.fixZero v = if v = 0 then .fin Num.eps else v := by
    intro v
    by_cases h0 : v = 0
    · subst h0; rfl
    · rw [if_neg h0, Prelim.fixZero_ne h0]
  refine ⟨_, _, tr.x_raw, tr.y_raw, hx.nrows, ?_, hyn, ?_, ?_⟩
  · simp only [Prelim.yRawOut, Prelim.afterPrelim]
    split
    · exact hy.nrows
    · simpa using hy.nrows
  · intro k i j a v hki hja hv
    have hc := bind_at.1 (hy.cells k i j a v hki hja hv)
    simp only [Prelim.yRawOut, Prelim.afterPrelim]
    cases hab : env.prelim.absPerf with
    | true => simpa using hc
    | false =>
      obtain ⟨r, hr, hrj⟩ := hc
      refine ⟨r.map Prelim.fixZero, ?_, ?_⟩
      · simp [hr]
      · rw [List.getElem?_map, hrj]
        simp only [Option.map_some, true_and]
        rw [hfz]
  · intro k i j c a v hki hja hjc hv
    rw [(al.same j c hjc).2] at hja
    exact bind_at.1 (hx.cells k i c a v hki hja hv)

/-- What PRELIM does to one feature column: bound outliers and normalise, as the options say. -/
def featureStep (env : Env V W) (col : List Num) : List Num :=
  (if env.prelim.norm then Prelim.normX env.tr else id)
    ((if env.prelim.bound then Prelim.boundCol env.junk else id) col)

theorem outX_map (cols : List (List Num)) :
    Prelim.outX env.prelim env.junk env.tr cols = cols.map (featureStep env) := by
  unfold Prelim.outX featureStep
  cases env.prelim.bound <;> cases env.prelim.norm <;> simp

/-- **C162, features.**  Column `j` of `x` is made from the cells of feature label `j` in the kept rows, by
bounding and normalising that column alone, as the options say; without these it is these cells. -/
theorem C162_features_partial (ho : Ordinary lower env t labels)
    (h : Succeeds lower numeric str num env t d) {rows : List Nat}
    (hk : KeptRows lower num env t rows) {feats : List String}
    (hf : d .feat_labels = some (.names feats)) :
    ∃ x, d .x = some (.table x) ∧ x.rows.length = rows.length ∧ x.ncols = feats.length ∧
      ∀ (j : Nat) (a : String) (col : List Num), feats[j]? = some a → col.length = rows.length →
        (∀ (k i : Nat) (v : V), rows[k]? = some i → Cell t a i v → col[k]? = some (num v)) →
        ∀ k, k < rows.length → At x.rows k j ((featureStep env col).getD k .nan) := by
  obtain ⟨inst, s, o, outs, ys, sel, f, tr, -, -, -, -, -, hy, hx, hyn, hxn, -⟩ := run_located ho h hk
  have hf' := tr.feat_labels
  rw [hf] at hf'
  simp only [Option.some.injEq, Val.names.injEq] at hf'
  subst hf'
  obtain ⟨lib, rho, hsel⟩ := tr.sifted
  have al := Sifted.C69_aligned (by simp [Prelim.columns, hxn]) hsel
  have hplen : (prelimX env o.data.x).length = rows.length := by
    simp [prelimX, rowsOf, hx.nrows]
  refine ⟨_, tr.x, by simp [rowsOf, hplen], by rw [al.columns, al.names], ?_⟩
  intro j a col hja hcl hcol k hkl
  have hjl : j < sel.selvars.length := by
    rw [← al.names]; exact (List.getElem?_eq_some_iff.1 hja).1
  have hjc : sel.selvars[j]? = some sel.selvars[j] := List.getElem?_eq_getElem hjl
  obtain ⟨hxj, hfj⟩ := al.same j _ hjc
  rw [hfj] at hja
  generalize sel.selvars[j] = c at hxj hfj hja hjc
  have hc : c < o.data.x.ncols := by rw [hxn]; exact (List.getElem?_eq_some_iff.1 hja).1
  -- the raw column
  have hraw : o.data.x.rows.map (fun r => r.getD c .nan) = col := by
    apply List.ext_getElem
    · rw [List.length_map, hx.nrows, hcl]
    · intro q h1 h2
      have hq : q < rows.length := by rw [← hcl]; exact h2
      have hki : rows[q]? = some rows[q] := List.getElem?_eq_getElem hq
      obtain ⟨v, hv⟩ := hx.all q _ c a hki hja
      obtain ⟨r, hr, hrc⟩ := bind_at.1 (hx.cells q _ c a v hki hja hv)
      have h3 := hcol q _ v hki hv
      rw [List.getElem?_eq_getElem h2] at h3
      rw [List.getElem_map]
      have hq' : q < o.data.x.rows.length := by simpa using h1
      have h4 : o.data.x.rows[q]? = some o.data.x.rows[q] := List.getElem?_eq_getElem hq'
      rw [hr] at h4
      rw [← Option.some.inj h4, List.getD_eq_getElem?_getD, hrc]
      exact (Option.some.inj h3).symm
  -- the column SIFTED sees
  have hcolumn : (Prelim.columns o.data.x.ncols (prelimX env o.data.x))[c]? =
      some ((List.range rows.length).map fun q => (featureStep env col).getD q .nan) := by
    unfold Prelim.columns
    rw [List.getElem?_map, List.getElem?_range hc]
    simp only [Option.map_some, Option.some.injEq]
    unfold prelimX rowsOf
    rw [List.map_map, hx.nrows]
    apply List.map_congr_left
    intro q _
    simp only [Function.comp]
    rw [outX_map, List.map_map, List.getD_eq_getElem?_getD, List.getElem?_map]
    unfold Prelim.columns
    rw [List.getElem?_map, List.getElem?_range hc]
    simp only [Option.map_some, Option.getD_some, Function.comp, hraw]
  rw [hcolumn] at hxj
  refine ⟨sel.x.map fun c => c.getD k .nan, ?_, ?_⟩
  · unfold rowsOf
    rw [hplen, List.getElem?_map, List.getElem?_range hkl]
    rfl
  · rw [List.getElem?_map, hxj]
    simp only [Option.map_some, Option.some.injEq]
    rw [List.getD_eq_getElem?_getD, List.getElem?_map, List.getElem?_range hkl]
    rfl

/-- **C162, the measure.**  Without normalisation entry `(k, j)` of `y` is the cell of algorithm label `j` in
the `k`-th kept row (absolute performances), or measures a cell `q` other than 0 against the best cell `b` of
that row: `1 - q/b` (larger is better) or `1 - b/q` (smaller is better).  Missing: normalisation, where `y`
is another function of the cells (C88). -/
theorem C162_measure_partial (ho : Ordinary lower env t labels)
    (h : Succeeds lower numeric str num env t d) {rows : List Nat}
    (hk : KeptRows lower num env t rows) (hn : env.prelim.norm = false) {algos : List String}
    (ha : d .algo_labels = some (.names algos)) :
    ∃ y, d .y = some (.table y) ∧ y.rows.length = rows.length ∧ y.ncols = algos.length ∧
      ∀ (k i j : Nat) (a : String) (v : V), rows[k]? = some i → algos[j]? = some a → Cell t a i v →
        (env.prelim.absPerf = true → At y.rows k j (num v)) ∧
        (env.prelim.absPerf = false → num v = .nan → At y.rows k j .nan) ∧
        (env.prelim.absPerf = false → ∀ b q : ℚ, BestCell num env.prelim.maxPerf t algos i (.fin b) →
          b ≠ 0 → num v = .fin q → q ≠ 0 →
          At y.rows k j (.fin (if env.prelim.maxPerf then 1 - q / b else 1 - b / q))) := by
  obtain ⟨inst, s, o, outs, ys, sel, f, tr, -, -, -, -, -, hy, -, hyn, -⟩ := run_located ho h hk
  have ha' := tr.algo_labels
  rw [ha] at ha'
  simp only [Option.some.injEq, Val.names.injEq] at ha'
  subst ha'
  refine ⟨_, tr.y, by simp [rowsOf, hy.nrows], hyn, ?_⟩
  intro k i j a v hki hja hv
  obtain ⟨r, hr⟩ := row_exists hy hki
  obtain ⟨hrl, hrc, -⟩ := located_row hy hki hr
  have hrj := hrc j a v hja hv
  have hpos : 0 < o.data.y.ncols := by
    rw [hyn]
    have := (List.getElem?_eq_some_iff.1 hja).1
    omega
  obtain ⟨cols, hcols, hcl, hcc, hm⟩ := Prelim.C88_measure_partial env.prelim hn env.tr o.data.y.ncols
    hpos o.data.y.rows (fun r hr => by rw [hyn]; exact hy.ncols r hr)
  have hys : cols = ys := by
    have := tr.outY
    rw [hcols] at this
    exact Option.some.inj this
  subst hys
  obtain ⟨w, hw, h1, h2, h3⟩ := hm k j r (num v) hr hrj
  have hat : At (rowsOf o.data.y.rows.length cols) k j w := by
    have hkl : k < o.data.y.rows.length := (List.getElem?_eq_some_iff.1 hr).1
    refine ⟨cols.map fun c => c.getD k .nan, ?_, ?_⟩
    · unfold rowsOf
      rw [List.getElem?_map, List.getElem?_range hkl]
      rfl
    · rw [List.getElem?_map]
      cases hc : cols[j]? with
      | none => rw [hc] at hw; cases hw
      | some c =>
        rw [hc] at hw
        simp only [Option.bind_some] at hw
        simp [List.getD_eq_getElem?_getD, hw]
  refine ⟨fun q => ?_, fun q q' => ?_, fun q b c hb hb0 hc hc0 => ?_⟩
  · rw [← h1 q]; exact hat
  · rw [← h2 q q']; exact hat
  · rw [← h3 q b c (isBest_of_cell hy hki hr hb) hb0 hc hc0]; exact hat

/-- **C162, counts.**  Entry `k` of `num_good_algos` counts the true entries of row `k` of `y_bin`, and with
a finite threshold `b`, entry `k` of `beta` says whether more than this fraction of the algorithms is good. -/
theorem C162_counts_partial (ho : Ordinary lower env t labels)
    (h : Succeeds lower numeric str num env t d) {rows : List Nat}
    (hk : KeptRows lower num env t rows) (b : ℚ) (hb : env.prelim.betaThreshold = .fin b)
    {algos : List String} (ha : d .algo_labels = some (.names algos)) :
    ∃ yb ns bs, d .y_bin = some (.verdicts yb) ∧ d .num_good_algos = some (.counts ns) ∧
      d .beta = some (.flags bs) ∧ ns.length = rows.length ∧ bs.length = rows.length ∧
      ∀ (k : Nat) (r : List Bool), yb[k]? = some r → r.length = algos.length ∧
        ns[k]? = some (r.count true) ∧ ∃ hard, bs[k]? = some hard ∧
          (hard = true ↔ b * algos.length < r.count true) := by
  obtain ⟨inst, s, o, outs, ys, sel, f, tr, -, -, -, -, -, hy, -⟩ := run_located ho h hk
  have ha' := tr.algo_labels
  rw [ha] at ha'
  simp only [Option.some.injEq, Val.names.injEq] at ha'
  subst ha'
  obtain ⟨hol, hor⟩ := outs_row tr.rows
  refine ⟨_, _, _, tr.y_bin, tr.num_good_algos, tr.beta, by rw [List.length_map, hol, hy.nrows],
    by rw [List.length_map, hol, hy.nrows], ?_⟩
  intro k r hkr
  have hk1 : k < o.data.y.rows.length := by
    have := (List.getElem?_eq_some_iff.1 hkr).1
    rw [List.length_map, hol] at this
    exact this
  obtain ⟨out, ho1, ho2⟩ := hor k _ (List.getElem?_eq_getElem hk1)
  rw [List.getElem?_map, ho1] at hkr
  simp only [Option.map_some, Option.some.injEq] at hkr
  subst hkr
  have hrl := hy.ncols _ (List.getElem_mem hk1)
  obtain ⟨c1, -, c3⟩ := Prelim.C39_counts env.prelim b hb _ out ho2
  obtain ⟨best0, -, -, -, -, -, c2, -⟩ := Prelim.rowStep_some ho2
  rw [hrl] at c1 c3
  refine ⟨c1, ?_, out.beta, by rw [List.getElem?_map, ho1]; rfl, by rw [c3, c2]⟩
  rw [List.getElem?_map, ho1, Option.map_some, c2]

/-- The labels, verdicts, best algorithms and counts of a run. -/
def digest (r : Except (Runner.RunError Name Err) (Dict Name (Val Nat Unit))) :
    Option (List Nat) × Option (List (List Bool)) × Option (List Nat) × Option (List Nat) :=
  match r with
  | .ok d => (theLabels (d .inst_labels), theVerdicts (d .y_bin), theCounts (d .p),
      theCounts (d .num_good_algos))
  | .error _ => (none, none, none, none)

/-- Non-vacuity: the small table and the options without a subset meet the hypotheses, and the run
succeeds with the labels, verdicts and best algorithms one reads off the table. -/
example : Ordinary id (smallEnv noSubset none) smallTable [10, 11, 12, 13] ∧
    KeptRows id smallNum (smallEnv noSubset none) smallTable [0, 1, 3] ∧
    (∃ d, Succeeds id (fun _ => false) id smallNum (smallEnv noSubset none) smallTable d) ∧
    digest (smallRun noSubset none) = (some [10, 11, 13],
      some [[true, false], [false, true], [true, true]], some [1, 2, 1], some [1, 1, 2]) := by
  have hrun : digest (smallRun noSubset none) = (some [10, 11, 13],
      some [[true, false], [false, true], [true, true]], some [1, 2, 1], some [1, 1, 2]) := by
    decide +kernel
  refine ⟨⟨small_readable _ _, by simp [Prelim.UsesFraction, smallEnv, noSubset],
    by simp [Prelim.UsesFile, smallEnv, noSubset],
    by simp [Prelim.UsesDensity, Prelim.AsksDensity, smallEnv, noSubset]⟩, small_kept _ _, ?_, hrun⟩
  cases hd : smallRun noSubset none with
  | error e => rw [hd] at hrun; cases hrun
  | ok d => exact ⟨d, small_succeeds _ _ d hd⟩

end Verif.EndToEnd
