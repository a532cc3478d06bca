import Verif.EndToEnd.FilesLemmas
/-!
# C166: the exported CSV files show the cells of the metadata table
-/
set_option autoImplicit false
set_option linter.unusedSectionVars false

namespace Verif.EndToEnd

open Verif (Num)
open Verif.Pipeline (Stg Name outputs defaultStages runner modelOf)
open Verif.Metadata (Table Squeezed Begins fromDataFrame)
open Verif.Preprocessing (Lists pick)
open Verif.Prelim (worst)
open Verif.Runner (Dict)
open Verif.Export (Export saveCsv Fits Holds)

variable {V W α : Type} {lower : String → String} {numeric : Squeezed V → Bool} {str : V → V}
  {num : V → Num} {env : Env V W} {t : Table V} {labels : List V} {d : Dict Name (Val V W)}
  {tx : Text V α} {files : List (String × Export.File α)}

/-! ### What all theorems use -/

/-- The names of the rows of the table in the files: the labels as text, converted to strings before if
the column is numeric. -/
def RowNames (tx : Text V α) (str : V → V) (labels : List V) (names : List String) : Prop :=
  names = labels.map tx.label ∨ names = labels.map fun l => tx.label (str l)

theorem saved_common (ho : Ordinary lower env t labels) (h : Succeeds lower numeric str num env t d)
    {rows : List Nat} (hk : KeptRows lower num env t rows) (hs : Saved tx d files) :
    ∃ (names : List String) (junk : α × α) (e : Export α) (x y xr yr : Preprocessing.Mat Num)
      (yb : List (List Bool)) (n p selvars : List Nat) (beta : List Bool), RowNames tx str labels names ∧
      files = (saveCsv junk true e).files ∧ Fits e ∧
      e.instLabels = pick names rows ∧ (∀ i ∈ rows, i < names.length) ∧
      d .feat_labels = some (.names e.featLabels) ∧ d .algo_labels = some (.names e.algoLabels) ∧
      d .selvars = some (.counts selvars) ∧
      (rows ≠ [] → selvars = List.range e.featLabels.length ∧ e.idx = selvars) ∧
      (d .x = some (.table x) ∧ e.x = x.rows.map (·.map tx.num)) ∧
      (d .y = some (.table y) ∧ e.y = y.rows.map (·.map tx.num)) ∧
      (d .x_raw = some (.table xr) ∧ e.xRaw = xr.rows.map (·.map tx.num)) ∧
      (d .y_raw = some (.table yr) ∧ e.yRaw = yr.rows.map (·.map tx.num)) ∧
      (d .y_bin = some (.verdicts yb) ∧ e.yBin = yb.map (·.map tx.bool)) ∧
      (d .num_good_algos = some (.counts n) ∧ e.numGood = n.map tx.count) ∧
      (d .beta = some (.flags beta) ∧ e.beta = beta.map tx.bool) ∧
      (d .p = some (.counts p) ∧ e.p = p.map tx.count) := by
  obtain ⟨junk, rest, e, m, hm, he, herr, rfl⟩ := hs
  have hfit := (Export.C82_exact_partial junk e).1 herr
  obtain ⟨inst, x, y, xr, yr, yb, n, beta, p, e1, e2, e3, e4, e5, e6, e7, e8, e9, e10, e11, e12, e13, e14,
    e15, e16, e17, e18, e19, e20, e21⟩ := exportOf_eq hm he
  obtain ⟨inst0, s, o, outs, ys, sel, f, tr, hf, rfl, hl, hi, -, -, hx, -, hxn, -⟩ := run_located ho h hk
  have hlt : ∀ i ∈ rows, i < labels.length := fun i hi => hl ▸ ((hk.exact i).1 hi).1
  have hin : inst = o.data.inst := by
    have := tr.inst_labels
    rw [e1] at this
    simpa using this
  have hxr : xr = o.data.x := by
    have := tr.x_raw
    rw [e6] at this
    simpa using this
  have hfl : e.featLabels = sel.featLabels := by
    have := tr.feat_labels
    rw [e2] at this
    simpa using this
  have hid : e.idx = sel.idx := by
    have := tr.idx
    rw [e12] at this
    simpa using this
  refine ⟨labels.map fun l => tx.label (f l), junk, e, x, y, xr, yr, yb, n, p, sel.selvars, beta, ?_, rfl,
    hfit, ?_, by simpa using hlt, e2, e3, tr.selvars, ?_, ⟨e4, e14⟩, ⟨e5, e15⟩, ⟨e6, e16⟩, ⟨e7, e17⟩,
    ⟨e8, e18⟩, ⟨e9, e19⟩, ⟨e10, e20⟩, ⟨e11, e21⟩⟩
  · rcases hf with rfl | rfl
    · exact .inl rfl
    · exact .inr rfl
  · rw [e13, hin, hi]
    simp [pick, List.map_filterMap, Function.comp_def]
  · intro hne
    obtain ⟨lib, rho, hsel⟩ := tr.sifted
    have al := Sifted.C69_aligned (by simp [Prelim.columns, hxn]) hsel
    have hidx := Sifted.C105_partial hsel
    have hxne : e.xRaw ≠ [] := by
      intro h0
      rw [e16, hxr, List.map_eq_nil_iff] at h0
      have := hx.nrows
      rw [h0] at this
      exact hne (List.length_eq_zero_iff.1 this.symm)
    obtain ⟨r, hr⟩ := List.exists_mem_of_ne_nil _ hxne
    have hlen := (hfit.idx r hr).2
    rw [hid, hidx, hfl, al.names, List.length_range] at hlen
    have := increasing_all al.increasing al.inRange hlen.symm
    refine ⟨?_, ?_⟩
    · rw [hfl, al.names, ← hlen]; exact this
    · rw [hid, hidx]; exact this.symm

theorem get_map {β γ : Type} {f : β → γ} {m : List (List β)} {k j : Nat} {c : γ}
    (h : ((m.map (·.map f))[k]?.bind fun r => r[j]?) = some c) : ∃ v, At m k j v ∧ c = f v := by
  rw [List.getElem?_map] at h
  cases hr : m[k]? with
  | none => rw [hr] at h; cases h
  | some r =>
    rw [hr] at h
    simp only [Option.map_some, Option.bind_some, List.getElem?_map] at h
    cases hv : r[j]? with
    | none => rw [hv] at h; cases h
    | some v =>
      rw [hv] at h
      exact ⟨v, ⟨r, hr, hv⟩, (Option.some.inj h).symm⟩

theorem at_unique {β : Type} {m : List (List β)} {k j : Nat} {v w : β} (h : At m k j v)
    (h' : At m k j w) : v = w := by
  obtain ⟨r, h1, h2⟩ := h
  obtain ⟨r', h3, h4⟩ := h'
  rw [h1] at h3
  cases h3
  rw [h2] at h4
  exact Option.some.inj h4

/-! ### C166 -/

/-- The full claim, here about the raw performances: the file `algorithm_raw.csv` of an exported Model
shows the performances of the table. -/
def FilesFaithful : Prop :=
  ∀ (lower : String → String) (numeric : Squeezed Nat → Bool) (num : Nat → Num) (env : Env Nat Unit)
    (t : Table Nat) (labels rows : List Nat) (d : Dict Name (Val Nat Unit)) (tx : Text Nat Num)
    (files : List (String × Export.File Num)),
    Ordinary lower env t labels → Succeeds lower numeric id num env t d →
    KeptRows lower num env t rows → Saved tx d files →
    ∃ names algos, RowNames tx id labels names ∧ d .algo_labels = some (.names algos) ∧
      FileShows files "algorithm_raw.csv" names algos rows
        fun i a c => ∃ v, Cell t a i v ∧ c = tx.num (num v)

/-- **C166, raw values.**  Each line of `algorithm_raw.csv` is about one kept row of the table and shows its
cells in the algorithm columns, under their names, except that 0 is replaced by the machine epsilon for
relative performances.  `feature_raw.csv` shows the cells of the exported features.  Missing for the full
property: a subset of the instances and the replaced zeros; and a Model of fewer features than SIFTED was
given is not exported at all (C82). -/
theorem C166_raw_partial (ho : Ordinary lower env t labels) (h : Succeeds lower numeric str num env t d)
    {rows : List Nat} (hk : KeptRows lower num env t rows) (hs : Saved tx d files) :
    ∃ names algos feats, RowNames tx str labels names ∧
      d .algo_labels = some (.names algos) ∧ d .feat_labels = some (.names feats) ∧
      FileShows files "algorithm_raw.csv" names algos rows (fun i a c => ∃ v, Cell t a i v ∧
        c = tx.num (if env.prelim.absPerf = false ∧ num v = 0 then .fin Num.eps else num v)) ∧
      FileShows files "feature_raw.csv" names feats rows
        (fun i a c => ∃ v, Cell t a i v ∧ c = tx.num (num v)) := by
  obtain ⟨names, junk, e, x, y, xr, yr, yb, n, p, selvars, beta, hn, rfl, hfit, hin, hlt, hfe, hal, hse,
    hsel, -, -, ⟨hxr, hexr⟩, ⟨hyr, heyr⟩, -⟩ := saved_common ho h hk hs
  obtain ⟨xr', yr', g1, g2, -, -, -, g3, g4⟩ := C162_raw_partial ho h hk hal hfe hse
  rw [hxr] at g1
  rw [hyr] at g2
  cases g1
  cases g2
  obtain ⟨inst, s, o, outs, ys, sel, f, tr, -, -, -, -, -, hy, hx, -, hxn, -⟩ := run_located ho h hk
  refine ⟨names, _, _, hn, hal, hfe, ?_, ?_⟩
  · refine shows_of_holds (Export.C111_matrices junk e hfit).2.2.1 hin hlt ?_
    intro k i j a c hki hja hc
    rw [heyr] at hc
    obtain ⟨w, hw, rfl⟩ := get_map hc
    have hal' := tr.algo_labels
    rw [hal] at hal'
    simp only [Option.some.injEq, Val.names.injEq] at hal'
    obtain ⟨v, hv⟩ := hy.all k i j a hki (hal' ▸ hja)
    exact ⟨v, hv, congrArg tx.num (at_unique hw (g3 k i j a v hki hja hv))⟩
  · refine shows_of_holds (Export.C111_raw_features junk e hfit) hin hlt ?_
    intro k i j a c hki hja hc
    have hne : rows ≠ [] := by
      rintro rfl
      cases hki
    obtain ⟨s1, s2⟩ := hsel hne
    have hj := (List.getElem?_eq_some_iff.1 hja).1
    have hsj : selvars[j]? = some j := by rw [s1, List.getElem?_range hj]
    rw [s2, hsj] at hc
    simp only [Option.bind_some] at hc
    rw [hexr] at hc
    obtain ⟨w, hw, rfl⟩ := get_map hc
    obtain ⟨lib, rho, hsif⟩ := tr.sifted
    have al := Sifted.C69_aligned (by simp [Prelim.columns, hxn]) hsif
    have hfl := tr.feat_labels
    rw [hfe] at hfl
    simp only [Option.some.injEq, Val.names.injEq] at hfl
    have hsv := tr.selvars
    rw [hse] at hsv
    simp only [Option.some.injEq, Val.counts.injEq] at hsv
    have hoa : o.data.feat[j]? = some a := by
      rw [← (al.same j j (hsv ▸ hsj)).2, ← hfl]
      exact hja
    obtain ⟨v, hv⟩ := hx.all k i j a hki hoa
    exact ⟨v, hv, congrArg tx.num (at_unique hw (g4 k i j j a v hki hja hsj hv))⟩

theorem algo_cell (ho : Ordinary lower env t labels) (h : Succeeds lower numeric str num env t d)
    {rows : List Nat} (hk : KeptRows lower num env t rows) {algos : List String}
    (hal : d .algo_labels = some (.names algos)) {k i j : Nat} {a : String} (hki : rows[k]? = some i)
    (hja : algos[j]? = some a) : ∃ v, Cell t a i v := by
  obtain ⟨inst, s, o, outs, ys, sel, f, tr, -, -, -, -, -, hy, -⟩ := run_located ho h hk
  have hal' := tr.algo_labels
  rw [hal] at hal'
  simp only [Option.some.injEq, Val.names.injEq] at hal'
  exact hy.all k i j a hki (hal' ▸ hja)

/-- **C166, verdicts.**  Under the name of an algorithm, a line of `algorithm_bin.csv` shows `True` exactly
when the cell of the table is good: present and not beyond a finite absolute threshold; or, for a relative
threshold below 1 and a positive best performance of the row, within the fraction of that. -/
theorem C166_verdicts_partial (ho : Ordinary lower env t labels)
    (h : Succeeds lower numeric str num env t d) {rows : List Nat}
    (hk : KeptRows lower num env t rows) (hs : Saved tx d files) (q : ℚ)
    (he : env.prelim.epsilon = .fin q) :
    ∃ names algos, RowNames tx str labels names ∧ d .algo_labels = some (.names algos) ∧
      FileShows files "algorithm_bin.csv" names algos rows (fun i a c => ∃ v b, Cell t a i v ∧
        c = tx.bool b ∧
        (env.prelim.absPerf = true → (b = true ↔ num v ≠ .nan ∧ if env.prelim.maxPerf
          then Num.le (.fin q) (num v) = true else Num.le (num v) (.fin q) = true)) ∧
        (env.prelim.absPerf = false → q < 1 → ∀ r : ℚ,
          BestCell num env.prelim.maxPerf t algos i (.fin r) → 0 < r →
          (b = true ↔ Prelim.WithinFraction env.prelim.maxPerf q r (num v)))) := by
  obtain ⟨names, junk, e, x, y, xr, yr, yb, n, p, selvars, beta, hn, rfl, hfit, hin, hlt, hfe, hal, hse,
    hsel, -, -, -, -, ⟨hyb, heyb⟩, -⟩ := saved_common ho h hk hs
  refine ⟨names, _, hn, hal, ?_⟩
  refine shows_of_holds (Export.C111_matrices junk e hfit).2.2.2.2.1 hin hlt ?_
  intro k i j a c hki hja hc
  rw [heyb] at hc
  obtain ⟨w, hw, rfl⟩ := get_map hc
  obtain ⟨v, hv⟩ := algo_cell ho h hk hal hki hja
  have hwt : w = true ↔ At yb k j true := by
    constructor
    · rintro rfl; exact hw
    · intro h'; exact at_unique hw h'
  refine ⟨v, w, hv, rfl, ?_, ?_⟩
  · intro habs
    obtain ⟨yb', g1, -, g2⟩ := C162_absolute_partial ho h hk habs q he hal
    rw [hyb] at g1
    cases g1
    rw [hwt]
    exact g2 k i j a v hki hja hv
  · intro habs hq r hb hr
    obtain ⟨yb', g1, -, g2⟩ := C162_relative_partial ho h hk habs q he hq hal
    rw [hyb] at g1
    cases g1
    rw [hwt]
    exact g2 k i j a v r hki hja hv hb hr

/-- **C166, the portfolio.**  The line of `portfolio.csv` about a row of the table shows the number (from 1)
of the first algorithm whose cell is the best of that row.  Left out: the rows left out in C162. -/
theorem C166_portfolio_partial (ho : Ordinary lower env t labels)
    (h : Succeeds lower numeric str num env t d) {rows : List Nat}
    (hk : KeptRows lower num env t rows) (hs : Saved tx d files) :
    ∃ names algos, RowNames tx str labels names ∧ d .algo_labels = some (.names algos) ∧
      FileShows files "portfolio.csv" names ["Best_Algorithm"] rows (fun i _ c =>
        ∀ b, BestCell num env.prelim.maxPerf t algos i b → b ≠ worst env.prelim.maxPerf →
          (env.prelim.maxPerf = true ∨ env.prelim.absPerf = true ∨ b ≠ 0) →
          ∃ j a v, c = tx.count (j + 1) ∧ algos[j]? = some a ∧ Cell t a i v ∧ num v = b ∧
            ∀ (j' : Nat) a' v', j' < j → algos[j']? = some a' → Cell t a' i v' → num v' ≠ b) := by
  obtain ⟨names, junk, e, x, y, xr, yr, yb, n, p, selvars, beta, hn, rfl, hfit, hin, hlt, hfe, hal, hse,
    hsel, -, -, -, -, -, -, -, ⟨hp, hep⟩⟩ := saved_common ho h hk hs
  refine ⟨names, _, hn, hal, ?_⟩
  refine shows_of_holds (Export.C111_columns junk e hfit).2.2.1 hin hlt ?_
  intro k i j a c hki hja hc b hb h1 h2
  obtain ⟨ps, bs, g1, -, -, -, g2⟩ := C162_best_partial ho h hk hal
  rw [hp] at g1
  cases g1
  obtain ⟨j', a', v', q1, q2, q3, q4, q5, -⟩ := g2 k i b hki hb h1 h2
  rw [hep, List.getElem?_map, q1] at hc
  exact ⟨j', a', v', (Option.some.inj hc).symm, q2, q3, q4, q5⟩

/-- **C166, counts.**  The line of `good_algos.csv` about a row of the table shows how many entries of the
line of `algorithm_bin.csv` about that row were written for good algorithms, and the one of `beta_easy.csv`
shows whether this is more than the fraction asked for of all algorithms. -/
theorem C166_counts_partial (ho : Ordinary lower env t labels)
    (h : Succeeds lower numeric str num env t d) {rows : List Nat}
    (hk : KeptRows lower num env t rows) (hs : Saved tx d files) (b : ℚ)
    (hb : env.prelim.betaThreshold = .fin b) :
    ∃ (names algos : List String) (good : Nat → List Bool), RowNames tx str labels names ∧
      d .algo_labels = some (.names algos) ∧
      FileShows files "algorithm_bin.csv" names algos rows (fun i a c => ∃ j : Nat, ∃ g,
        algos[j]? = some a ∧ (good i).length = algos.length ∧ (good i)[j]? = some g ∧ c = tx.bool g) ∧
      FileShows files "good_algos.csv" names ["NumGoodAlgos"] rows (fun i _ c =>
        c = tx.count ((good i).count true)) ∧
      FileShows files "beta_easy.csv" names ["IsBetaEasy"] rows (fun i _ c =>
        ∃ easy, c = tx.bool easy ∧ (easy = true ↔ b * algos.length < (good i).count true)) := by
  obtain ⟨names, junk, e, x, y, xr, yr, yb, n, p, selvars, beta, hn, rfl, hfit, hin, hlt, hfe, hal, hse,
    hsel, -, -, -, -, ⟨hyb, heyb⟩, ⟨hng, hen⟩, ⟨hbe, heb⟩, -⟩ := saved_common ho h hk hs
  obtain ⟨yb', ns, bs, g1, g2, g3, g4, -, g5⟩ := C162_counts_partial ho h hk b hb hal
  rw [hyb] at g1
  rw [hng] at g2
  rw [hbe] at g3
  cases g1
  cases g2
  cases g3
  have hnd : rows.Nodup := hk.increasing.imp fun h => Nat.ne_of_lt h
  have hlen : yb.length = rows.length := by
    have := hfit.yBin.1
    rw [heyb, List.length_map, hin, Preprocessing.pick_length _ _ hlt] at this
    exact this
  have hgood : ∀ k i : Nat, rows[k]? = some i → ∃ r, yb[k]? = some r ∧
      yb.getD (rows.idxOf i) [] = r := by
    intro k i hki
    have hkl := (List.getElem?_eq_some_iff.1 hki).1
    have hk' : k < yb.length := by omega
    have hidx : rows.idxOf i = k := by
      have := (List.getElem?_eq_some_iff.1 hki).2
      rw [← this]
      exact hnd.idxOf_getElem k hkl
    refine ⟨yb[k], List.getElem?_eq_getElem hk', ?_⟩
    rw [hidx, List.getD_eq_getElem?_getD, List.getElem?_eq_getElem hk']
    rfl
  refine ⟨names, _, fun i => yb.getD (rows.idxOf i) [], hn, hal, ?_, ?_, ?_⟩
  · refine shows_of_holds (Export.C111_matrices junk e hfit).2.2.2.2.1 hin hlt ?_
    intro k i j a c hki hja hc
    rw [heyb] at hc
    obtain ⟨w, hw, rfl⟩ := get_map hc
    obtain ⟨r, hr, hg⟩ := hgood k i hki
    obtain ⟨r', h1, h2⟩ := hw
    rw [hr] at h1
    cases h1
    exact ⟨j, w, hja, by dsimp only; rw [hg]; exact (g5 k _ hr).1, by dsimp only; rw [hg]; exact h2, rfl⟩
  · refine shows_of_holds (Export.C111_columns junk e hfit).1 hin hlt ?_
    intro k i j a c hki hja hc
    obtain ⟨r, hr, hg⟩ := hgood k i hki
    rw [hen, List.getElem?_map, (g5 k r hr).2.1] at hc
    dsimp only
    rw [hg]
    exact (Option.some.inj hc).symm
  · refine shows_of_holds (Export.C111_columns junk e hfit).2.1 hin hlt ?_
    intro k i j a c hki hja hc
    obtain ⟨r, hr, hg⟩ := hgood k i hki
    obtain ⟨-, -, easy, q1, q2⟩ := g5 k r hr
    rw [heb, List.getElem?_map, q1] at hc
    refine ⟨easy, (Option.some.inj hc).symm, ?_⟩
    dsimp only
    rw [hg]
    exact q2

/-- **C166, processed values.**  The entry of `feature_process.csv` about row `i` of the table and feature
`a` is made from the cells of that feature in the kept rows, by bounding and normalising this column alone.
Without normalisation `algorithm_process.csv` shows the cells of the table (absolute performances), or
measures a cell `q` other than 0 against the best cell `b` of its row: `1 - q/b` or `1 - b/q`.  Missing: the
normalised performances. -/
theorem C166_processed_partial (ho : Ordinary lower env t labels)
    (h : Succeeds lower numeric str num env t d) {rows : List Nat}
    (hk : KeptRows lower num env t rows) (hs : Saved tx d files) :
    ∃ names algos feats, RowNames tx str labels names ∧ d .algo_labels = some (.names algos) ∧
      d .feat_labels = some (.names feats) ∧
      FileShows files "feature_process.csv" names feats rows (fun i a c =>
        ∀ col : List Num, col.length = rows.length →
          (∀ (k i' : Nat) (v : V), rows[k]? = some i' → Cell t a i' v → col[k]? = some (num v)) →
          ∃ k : Nat, rows[k]? = some i ∧ c = tx.num ((featureStep env col).getD k .nan)) ∧
      (env.prelim.norm = false →
        FileShows files "algorithm_process.csv" names algos rows (fun i a c => ∃ v w, Cell t a i v ∧
          c = tx.num w ∧ (env.prelim.absPerf = true → w = num v) ∧
          (env.prelim.absPerf = false → num v = .nan → w = .nan) ∧
          (env.prelim.absPerf = false → ∀ b q : ℚ, BestCell num env.prelim.maxPerf t algos i (.fin b) →
            b ≠ 0 → num v = .fin q → q ≠ 0 →
            w = .fin (if env.prelim.maxPerf then 1 - q / b else 1 - b / q)))) := by
  obtain ⟨names, junk, e, x, y, xr, yr, yb, n, p, selvars, beta, hn, rfl, hfit, hin, hlt, hfe, hal, hse,
    hsel, ⟨hx, hex⟩, ⟨hy, hey⟩, -⟩ := saved_common ho h hk hs
  refine ⟨names, _, _, hn, hal, hfe, ?_, ?_⟩
  · refine shows_of_holds (Export.C111_matrices junk e hfit).2.1 hin hlt ?_
    intro k i j a c hki hja hc col hcl hcol
    rw [hex] at hc
    obtain ⟨w, hw, rfl⟩ := get_map hc
    obtain ⟨x', g1, -, -, g2⟩ := C162_features_partial ho h hk hfe
    rw [hx] at g1
    cases g1
    exact ⟨k, hki, congrArg tx.num (at_unique hw
      (g2 j a col hja hcl hcol k (List.getElem?_eq_some_iff.1 hki).1))⟩
  · intro hnorm
    refine shows_of_holds (Export.C111_matrices junk e hfit).2.2.2.1 hin hlt ?_
    intro k i j a c hki hja hc
    rw [hey] at hc
    obtain ⟨w, hw, rfl⟩ := get_map hc
    obtain ⟨y', g1, -, -, g2⟩ := C162_measure_partial ho h hk hnorm hal
    rw [hy] at g1
    cases g1
    obtain ⟨v, hv⟩ := algo_cell ho h hk hal hki hja
    obtain ⟨q1, q2, q3⟩ := g2 k i j a v hki hja hv
    exact ⟨v, w, hv, rfl, fun z => at_unique hw (q1 z), fun z z' => at_unique hw (q2 z z'),
      fun z b q z1 z2 z3 z4 => at_unique hw (q3 z b q z1 z2 z3 z4)⟩

/-! ### The refutation and an example -/

/-- Two instances; algorithm p takes no time on the first one. -/
def zeroTable : Table Nat :=
  ⟨2, [("instances", [10, 11]), ("feature_a", [1, 2]), ("feature_b", [5, 6]), ("algo_p", [0, 3]),
    ("algo_q", [4, 2])]⟩

/-- Numbers are numbers. -/
def plainNum (n : Nat) : Num := .fin n

/-- Minimise, good means within half of the best. -/
def zeroEnv (absPerf : Bool) : Env Nat Unit :=
  { smallEnv noSubset none with prelim := ⟨false, absPerf, .fin (1 / 2), .fin (1 / 2), false, false⟩ }

/-- The run on the two instances. -/
def zeroRun (absPerf : Bool) : Except (Runner.RunError Name Err) (Dict Name (Val Nat Unit)) :=
  Runner.contents (Runner.runAll (runner defaultStages Pipeline.defaultSchedule (run (zeroEnv absPerf)))
    Runner.State.init (args (zeroEnv absPerf) plainNum (fromDataFrame id (fun _ => false) id zeroTable)))

/-- The labels are 10 and 11. -/
def zeroText : Text Nat Num where
  label n := if n = 10 then "ten" else "eleven"
  num := id
  bool b := if b then 1 else 0
  count n := .fin n
  word _ := .nan

/-- What the last four stages contribute. -/
def zeroRest : Export Num where
  instLabels := []
  featLabels := []
  algoLabels := []
  nalgos := 0
  x := []
  xRaw := []
  y := []
  yRaw := []
  yBin := []
  numGood := []
  beta := []
  p := []
  z := [[.fin 1, .fin 2], [.fin 3, .fin 4]]
  zEdge := [[0, 0], [.fin 9, 0], [0, .fin 9]]
  zEcorr := [[0, 0], [.fin 8, 0], [0, .fin 8]]
  idx := []
  yHat := [[1, 0], [0, 1]]
  selection0 := [0, 1]
  best := [none, none]
  good := [none, none]
  traceSummary := ["Algorithm", "b", "c", "d", "e", "f", "g", "h", "i", "j", "k"].map fun s => (s, [1, 0])
  pilotSummary := [("0", [1, 0])]
  pythiaSummary := [("Algorithms", [1, 0])]

/-- The files after the run on the two instances, `none` if something raises. -/
def zeroFiles (absPerf : Bool) : Option (Dict Name (Val Nat Unit) × List (String × Export.File Num)) :=
  (zeroRun absPerf).toOption.bind fun d => (modelOf d ()).toOption.bind fun m =>
    (exportOf zeroText zeroRest m).bind fun e =>
      if (saveCsv (0, 0) true e).error.isNone then some (d, (saveCsv (0, 0) true e).files) else none

/-- The rows of an array file. -/
def fileRows (files : List (String × Export.File Num)) (name : String) :
    Option (List String × List (String × List Num)) :=
  match Export.onDisk files name with
  | some (.array tb) => some (tb.columns, tb.rows)
  | _ => none

theorem zero_ordinary (absPerf : Bool) : Ordinary id (zeroEnv absPerf) zeroTable [10, 11] where
  rect := by
    intro c hc
    simp only [zeroTable, List.mem_cons, List.not_mem_nil, or_false] at hc
    rcases hc with rfl | rfl | rfl | rfl | rfl <;> rfl
  distinct := by decide
  several := by decide
  labels := ⟨"instances", by decide +kernel⟩
  sources := by decide +kernel
  tuples := by
    intro k s vs out h
    cases h
    simp
  noFraction := by simp [Prelim.UsesFraction, zeroEnv, smallEnv, noSubset]
  noFile := by simp [Prelim.UsesFile, zeroEnv, smallEnv, noSubset]
  noDensity := by simp [Prelim.UsesDensity, Prelim.AsksDensity, zeroEnv, smallEnv, noSubset]

theorem zero_kept (absPerf : Bool) : KeptRows id plainNum (zeroEnv absPerf) zeroTable [0, 1] := by
  have cell : ∀ (p name : String) (vals : List Nat) (i v : Nat), (name, vals) ∈ zeroTable.cols →
      Begins id p name → vals[i]? = some v →
      HasSome plainNum zeroTable (Begins id p) none i := by
    intro p name vals i v hm hb hi
    refine ⟨name, v, ⟨⟨_, hm, rfl⟩, hb, ?_⟩, ⟨_, hm, rfl, hi⟩, by simp [plainNum]⟩
    intro l hl
    cases hl
  have hx : Begins id "feature_" "feature_a" := ⟨['a'], by decide +kernel⟩
  have hy : Begins id "algo_" "algo_p" := ⟨['p'], by decide +kernel⟩
  refine ⟨by decide, ?_⟩
  intro i
  constructor
  · intro hi
    simp only [List.mem_cons, List.not_mem_nil, or_false] at hi
    rcases hi with rfl | rfl
    · exact ⟨by decide, cell _ _ [1, 2] 0 1 (by decide) hx rfl, cell _ _ [0, 3] 0 0 (by decide) hy rfl⟩
    · exact ⟨by decide, cell _ _ [1, 2] 1 2 (by decide) hx rfl, cell _ _ [0, 3] 1 3 (by decide) hy rfl⟩
  · rintro ⟨hi, -, -⟩
    have hi2 : i < 2 := hi
    simp only [List.mem_cons, List.not_mem_nil, or_false]
    omega

theorem zero_saved {absPerf : Bool} {d : Dict Name (Val Nat Unit)}
    {files : List (String × Export.File Num)} (h : zeroFiles absPerf = some (d, files)) :
    Succeeds id (fun _ => false) id plainNum (zeroEnv absPerf) zeroTable d ∧ Saved zeroText d files := by
  unfold zeroFiles at h
  cases hr : zeroRun absPerf with
  | error e => rw [hr] at h; cases h
  | ok d' =>
    rw [hr] at h
    simp only [Except.toOption, Option.bind_some] at h
    cases hm : modelOf d' () with
    | error e => rw [hm] at h; cases h
    | ok m =>
      rw [hm] at h
      dsimp only [Option.bind_some] at h
      cases he : exportOf zeroText zeroRest m with
      | none => rw [he] at h; cases h
      | some e =>
        rw [he] at h
        simp only [Option.bind_some] at h
        by_cases herr : (saveCsv (0, 0) true e).error.isNone
        · rw [if_pos herr] at h
          simp only [Option.some.injEq, Prod.mk.injEq] at h
          obtain ⟨rfl, rfl⟩ := h
          exact ⟨⟨defaultStages, Pipeline.listOrder, Pipeline.defaultSchedule, [], .refl _,
            Pipeline.default_once, hr⟩, _, _, _, m, hm, he, by simpa using herr, rfl⟩
        · rw [if_neg herr] at h
          cases h

/-- **C166** is false: for relative performances a performance 0 is exported as the machine epsilon. -/
theorem C166_refuted : ¬ FilesFaithful := by
  intro h
  unfold FilesFaithful at h
  have hrun : ((zeroFiles false).bind fun p => fileRows p.2 "algorithm_raw.csv") =
      some (["algo_p", "algo_q"], [("ten", [.fin Num.eps, .fin 4]), ("eleven", [.fin 3, .fin 2])]) := by
    decide +kernel
  cases hz : zeroFiles false with
  | none => rw [hz] at hrun; cases hrun
  | some p =>
    obtain ⟨d, files⟩ := p
    rw [hz] at hrun
    simp only [Option.bind_some] at hrun
    obtain ⟨h1, h2⟩ := zero_saved hz
    obtain ⟨names, algos, -, -, tb, g1, g2, -, g3⟩ := h id (fun _ => false) plainNum _ zeroTable _ _ d
      zeroText files (zero_ordinary false) h1 (zero_kept false) h2
    unfold fileRows at hrun
    rw [g1] at hrun
    simp only [Option.some.injEq, Prod.mk.injEq] at hrun
    obtain ⟨r1, r2⟩ := hrun
    obtain ⟨name, cells, q1, -, q2⟩ := g3 0 0 rfl
    rw [r2] at q1
    simp only [List.getElem?_cons_zero, Option.some.injEq, Prod.mk.injEq] at q1
    obtain ⟨rfl, rfl⟩ := q1
    obtain ⟨c, q3, v, ⟨col, hc, hca, hv⟩, rfl⟩ := q2 0 "algo_p" (by rw [← g2, r1]; rfl)
    simp only [List.getElem?_cons_zero, Option.some.injEq] at q3
    have hv0 : v = 0 := by
      simp only [zeroTable, List.mem_cons, List.not_mem_nil, or_false] at hc
      rcases hc with rfl | rfl | rfl | rfl | rfl <;> first | (exact absurd hca (by decide)) | skip
      simpa using hv.symm
    subst hv0
    exact absurd q3 (by decide +kernel)

/-- Non-vacuity: with absolute performances the run on the two instances succeeds and is exported, and the
files are what one reads off the table. -/
example : Ordinary id (zeroEnv true) zeroTable [10, 11] ∧
    KeptRows id plainNum (zeroEnv true) zeroTable [0, 1] ∧
    (∃ d files, Succeeds id (fun _ => false) id plainNum (zeroEnv true) zeroTable d ∧
      Saved zeroText d files ∧
      fileRows files "algorithm_raw.csv" =
        some (["algo_p", "algo_q"], [("ten", [0, .fin 4]), ("eleven", [.fin 3, .fin 2])]) ∧
      fileRows files "algorithm_bin.csv" =
        some (["algo_p", "algo_q"], [("ten", [1, 0]), ("eleven", [0, 0])]) ∧
      fileRows files "portfolio.csv" = some (["Best_Algorithm"], [("ten", [.fin 1]), ("eleven", [.fin 2])])
      ) := by
  have e1 : ((zeroFiles true).bind fun p => fileRows p.2 "algorithm_raw.csv") =
      some (["algo_p", "algo_q"], [("ten", [0, .fin 4]), ("eleven", [.fin 3, .fin 2])]) := by
    decide +kernel
  have e2 : ((zeroFiles true).bind fun p => fileRows p.2 "algorithm_bin.csv") =
      some (["algo_p", "algo_q"], [("ten", [1, 0]), ("eleven", [0, 0])]) := by decide +kernel
  have e3 : ((zeroFiles true).bind fun p => fileRows p.2 "portfolio.csv") =
      some (["Best_Algorithm"], [("ten", [.fin 1]), ("eleven", [.fin 2])]) := by decide +kernel
  refine ⟨zero_ordinary _, zero_kept _, ?_⟩
  cases hz : zeroFiles true with
  | none => rw [hz] at e1; cases e1
  | some p =>
    obtain ⟨d, files⟩ := p
    rw [hz] at e1 e2 e3
    obtain ⟨h1, h2⟩ := zero_saved hz
    exact ⟨d, files, h1, h2, e1, e2, e3⟩

end Verif.EndToEnd
