import Verif.EndToEnd.Props
/-!
# C163: what is said about the performance on an instance depends on its own performances only
-/
set_option autoImplicit false
set_option linter.unusedSectionVars false

namespace Verif.EndToEnd

open Verif (Num)
open Verif.Pipeline (Name)
open Verif.Metadata (Table Squeezed Begins)
open Verif.Runner (Dict)

variable {V W : Type} {lower : String → String} {numeric numeric' : Squeezed V → Bool} {str str' : V → V}
  {num : V → Num} {env env' : Env V W} {t t' : Table V} {labels labels' : List V}
  {d d' : Dict Name (Val V W)}

theorem wanted_congr {Q : String → Prop} {list : Option (List String)} {a : String}
    (hc : t.cols.map Prod.fst = t'.cols.map Prod.fst) (h : Wanted t Q list a) : Wanted t' Q list a := by
  have key : ∀ P : String → Prop, (∃ c ∈ t.cols, P c.1) ↔ ∃ c ∈ t'.cols, P c.1 := by
    intro P
    have e : ∀ u : Table V, (∃ c ∈ u.cols, P c.1) ↔ ∃ n ∈ u.cols.map Prod.fst, P n := by
      intro u; simp
    rw [e, e, hc]
  obtain ⟨h1, h2, h3⟩ := h
  refine ⟨(key fun n => n = a).1 h1, h2, ?_⟩
  intro l hl hex
  exact h3 l hl ((key fun n => Q n ∧ n ∈ l).2 hex)

theorem sublist_eq_filter {l m : List String} (h : l.Sublist m) (hm : m.Nodup) :
    l = m.filter fun a => a ∈ l := by
  induction h with
  | slnil => rfl
  | @cons l m a h ih =>
    have hn := List.nodup_cons.1 hm
    rw [List.filter_cons_of_neg (by simpa using fun ha => hn.1 (h.subset ha))]
    exact ih hn.2
  | @cons_cons l m a h ih =>
    have hn := List.nodup_cons.1 hm
    rw [List.filter_cons_of_pos (by simp)]
    congr 1
    conv_lhs => rw [ih hn.2]
    apply List.filter_congr
    intro b hb
    have : b ≠ a := by rintro rfl; exact hn.1 hb
    simp [this]

/-- **C163.**  Two runs on two tables with the same columns, with the same PRELIM options and the same list
of wanted algorithms; the other options, the library functions, the other stages and all other rows of the
tables may differ.  If row `i` of the one and row `i'` of the other have the same performances, then the
Models say the same about the two instances: verdicts, best algorithm, best performance, number of good
algorithms, whether enough algorithms are good, and raw performances. -/
theorem C163_local (ho : Ordinary lower env t labels) (ho' : Ordinary lower env' t' labels')
    (h : Succeeds lower numeric str num env t d) (h' : Succeeds lower numeric' str' num env' t' d')
    {rows rows' : List Nat} (hk : KeptRows lower num env t rows)
    (hk' : KeptRows lower num env' t' rows')
    (hcols : t.cols.map Prod.fst = t'.cols.map Prod.fst) (hopts : env.prelim = env'.prelim)
    (halgos : env.algos = env'.algos) {k k' i i' : Nat} (hi : rows[k]? = some i)
    (hi' : rows'[k']? = some i')
    (hsame : ∀ a v v', Begins lower "algo_" a → Cell t a i v → Cell t' a i' v' → num v = num v') :
    d .algo_labels = d' .algo_labels ∧
    ∃ yb yb' p p' best best' n n' beta beta' yr yr',
      d .y_bin = some (.verdicts yb) ∧ d' .y_bin = some (.verdicts yb') ∧
      d .p = some (.counts p) ∧ d' .p = some (.counts p') ∧
      d .y_best = some (.numbers best) ∧ d' .y_best = some (.numbers best') ∧
      d .num_good_algos = some (.counts n) ∧ d' .num_good_algos = some (.counts n') ∧
      d .beta = some (.flags beta) ∧ d' .beta = some (.flags beta') ∧
      d .y_raw = some (.table yr) ∧ d' .y_raw = some (.table yr') ∧
      k < yb.length ∧ yb[k]? = yb'[k']? ∧ p[k]? = p'[k']? ∧ best[k]? = best'[k']? ∧ n[k]? = n'[k']? ∧
      beta[k]? = beta'[k']? ∧ yr.rows[k]? = yr'.rows[k']? := by
  obtain ⟨inst, s, o, outs, ys, sel, f, tr, -, -, -, -, -, hy, -, hyn, -, hsa, -, ha, -⟩ :=
    run_located ho h hk
  obtain ⟨inst', s', o', outs', ys', sel', f', tr', -, -, -, -, -, hy', -, hyn', -, hsa', -, ha', -⟩ :=
    run_located ho' h' hk'
  have halg : o.algo = o'.algo := by
    have hnd : (t.cols.map Prod.fst).Nodup := ho.distinct
    have hsa2 : o'.algo.Sublist (t.cols.map Prod.fst) := by rw [hcols]; exact hsa'
    rw [sublist_eq_filter hsa hnd, sublist_eq_filter hsa2 hnd]
    apply List.filter_congr
    intro a _
    have : a ∈ o.algo ↔ a ∈ o'.algo := by
      rw [ha, ha', halgos]
      exact ⟨wanted_congr hcols, wanted_congr hcols.symm⟩
    simp [this]
  obtain ⟨r, hr⟩ := row_exists hy hi
  obtain ⟨r', hr'⟩ := row_exists hy' hi'
  obtain ⟨hl, hc, -⟩ := located_row hy hi hr
  obtain ⟨hl', hc', -⟩ := located_row hy' hi' hr'
  have hrr : r = r' := by
    apply List.ext_getElem?
    intro j
    by_cases hj : j < o.algo.length
    · have hja : o.algo[j]? = some o.algo[j] := List.getElem?_eq_getElem hj
      have hja' : o'.algo[j]? = some o.algo[j] := halg ▸ hja
      obtain ⟨v, hv⟩ := hy.all k i j _ hi hja
      obtain ⟨v', hv'⟩ := hy'.all k' i' j _ hi' hja'
      rw [hc j _ v hja hv, hc' j _ v' hja' hv',
        hsame _ v v' ((ha _).1 (List.getElem_mem hj)).2.1 hv hv']
    · rw [List.getElem?_eq_none (by omega), List.getElem?_eq_none (by rw [hl', ← halg]; omega)]
  subst hrr
  obtain ⟨hol, hor⟩ := outs_row tr.rows
  obtain ⟨hol', hor'⟩ := outs_row tr'.rows
  obtain ⟨out, e1, e2⟩ := hor k r hr
  obtain ⟨out', e1', e2'⟩ := hor' k' r hr'
  rw [← hopts, e2] at e2'
  cases e2'
  refine ⟨by rw [tr.algo_labels, tr'.algo_labels, halg], _, _, _, _, _, _, _, _, _, _, _, _,
    tr.y_bin, tr'.y_bin, tr.p, tr'.p, tr.y_best, tr'.y_best, tr.num_good_algos, tr'.num_good_algos,
    tr.beta, tr'.beta, tr.y_raw, tr'.y_raw, ?_, ?_, ?_, ?_, ?_, ?_, ?_⟩
  · rw [List.length_map]
    exact (List.getElem?_eq_some_iff.1 e1).1
  all_goals try simp only [List.getElem?_map, e1, e1']
  simp only [Prelim.yRawOut, Prelim.afterPrelim, ← hopts]
  split
  · rw [hr, hr']
  · simp [hr, hr']

/-- Another table with the same columns: its row 1 has the performances of row 0 of `smallTable`. -/
def otherTable : Table Nat :=
  ⟨3, [("instances", [20, 21, 22]), ("feature_a", [9, 8, 7]), ("algo_p", [1, 4, 5]),
    ("feature_b", [3, 1, 4]), ("algo_q", [3, 1, 6]), ("feature_c", [1, 1, 2])]⟩

/-- The run on the other table. -/
def otherRun : Except (Runner.RunError Name Err) (Dict Name (Val Nat Unit)) :=
  Runner.contents (Runner.runAll (Pipeline.runner Pipeline.defaultStages Pipeline.defaultSchedule
    (run (smallEnv noSubset none))) Runner.State.init
    (args (smallEnv noSubset none) smallNum (Metadata.fromDataFrame id (fun _ => false) id otherTable)))

theorem small_ordinary : Ordinary id (smallEnv noSubset none) smallTable [10, 11, 12, 13] :=
  ⟨small_readable _ _, by simp [Prelim.UsesFraction, smallEnv, noSubset],
    by simp [Prelim.UsesFile, smallEnv, noSubset],
    by simp [Prelim.UsesDensity, Prelim.AsksDensity, smallEnv, noSubset]⟩

theorem other_ordinary : Ordinary id (smallEnv noSubset none) otherTable [20, 21, 22] where
  rect := by
    intro c hc
    simp only [otherTable, List.mem_cons, List.not_mem_nil, or_false] at hc
    rcases hc with rfl | rfl | rfl | rfl | rfl | rfl <;> rfl
  distinct := by decide
  several := by decide
  labels := ⟨"instances", by decide +kernel⟩
  sources := by decide +kernel
  tuples := small_ordinary.tuples
  noFraction := small_ordinary.noFraction
  noFile := small_ordinary.noFile
  noDensity := small_ordinary.noDensity

theorem other_kept : KeptRows id smallNum (smallEnv noSubset none) otherTable [0, 1, 2] := by
  have cell : ∀ (p name : String) (vals : List Nat) (i : Nat), (name, vals) ∈ otherTable.cols →
      Begins id p name → i < vals.length → (∀ v ∈ vals, v ≠ 0) →
      HasSome smallNum otherTable (Begins id p) none i := by
    intro p name vals i hm hb hi hv
    refine ⟨name, vals[i], ⟨⟨_, hm, rfl⟩, hb, ?_⟩, ⟨_, hm, rfl, List.getElem?_eq_getElem hi⟩,
      by simp [smallNum, hv _ (List.getElem_mem hi)]⟩
    intro l hl
    cases hl
  have hx : Begins id "feature_" "feature_a" := ⟨['a'], by decide +kernel⟩
  have hy : Begins id "algo_" "algo_p" := ⟨['p'], by decide +kernel⟩
  refine ⟨by decide, ?_⟩
  intro i
  have e : i ∈ [0, 1, 2] ↔ i < 3 := by simp; omega
  rw [e]
  exact ⟨fun hi => ⟨hi, cell _ _ [9, 8, 7] i (by decide) hx hi (by decide),
    cell _ _ [1, 4, 5] i (by decide) hy hi (by decide)⟩, fun h => h.1⟩

/-- Non-vacuity: the hypotheses hold for row 0 of the small table and row 1 of the other one. -/
example : (∃ d, Succeeds id (fun _ => false) id smallNum (smallEnv noSubset none) smallTable d) ∧
    (∃ d, Succeeds id (fun _ => false) id smallNum (smallEnv noSubset none) otherTable d) ∧
    Ordinary id (smallEnv noSubset none) smallTable [10, 11, 12, 13] ∧
    Ordinary id (smallEnv noSubset none) otherTable [20, 21, 22] ∧
    KeptRows id smallNum (smallEnv noSubset none) otherTable [0, 1, 2] ∧
    smallTable.cols.map Prod.fst = otherTable.cols.map Prod.fst ∧
    (∀ a v v', Begins id "algo_" a → Cell smallTable a 0 v → Cell otherTable a 1 v' →
      smallNum v = smallNum v') ∧
    digest otherRun = (some [20, 21, 22], some [[false, true], [true, false], [true, true]],
      some [2, 1, 2], some [1, 1, 2]) := by
  have hrun : digest otherRun = (some [20, 21, 22], some [[false, true], [true, false], [true, true]],
      some [2, 1, 2], some [1, 1, 2]) := by decide +kernel
  have hrun' : digest (smallRun noSubset none) = (some [10, 11, 13],
      some [[true, false], [false, true], [true, true]], some [1, 2, 1], some [1, 1, 2]) := by
    decide +kernel
  refine ⟨?_, ?_, small_ordinary, other_ordinary, other_kept, by decide, ?_, hrun⟩
  · cases hd : smallRun noSubset none with
    | error e => rw [hd] at hrun'; cases hrun'
    | ok d => exact ⟨d, small_succeeds _ _ d hd⟩
  · cases hd : otherRun with
    | error e => rw [hd] at hrun; cases hrun
    | ok d => exact ⟨d, Pipeline.defaultStages, Pipeline.listOrder, Pipeline.defaultSchedule, [], .refl _,
        Pipeline.default_once, hd⟩
  · rintro a v v' ⟨l, hl⟩ ⟨c, hc, rfl, hv⟩ ⟨c', hc', hn, hv'⟩
    have key : ∀ c ∈ smallTable.cols, ∀ c' ∈ otherTable.cols, c'.1 = c.1 →
        "algo_".toList.isPrefixOf c.1.toList = true → c.2[0]? = c'.2[1]? := by decide +kernel
    have := key c hc c' hc' hn (by
      rw [List.isPrefixOf_iff_prefix]
      exact ⟨l, hl.symm⟩)
    rw [hv, hv'] at this
    rw [Option.some.inj this]

end Verif.EndToEnd
