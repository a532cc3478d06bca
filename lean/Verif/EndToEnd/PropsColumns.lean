import Verif.EndToEnd.ColumnLemmas
import Verif.EndToEnd.SpecSample
/-!
# C210: the order of the columns of the table
-/
set_option autoImplicit false
set_option linter.unusedSectionVars false

namespace Verif.EndToEnd

open Verif (Num)
open Verif.Pipeline (Stg Name)
open Verif.Metadata (Table Squeezed Begins fromDataFrame Meta)
open Verif.Preprocessing (Lists pick)
open Verif.Runner (Dict)

variable {V W : Type} {lower : String → String} {numeric : Squeezed V → Bool} {str : V → V}
  {num : V → Num} {env : Env V W} {t t' : Table V} {labels : List V} {d d' : Dict Name (Val V W)}

theorem at_iff {α : Type} {m m' : List (List α)} {n j j' : Nat} (hm : m.length = n) (hm' : m'.length = n)
    (h : ∀ k, k < n → ∃ v, At m k j v ∧ At m' k j' v) (k : Nat) (v : α) : At m k j v ↔ At m' k j' v := by
  by_cases hk : k < n
  · obtain ⟨w, ⟨r, h1, h2⟩, r', h3, h4⟩ := h k hk
    constructor
    · rintro ⟨q, g1, g2⟩
      rw [h1] at g1
      cases g1
      rw [h2] at g2
      cases g2
      exact ⟨r', h3, h4⟩
    · rintro ⟨q, g1, g2⟩
      rw [h3] at g1
      cases g1
      rw [h4] at g2
      cases g2
      exact ⟨r, h1, h2⟩
  · constructor
    · rintro ⟨q, g1, -⟩
      exact absurd (List.getElem?_eq_some_iff.1 g1).1 (by omega)
    · rintro ⟨q, g1, -⟩
      exact absurd (List.getElem?_eq_some_iff.1 g1).1 (by omega)

theorem bestCell_perm (h : SameColumns t t') {algos algos' : List String} (ha : algos'.Perm algos) {mp : Bool}
    {i : Nat} {b : Num} (hb : BestCell num mp t algos i b) : BestCell num mp t' algos' i b where
  reached := by
    obtain ⟨a, h1, v, h2, h3⟩ := hb.reached
    exact ⟨a, ha.mem_iff.2 h1, v, (cell_perm h).2 h2, h3⟩
  present := hb.present
  best a h1 v h2 h3 := hb.best a (ha.mem_iff.1 h1) v ((cell_perm h).1 h2) h3

/-- **C210.**  When the columns of the table are in another order, the Model has the same data: the values
that are not about single algorithms or features are the same, and those that are are the same under every
name, with any subset of the instances given by a file or a fraction.  The best algorithm of an instance is
the same when no other algorithm shares the best performance.  Missing for the full property: the best
algorithm when several share the best performance (see the refutation), the density filter, repeated column
names, tables with one row. -/
theorem C210_partial (hc : SameColumns t t') (ho : Readable lower env t labels)
    (hd : ¬ Prelim.UsesDensity env.subset) (h : Succeeds lower numeric str num env t d)
    (h' : Succeeds lower numeric str num env t' d') {rows : List Nat} (hk : KeptRows lower num env t rows) :
    SameData d d' ∧
    ∃ algos algos' feats feats' sub ps ps', d .algo_labels = some (.names algos) ∧
      d' .algo_labels = some (.names algos') ∧ d .feat_labels = some (.names feats) ∧
      d' .feat_labels = some (.names feats') ∧ sub.Sublist rows ∧
      AboutRows lower num env t d algos feats rows sub ∧
      AboutRows lower num env t' d' algos' feats' rows sub ∧
      d .p = some (.counts ps) ∧ d' .p = some (.counts ps') ∧ ps'.length = ps.length ∧
      ∀ k i : Nat, sub[k]? = some i → ClearBest num env.prelim.maxPerf t algos i →
        ∃ p p' a, ps[k]? = some (p + 1) ∧ ps'[k]? = some (p' + 1) ∧ algos[p]? = some a ∧
          algos'[p']? = some a := by
  have ho' := readable_perm hc ho
  have hk' := kept_perm hc hk
  obtain ⟨inst, s, o, outs, ys, a, sel, f, tr, -, -, -, hi, hs, hsl, hy, hx, hyn, hxn⟩ :=
    run_sampled ho h hk
  obtain ⟨inst', s', o', outs', ys', a', sel', f', tr', -, -, -, hi', hs', hsl', hy', hx', hyn', hxn'⟩ :=
    run_sampled ho' h' hk'
  obtain ⟨m1, m2⟩ := meta_perm (numeric := numeric) (str := str) hc ho
  have hie : inst' = inst := by
    have := tr'.labels
    rw [m1, tr.labels] at this
    cases this
    rfl
  have hse : s' = s := by
    have e := tr'.sources
    rw [m2] at e
    rcases tr.sources with ⟨g1, rfl⟩ | ⟨l, g1, rfl⟩
    · rcases e with ⟨-, rfl⟩ | ⟨l, g2, -⟩
      · rfl
      · rw [g1] at g2; cases g2
    · rcases e with ⟨g2, -⟩ | ⟨l', g2, rfl⟩
      · rw [g1] at g2; cases g2
      · rw [g1] at g2; cases g2; rfl
  subst hie
  subst hse
  obtain ⟨na, nf⟩ := names_exact ho hk tr.labels tr.sources tr.run
  obtain ⟨na', nf'⟩ := names_exact ho' hk' tr'.labels tr'.sources tr'.run
  have hperm : o'.algo.Perm o.algo := by
    rw [List.perm_ext_iff_of_nodup hy'.distinct hy.distinct]
    intro b
    rw [na, na', wanted_perm hc]
  obtain ⟨τ, hτ, hτe⟩ := Preprocessing.exists_order hperm hy.distinct
  have hym : o'.data.y.rows = o.data.y.rows.map (pick · τ) := located_perm hc ho hy hy' hτ hτe.symm
  have hyw := hy.ncols
  have hlen : o.data.x.rows.length = rows.length := hx.nrows
  have hlen' : o'.data.x.rows.length = rows.length := hx'.nrows
  have hlen2 : o.data.y.rows.length = rows.length := hy.nrows
  have hnn : o'.data.y.ncols = o.data.y.ncols := by rw [hyn, hyn', hperm.length_eq]
  obtain ⟨dd, hfil⟩ := tr.filtered
  obtain ⟨dd', hfil'⟩ := tr'.filtered
  have hf1 := tr.fits
  have hf2 := tr'.fits
  rw [hlen] at hf1
  rw [hlen'] at hf2
  obtain ⟨is, i1, i2, i3, i4⟩ := same_subset hd hf1 hf2 hfil hfil'
  have ab := about ho hk tr hs hsl hy hx hyn hxn (by rw [hlen]; exact i2) i3
  have ab' := about ho' hk' tr' hs' hsl' hy' hx' hyn' hxn' (by rw [hlen']; exact i2) i4
  have hrun := tr.rows
  have hrun' := tr'.rows
  rw [hym] at hrun'
  obtain ⟨r1, r2, r3, r4, r5, r6⟩ := rows_sub hτ hyw hrun hrun'
  obtain ⟨w1, w2, w3⟩ := rows_widths hyw hrun
  have hys := tr.outY
  have hys' := tr'.outY
  rw [hyn] at hys
  rw [hnn, hyn, hym] at hys'
  have hyse := outY_sub hτ hyw hys hys'
  have hin : ∀ {α : Type} {l : List α} {js : List Nat}, ∀ r ∈ pick l js, r ∈ l := by
    intro α l js r hr
    unfold pick at hr
    obtain ⟨q, -, hq⟩ := List.mem_filterMap.1 hr
    exact List.mem_of_getElem? hq
  obtain ⟨xt, x1, x2, x3, x4⟩ := ab.features
  obtain ⟨xt', x1', x2', x3', x4'⟩ := ab'.features
  obtain ⟨xr, sv, u1, u2, u3, u4⟩ := ab.rawX
  obtain ⟨xr', sv', u1', u2', u3', u4'⟩ := ab'.rawX
  -- the features of the selection are features of the first table
  have hfl : ∀ b ∈ sel.featLabels, b ∈ o.data.feat := by
    obtain ⟨lib, rho, bb, hsel⟩ := tr.sifted
    rw [(sifted_pick (by simp [Prelim.columns, hxn]) hsel).2]
    exact fun b hb => hin b hb
  have hsubl : ∀ k, k < (pick rows is).length → ∃ q i : Nat, (pick rows is)[k]? = some i ∧
      rows[q]? = some i := by
    intro k hk0
    have e := List.getElem?_eq_getElem hk0
    obtain ⟨q, -, hq⟩ := of_pick i2 e
    exact ⟨q, _, e, hq⟩
  refine ⟨⟨?_, ?_, ?_⟩, ?_⟩
  · intro n hn
    have hpi : ∀ {α : Type} {l l' : List α}, l' = l → pick l' is = pick l is := fun h => by rw [h]
    simp only [List.mem_cons, List.not_mem_nil, or_false] at hn
    rcases hn with rfl | rfl | rfl | rfl | rfl
    · exact ⟨by rw [tr.inst_labels, tr'.inst_labels, hi, hi'], by rw [tr.inst_labels]; rfl⟩
    · refine ⟨?_, by rw [tr.s_out]; rfl⟩
      rw [tr.s_out, tr'.s_out, i3.s, i4.s]
      show some (Val.sources (o.data.s.map _)) = some (Val.sources (o'.data.s.map _))
      rw [hs, hs']
    · refine ⟨?_, by rw [tr.y_best]; rfl⟩
      rw [tr.y_best, tr'.y_best, i3.yBest, i4.yBest]
      exact congrArg _ (congrArg _ (hpi r4).symm)
    · refine ⟨?_, by rw [tr.num_good_algos]; rfl⟩
      rw [tr.num_good_algos, tr'.num_good_algos, i3.numGood, i4.numGood]
      exact congrArg _ (congrArg _ (hpi r5).symm)
    · refine ⟨?_, by rw [tr.beta]; rfl⟩
      rw [tr.beta, tr'.beta, i3.beta, i4.beta]
      exact congrArg _ (congrArg _ (hpi r6).symm)
  · refine ⟨_, _, _, _, _, _, _, _, tr.algo_labels, tr'.algo_labels, hperm, tr.y_bin, tr'.y_bin, ?_,
      tr.y, tr'.y, ?_, tr.y_raw, tr'.y_raw, ?_⟩
    · have e : a'.yBin = a.yBin.map (pick · τ) := by
        rw [i3.yBin, i4.yBin]
        show pick (outs'.map (·.yBin)) is = (pick (outs.map (·.yBin)) is).map _
        rw [r1, Preprocessing.pick_map]
      rw [e, ← hτe]
      refine agree_pick hy.distinct hτ ?_
      rw [i3.yBin]
      exact fun r hr => w1 r (hin r hr)
    · have e : a'.y = a.y.map (pick · τ) := by
        rw [i3.y, i4.y]
        show pick (rowsOf o'.data.y.rows.length ys') is = (pick (rowsOf o.data.y.rows.length ys) is).map _
        rw [hyse, rowsOf_sub, Preprocessing.pick_map, hym, List.length_map]
      show AgreeByName _ _ a.y a'.y
      rw [e, ← hτe]
      refine agree_pick hy.distinct hτ ?_
      rw [i3.y]
      intro r hr
      have : r ∈ rowsOf o.data.y.rows.length ys := hin r hr
      unfold rowsOf at this
      obtain ⟨q, -, rfl⟩ := List.mem_map.1 this
      rw [List.length_map]
      exact outY_width hys
    · have e : a'.yRaw = a.yRaw.map (pick · τ) := by
        rw [i3.yRaw, i4.yRaw]
        show pick (Prelim.yRawOut env.prelim (fun _ => o'.data.y.rows) 0 0) is =
          (pick (Prelim.yRawOut env.prelim (fun _ => o.data.y.rows) 0 0) is).map _
        rw [yRawOut_eq, yRawOut_eq, hym, ← Preprocessing.pick_map, List.map_map, List.map_map]
        congr 1
        apply List.map_congr_left
        intro r _
        simp only [Function.comp]
        split
        · rfl
        · rw [Preprocessing.pick_map]
      show AgreeByName _ _ a.yRaw a'.yRaw
      rw [e, ← hτe]
      refine agree_pick hy.distinct hτ ?_
      rw [i3.yRaw]
      intro r hr
      have : r ∈ Prelim.yRawOut env.prelim (fun _ => o.data.y.rows) 0 0 := hin r hr
      rw [yRawOut_eq] at this
      obtain ⟨q, hq, rfl⟩ := List.mem_map.1 this
      split
      · exact hyw q hq
      · rw [List.length_map]; exact hyw q hq
  · refine ⟨_, _, xt, xt', xr, xr', sv, sv', tr.feat_labels, tr'.feat_labels, x1, x1', ?_, u1, u1', u2, u2',
      ?_⟩
    · refine ⟨by rw [x2, x2'], fun j j' b hj hj' => at_iff x2 x2' ?_⟩
      intro k hk0
      obtain ⟨q, i, hki, hqi⟩ := hsubl k hk0
      obtain ⟨c, hcb⟩ := List.getElem?_of_mem (hfl b (List.mem_of_getElem? hj))
      have hcl : (o.data.x.rows.map fun r => r.getD c .nan).length = rows.length := by
        rw [List.length_map, hlen]
      have hcol : ∀ (q i : Nat) (v : V), rows[q]? = some i → Cell t b i v →
          (o.data.x.rows.map fun r => r.getD c .nan)[q]? = some (num v) := by
        intro q i v hq hv
        obtain ⟨r, g1, g2⟩ := bind_at.1 (hx.cells q i c b v hq hcb hv)
        rw [List.getElem?_map, g1, Option.map_some, List.getD_eq_getElem?_getD, g2]
        rfl
      exact ⟨_, x4 j b _ hj hcl hcol k q i hki hqi,
        x4' j' b _ hj' hcl (fun q i v hq hv => hcol q i v hq ((cell_perm hc).1 hv)) k q i hki hqi⟩
    · intro j j' b hj hj'
      have hpos : ∀ {sel : Sifted.Out (List Num)} {o : Preprocessing.Output Num String V V}
          {x : List (List Num)} {j : Nat} {lib rho bb}, o.data.feat.length = x.length →
          Sifted.sifted lib rho env.thr env.clusters o.data.y.ncols x o.data.feat bb = .ok sel →
          sel.featLabels[j]? = some b → ∃ c : Nat, sel.selvars[j]? = some c := by
        intro sel o x j lib rho bb hl hsel hj
        have al := Sifted.C69_aligned hl hsel
        have : j < sel.selvars.length := by rw [← al.names]; exact (List.getElem?_eq_some_iff.1 hj).1
        exact ⟨_, List.getElem?_eq_getElem this⟩
      obtain ⟨lib, rho, bb, hsel⟩ := tr.sifted
      obtain ⟨lib', rho', bb', hsel'⟩ := tr'.sifted
      obtain ⟨c, g1⟩ := hpos (by simp [Prelim.columns, hxn]) hsel hj
      obtain ⟨c', g1'⟩ := hpos (by simp [Prelim.columns, hxn']) hsel' hj'
      have g2 : sv[j]? = some c := by
        have := tr.selvars
        rw [u2] at this
        cases this
        exact g1
      have g2' : sv'[j']? = some c' := by
        have := tr'.selvars
        rw [u2'] at this
        cases this
        exact g1'
      refine ⟨c, c', g2, g2', ?_⟩
      have both : ∀ k, k < (pick rows is).length → ∃ v, At xr.rows k c v ∧ At xr'.rows k c' v := by
        intro k hk0
        obtain ⟨q, i, hki, hqi⟩ := hsubl k hk0
        obtain ⟨p, hp⟩ := List.getElem?_of_mem (hfl b (List.mem_of_getElem? hj))
        obtain ⟨v, hv⟩ := hx.all q i p b hqi hp
        obtain ⟨c1, q1, q2⟩ := u4 k i j b v hki hj hv
        obtain ⟨c2, q3, q4⟩ := u4' k i j' b v hki hj' ((cell_perm hc).2 hv)
        rw [g2] at q1
        cases q1
        rw [g2'] at q3
        cases q3
        exact ⟨_, q2, q4⟩
      exact at_iff u3 u3' both
  · obtain ⟨ps, bs, p1, p2, p3, p4, p5⟩ := ab.best
    obtain ⟨ps', bs', p1', p2', p3', p4', p5'⟩ := ab'.best
    refine ⟨_, _, _, _, pick rows is, ps, ps', tr.algo_labels, tr'.algo_labels, tr.feat_labels,
      tr'.feat_labels, pick_sublist _ _ i1, ab, ab', p1, p1', by rw [p3, p3'], ?_⟩
    rintro k i hki ⟨b, hb0, hbest, hone⟩
    have hb1 : (Num.fin b) ≠ Prelim.worst env.prelim.maxPerf := by
      unfold Prelim.worst
      split <;> simp
    have hb2 : (Num.fin b) ≠ 0 := by
      intro h0
      exact hb0 (Num.fin.inj h0)
    obtain ⟨j, nm, v, q1, q2, q3, q4, -⟩ := p5 k i _ hki hbest hb1 (.inr (.inr hb2))
    obtain ⟨j', nm', v', q1', q2', q3', q4', -⟩ := p5' k i _ hki (bestCell_perm hc hperm hbest) hb1
      (.inr (.inr hb2))
    have : nm = nm' := hone nm nm' v v' (List.mem_of_getElem? q2) (hperm.mem_iff.1 (List.mem_of_getElem? q2'))
      q3 ((cell_perm hc).1 q3') q4 q4'
    subst this
    exact ⟨j, j', nm, q1, q1', q2, q2'⟩

/-! ### Example and refutation -/

/-- The small table with the columns in another order: among others, the algorithms have changed places. -/
def shuffled : Table Nat :=
  ⟨4, [("algo_q", [1, 3, 7, 2]), ("feature_c", [5, 0, 0, 1]), ("instances", [10, 11, 12, 13]),
    ("feature_b", [5, 6, 0, 9]), ("algo_p", [4, 1, 7, 2]), ("feature_a", [1, 2, 0, 3])]⟩

theorem shuffled_same : SameColumns smallTable shuffled := by
  refine ⟨rfl, ?_⟩
  decide +kernel

/-- The run on the shuffled table. -/
def shuffledRun (subset : Prelim.SubsetOpts) (file : Option (List Int)) :
    Except (Runner.RunError Name Err) (Dict Name (Val Nat Unit)) :=
  Runner.contents (Runner.runAll (Pipeline.runner Pipeline.defaultStages Pipeline.defaultSchedule
    (run (smallEnv subset file))) Runner.State.init
    (args (smallEnv subset file) smallNum (fromDataFrame id (fun _ => false) id shuffled)))

theorem shuffled_succeeds (subset : Prelim.SubsetOpts) (file : Option (List Int))
    (d : Dict Name (Val Nat Unit)) (h : shuffledRun subset file = .ok d) :
    Succeeds id (fun _ => false) id smallNum (smallEnv subset file) shuffled d :=
  ⟨Pipeline.defaultStages, Pipeline.listOrder, Pipeline.defaultSchedule, [], .refl _, Pipeline.default_once, h⟩

/-- The names of a value. -/
def theirNames : Option (Val Nat Unit) → Option (List String)
  | some (.names l) => some l
  | _ => none

/-- Both runs end; the algorithms are listed in different orders and the best ones have other numbers. -/
theorem shuffled_runs : ((smallRun noSubset none).toOption.map fun d =>
      (theirNames (d .algo_labels), theCounts (d .p))) =
      some (some ["algo_p", "algo_q"], some [1, 2, 1]) ∧
    ((shuffledRun noSubset none).toOption.map fun d => (theirNames (d .algo_labels), theCounts (d .p))) =
      some (some ["algo_q", "algo_p"], some [2, 1, 1]) := by decide +kernel

/-- The hypotheses of `C210_partial` are met by the small table and the shuffled one, and the first two
instances have a clear best algorithm. -/
example : ∃ d d', Succeeds id (fun _ => false) id smallNum (smallEnv noSubset none) smallTable d ∧
    Succeeds id (fun _ => false) id smallNum (smallEnv noSubset none) shuffled d' ∧ SameData d d' ∧
    ClearBest smallNum true smallTable ["algo_p", "algo_q"] 0 := by
  obtain ⟨r1, r2⟩ := shuffled_runs
  cases hd : smallRun noSubset none with
  | error e => rw [hd] at r1; cases r1
  | ok d =>
    cases hd' : shuffledRun noSubset none with
    | error e => rw [hd'] at r2; cases r2
    | ok d' =>
      refine ⟨d, d', small_succeeds _ _ d hd, shuffled_succeeds _ _ d' hd', ?_, ?_⟩
      · exact (C210_partial shuffled_same (small_readable noSubset none) (by
          rintro ⟨-, -, h⟩
          revert h
          simp [smallEnv, noSubset, Prelim.AsksDensity]) (small_succeeds _ _ d hd)
          (shuffled_succeeds _ _ d' hd') (small_kept _ _)).1
      · have cells : ∀ a ∈ ["algo_p", "algo_q"], ∀ v, Cell smallTable a 0 v →
            (a = "algo_p" ∧ v = 4) ∨ (a = "algo_q" ∧ v = 1) := by
          rintro a ha v ⟨c, hc, rfl, hv⟩
          simp only [smallTable, List.mem_cons, List.not_mem_nil, or_false] at hc ha
          rcases hc with rfl | rfl | rfl | rfl | rfl | rfl <;> simp_all
        refine ⟨4, by decide, ⟨⟨"algo_p", by simp, 4, ⟨_, .tail _ (.tail _ (.head _)), rfl, rfl⟩,
          by decide +kernel⟩, by simp, ?_⟩, ?_⟩
        · intro a ha v hv _
          rcases cells a ha v hv with ⟨-, rfl⟩ | ⟨-, rfl⟩ <;>
            · unfold Prelim.AtLeastAsGood; decide +kernel
        · intro a a' v v' ha ha' hv hv' e e'
          rcases cells a ha v hv with ⟨rfl, rfl⟩ | ⟨rfl, rfl⟩
          · rcases cells a' ha' v' hv' with ⟨rfl, rfl⟩ | ⟨rfl, rfl⟩
            · rfl
            · exact absurd e' (by decide +kernel)
          · exact absurd e (by decide +kernel)

/-- The full claim about the best algorithms: they do not depend on the order of the columns. -/
def BestBlind : Prop :=
  ∀ (lower : String → String) (numeric : Squeezed Nat → Bool) (num : Nat → Num) (env : Env Nat Unit)
    (t t' : Table Nat) (labels : List Nat) (d d' : Dict Name (Val Nat Unit)),
    SameColumns t t' → Readable lower env t labels → ¬ Prelim.UsesDensity env.subset →
    Succeeds lower numeric id num env t d → Succeeds lower numeric id num env t' d' → SameBest d d'

/-- **C210** is false when two algorithms share the best performance: the Model names the one whose column
comes first in the file. -/
theorem C210_refuted : ¬ BestBlind := by
  intro h
  obtain ⟨r1, r2⟩ := shuffled_runs
  cases hd : smallRun noSubset none with
  | error e => rw [hd] at r1; cases r1
  | ok d =>
    cases hd' : shuffledRun noSubset none with
    | error e => rw [hd'] at r2; cases r2
    | ok d' =>
      rw [hd] at r1
      rw [hd'] at r2
      obtain ⟨algos, algos', ps, ps', h1, h2, h3, h4, -, h5⟩ := h id (fun _ => false) smallNum _ _ _ _ d d'
        shuffled_same (small_readable noSubset none) (by
          rintro ⟨-, -, h⟩
          revert h
          simp [smallEnv, noSubset, Prelim.AsksDensity]) (small_succeeds _ _ d hd) (shuffled_succeeds _ _ d' hd')
      simp only [Except.toOption, Option.map_some, h1, h2, h3, h4, theirNames, theCounts, Option.some.injEq,
        Prod.mk.injEq] at r1 r2
      obtain ⟨rfl, rfl⟩ := r1
      obtain ⟨rfl, rfl⟩ := r2
      have := h5 2 0 0 rfl rfl
      revert this
      decide

end Verif.EndToEnd
