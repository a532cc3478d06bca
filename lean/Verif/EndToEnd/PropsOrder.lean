import Verif.EndToEnd.OrderLemmas
import Verif.EndToEnd.PropsLocal
/-!
# C165: the order of the rows of the metadata table
-/
set_option autoImplicit false
set_option linter.unusedSectionVars false

namespace Verif.EndToEnd

open Verif (Num)
open Verif.Pipeline (Stg Name outputs defaultStages runner)
open Verif.Metadata (Table Squeezed fromDataFrame)
open Verif.Preprocessing (Mat pick)
open Verif.Runner (Dict)

variable {V W : Type} {lower : String → String} {numeric : Squeezed V → Bool} {str : V → V}
  {num : V → Num} {env : Env V W} {t : Table V} {labels : List V} {σ : List Nat}
  {d d' : Dict Name (Val V W)}

/-- The full claim, here about the verdicts: whatever the options, after reordering the rows of the table
the Model has the same rows of `y_bin`, in some order. -/
def RowOrderIrrelevant : Prop :=
  ∀ (lower : String → String) (numeric : Squeezed Nat → Bool) (num : Nat → Num) (env : Env Nat Unit)
    (t : Table Nat) (labels σ : List Nat) (d d' : Dict Name (Val Nat Unit)),
    Readable lower env t labels → σ.Perm (List.range t.nrows) → Prelim.OrderBlind env.tr →
    numeric (.series (pick labels σ)) = numeric (.series labels) →
    Succeeds lower numeric id num env t d → Succeeds lower numeric id num env (reordered σ t) d' →
    ∃ (n : Nat) (τ : List Nat), τ.Perm (List.range n) ∧ SameInOrder τ n (d .y_bin) (d' .y_bin)

/-- Three instances on a line, at distance 1 from each other. -/
def lineTable : Table Nat :=
  ⟨3, [("instances", [10, 11, 12]), ("feature_a", [1, 2, 3]), ("feature_b", [1, 1, 1]),
    ("algo_p", [4, 1, 2]), ("algo_q", [1, 3, 2])]⟩

/-- Instances at most 1 apart count as near each other; the density filter looks at the features only. -/
def lineEnv : Env Nat Unit :=
  { smallEnv ⟨false, false, false, false, true, true, true, "Ftr"⟩ none with
    tests := ⟨fun a b => match a.1, b.1 with
      | [.fin p, .fin q], [.fin p', .fin q'] => decide ((p - p') ^ 2 + (q - q') ^ 2 ≤ 1)
      | _, _ => false, fun _ _ => false, fun _ _ => false⟩ }

/-- The run on the three instances, listed in the order `σ`. -/
def lineRun (σ : List Nat) : Except (Runner.RunError Name Err) (Dict Name (Val Nat Unit)) :=
  Runner.contents (Runner.runAll (runner defaultStages Pipeline.defaultSchedule (run lineEnv))
    Runner.State.init (args lineEnv smallNum (fromDataFrame id (fun _ => false) id (reordered σ lineTable))))

theorem id_orderBlind : Prelim.OrderBlind id := ⟨fun _ v => v, fun l => by simp, fun _ _ _ => rfl⟩

/-- **C165** is false with the density filter: of three instances on a line it keeps the first and the
last one, but if the middle one is listed first, it keeps that one alone. -/
theorem C165_refuted : ¬ RowOrderIrrelevant := by
  intro h
  unfold RowOrderIrrelevant at h
  have e1 : ((lineRun [0, 1, 2]).toOption.map fun d => (theVerdicts (d .y_bin)).map List.length) =
      some (some 2) := by decide +kernel
  have e2 : ((lineRun [1, 0, 2]).toOption.map fun d => (theVerdicts (d .y_bin)).map List.length) =
      some (some 1) := by decide +kernel
  have hread : Readable id lineEnv lineTable [10, 11, 12] :=
    { rect := by
        intro c hc
        simp only [lineTable, List.mem_cons, List.not_mem_nil, or_false] at hc
        rcases hc with rfl | rfl | rfl | rfl | rfl <;> rfl
      distinct := by decide
      several := by decide
      labels := ⟨"instances", by decide +kernel⟩
      sources := by decide +kernel
      tuples := small_ordinary.tuples }
  have hsame : reordered [0, 1, 2] lineTable = lineTable := by decide +kernel
  have hsucc : ∀ σ d, lineRun σ = .ok d →
      Succeeds id (fun _ => false) id smallNum lineEnv (reordered σ lineTable) d := fun σ d hd =>
    ⟨defaultStages, Pipeline.listOrder, Pipeline.defaultSchedule, [], .refl _, Pipeline.default_once, hd⟩
  cases h1 : lineRun [0, 1, 2] with
  | error e => rw [h1] at e1; cases e1
  | ok d =>
    cases h2 : lineRun [1, 0, 2] with
    | error e => rw [h2] at e2; cases e2
    | ok d' =>
      rw [h1] at e1
      rw [h2] at e2
      have hs := hsucc _ d h1
      rw [hsame] at hs
      obtain ⟨n, τ, hτ, w, hw1, hw2, hw3⟩ := h id (fun _ => false) smallNum lineEnv lineTable _
        [1, 0, 2] d d' hread (by decide) id_orderBlind rfl hs (hsucc _ d' h2)
      simp only [Except.toOption, Option.map_some, hw1, hw3, Option.some.injEq] at e1 e2
      cases w with
      | verdicts l =>
        simp only [theVerdicts, inOrder, Option.map_some, Option.some.injEq] at e1 e2
        have hw : l.length = n := hw2
        rw [pick_perm_length hτ hw] at e2
        omega
      | _ => cases e1

/-- **C165, partial.**  Two runs, the second on the table with its rows in another order.  The Model of
the second run has the same instances in another order `τ`, one order for all data: labels, sources, raw
features and performances, processed performances, verdicts, best algorithms and performances, counts and
flags.  The algorithms are the same; if SIFTED selects the same features, then so are the feature labels,
and the processed features are those of the first run in the same order `τ`.  The conversion of the labels
to strings and the normalisation must not depend on the order (for the latter see `OrderBlind`).  Missing
for the full property: subsets of the instances (see the refutation). -/
theorem C165_rows_partial (ho : Ordinary lower env t labels) (hσ : σ.Perm (List.range t.nrows))
    (htr : Prelim.OrderBlind env.tr)
    (hnum : numeric (.series (pick labels σ)) = numeric (.series labels))
    (h : Succeeds lower numeric str num env t d)
    (h' : Succeeds lower numeric str num env (reordered σ t) d') :
    ∃ (n : Nat) (τ : List Nat), τ.Perm (List.range n) ∧
      (∀ name ∈ perInstance, SameInOrder τ n (d name) (d' name)) ∧
      d' .algo_labels = d .algo_labels ∧
      (d' .selvars = d .selvars →
        d' .feat_labels = d .feat_labels ∧ SameInOrder τ n (d .x) (d' .x)) := by
  have ho' := ordinary_reordered ho hσ
  obtain ⟨rows, hk⟩ := kept_exists lower num env t
  obtain ⟨inst, s, o, outs, ys, sel, f, tr, -, -, hll, hin, hsn, hy, hx, hyn, hxn, -, -, -, -⟩ :=
    run_located ho h hk
  obtain ⟨inst', s', o', outs', ys', sel', tr'⟩ := traced ho' h'
  -- the arrays the first stage receives
  have hi := tr.labels
  have hi' := tr'.labels
  have hil : inst.length = t.nrows := by
    have e := labels_eq (numeric := numeric) (str := str) ho
    rw [hi] at e
    cases e
    rw [List.length_map, hll]
  rw [labels_eq ho'] at hi'
  have hie : inst' = pick inst σ := by
    have e := labels_eq (numeric := numeric) (str := str) ho
    rw [hi] at e
    cases e
    cases hi'
    rw [hnum, Preprocessing.pick_map]
  obtain ⟨hs0, hs1⟩ := sources_reordered (numeric := numeric) (str := str) ho σ
  have hse : s' = s.map fun l => pick l σ := by
    rcases tr.sources with ⟨h1, rfl⟩ | ⟨l, h1, rfl⟩
    · rcases tr'.sources with ⟨-, rfl⟩ | ⟨l', h2, rfl⟩
      · rfl
      · rw [hs0 h1] at h2; cases h2
    · rcases tr'.sources with ⟨h2, rfl⟩ | ⟨l', h2, rfl⟩
      · rw [hs1 l h1] at h2; cases h2
      · rw [hs1 l h1] at h2; cases h2; rfl
  obtain ⟨e1, e2, e3, e4⟩ := mats_reordered (lower := lower) (numeric := numeric) (str := str) (num := num)
    ho.rect hσ
  obtain ⟨fits, hfl⟩ := meta_fits (num := num) ho.toReadable hi tr.sources
  have hrun' := tr'.run
  rw [e1, e2, e3, e4, hie, hse] at hrun'
  obtain ⟨-, c⟩ := Preprocessing.C154_instances Num.isNan _ _ env.feats env.algos fits rfl σ
    (by simp only [hfl]; exact hσ)
  obtain ⟨τ, hτ, c⟩ := c o tr.run
  have hoo : o' = ⟨o.data.inOrder τ, o.algo⟩ := by
    have := hrun'.symm.trans c
    cases this
    rfl
  subst hoo
  -- the lengths
  have hxl := hx.nrows
  have hyl : o.data.y.rows.length = o.data.x.rows.length := by rw [hx.nrows, hy.nrows]
  have hτy : τ.Perm (List.range o.data.y.rows.length) := by rw [hyl]; exact hτ
  have hrl : ∀ i ∈ rows, i < t.nrows := fun i hi => ((hk.exact i).1 hi).1
  have hol := (outs_row tr.rows).1
  -- PRELIM
  have houts : outs' = pick outs τ := by
    have a := Prelim.C142_rows env.prelim _ τ outs tr.rows
    exact Option.some.inj (tr'.rows.symm.trans a)
  have hys : ys' = ys.map fun c => pick c τ := by
    have a := Prelim.C142_performances env.prelim env.tr htr _ _ τ hτy ys tr.outY
    exact Option.some.inj (tr'.outY.symm.trans a)
  have hpx := prelimX_pick (env := env) htr (x := o.data.x) hτ
  have hpl : (prelimX env o.data.x).length = o.data.x.rows.length := by simp [prelimX, rowsOf]
  subst houts hys
  have outsMap : ∀ {α : Type} (g : Prelim.Row → α), (pick outs τ).map g = pick (outs.map g) τ :=
    fun g => (Preprocessing.pick_map g outs τ).symm
  refine ⟨o.data.x.rows.length, τ, hτ, ?_, by rw [tr.algo_labels, tr'.algo_labels], ?_⟩
  · intro name hname
    simp only [perInstance, List.mem_cons, List.not_mem_nil, or_false] at hname
    rcases hname with rfl | rfl | rfl | rfl | rfl | rfl | rfl | rfl | rfl | rfl
    · refine ⟨_, tr.inst_labels, ?_, tr'.inst_labels⟩
      show o.data.inst.length = _
      rw [hin, Preprocessing.pick_length _ _ (by rw [hil]; exact hrl), hxl]
    · refine ⟨_, tr.s_out, ?_, tr'.s_out⟩
      show ∀ l, o.data.s = some l → l.length = _
      intro l hl
      rw [hsn] at hl
      cases hs : s with
      | none => rw [hs] at hl; cases hl
      | some l0 =>
        rw [hs] at hl
        cases hl
        rw [hxl, Preprocessing.pick_length]
        have := fits.s l0 hs
        simp only [hfl] at this
        rw [this]
        exact hrl
    · refine ⟨_, tr.y, ?_, ?_⟩
      · show (rowsOf _ _).length = _
        simp [rowsOf, hyl]
      · rw [tr'.y]
        show some (Val.table ⟨_, rowsOf (pick o.data.y.rows τ).length _⟩) = _
        rw [pick_perm_length hτy rfl, rowsOf_pick hτy (outY_len tr.outY)]
        rfl
    · exact ⟨_, tr.x_raw, rfl, tr'.x_raw⟩
    · refine ⟨_, tr.y_raw, ?_, ?_⟩
      · show (Prelim.yRawOut _ _ _ _).length = _
        unfold Prelim.yRawOut Prelim.afterPrelim
        split <;> simp [hyl]
      · rw [tr'.y_raw]
        show some (Val.table ⟨_, Prelim.yRawOut env.prelim (fun _ => pick o.data.y.rows τ) 0 0⟩) = _
        unfold Prelim.yRawOut Prelim.afterPrelim inOrder
        split
        · rfl
        · simp only [if_true, ← Preprocessing.pick_map]
          rfl
    · refine ⟨_, tr.y_bin, ?_, ?_⟩
      · show (outs.map _).length = _
        rw [List.length_map, hol, hyl]
      · rw [tr'.y_bin, outsMap]; rfl
    · refine ⟨_, tr.y_best, ?_, ?_⟩
      · show (outs.map _).length = _
        rw [List.length_map, hol, hyl]
      · rw [tr'.y_best, outsMap]; rfl
    · refine ⟨_, tr.p, ?_, ?_⟩
      · show (outs.map _).length = _
        rw [List.length_map, hol, hyl]
      · rw [tr'.p, outsMap]; rfl
    · refine ⟨_, tr.num_good_algos, ?_, ?_⟩
      · show (outs.map _).length = _
        rw [List.length_map, hol, hyl]
      · rw [tr'.num_good_algos, outsMap]; rfl
    · refine ⟨_, tr.beta, ?_, ?_⟩
      · show (outs.map _).length = _
        rw [List.length_map, hol, hyl]
      · rw [tr'.beta, outsMap]; rfl
  · intro hsel
    rw [tr.selvars, tr'.selvars] at hsel
    simp only [Option.some.injEq, Val.counts.injEq] at hsel
    obtain ⟨lib, rho, q⟩ := tr.sifted
    obtain ⟨lib', rho', q'⟩ := tr'.sifted
    have hfc : ∀ m, o.data.feat.length = (Prelim.columns o.data.x.ncols m).length := by
      intro m
      simp [Prelim.columns, hxn]
    obtain ⟨a1, a2⟩ := sifted_pick (hfc _) q
    obtain ⟨b1, b2⟩ := sifted_pick (feat := o.data.feat) (hfc _) q'
    have hcx : sel'.x = sel.x.map fun c => pick c τ := by
      rw [b1, a1, hsel]
      show pick (Prelim.columns o.data.x.ncols (prelimX env ⟨o.data.x.ncols, pick o.data.x.rows τ⟩)) _ = _
      rw [hpx]
      have := Prelim.columns_pick o.data.x.ncols τ (prelimX env o.data.x)
      rw [pick_eq] at this
      rw [this, Preprocessing.pick_map]
      rfl
    refine ⟨by rw [tr.feat_labels, tr'.feat_labels, a2, b2, hsel], _, tr.x, ?_, ?_⟩
    · show (rowsOf _ _).length = _
      simp [rowsOf, hpl]
    · rw [tr'.x, hcx]
      show some (Val.table ⟨_, rowsOf (prelimX env ⟨o.data.x.ncols, pick o.data.x.rows τ⟩).length _⟩) = _
      have hlen : (prelimX env ⟨o.data.x.ncols, pick o.data.x.rows τ⟩).length =
          (prelimX env o.data.x).length := by
        rw [hpx, pick_perm_length hτ hpl, hpl]
      have hτp : τ.Perm (List.range (prelimX env o.data.x).length) := by rw [hpl]; exact hτ
      rw [hlen, rowsOf_pick hτp, List.length_map]
      · rfl
      · intro c hc
        rw [a1] at hc
        exact columns_len _ _ c (Preprocessing.mem_pick hc)

/-- The run on the small table with its rows in the order `σ`. -/
def smallRunIn (σ : List Nat) : Except (Runner.RunError Name Err) (Dict Name (Val Nat Unit)) :=
  Runner.contents (Runner.runAll (runner defaultStages Pipeline.defaultSchedule
    (run (smallEnv noSubset none))) Runner.State.init
    (args (smallEnv noSubset none) smallNum
      (fromDataFrame id (fun _ => false) id (reordered σ smallTable))))

/-- Non-vacuity: the small table and its reverse meet the hypotheses, and the verdicts come out reversed;
both runs select the same features. -/
example : Ordinary id (smallEnv noSubset none) smallTable [10, 11, 12, 13] ∧
    [3, 2, 1, 0].Perm (List.range smallTable.nrows) ∧ Prelim.OrderBlind (smallEnv noSubset none).tr ∧
    (∃ d, Succeeds id (fun _ => false) id smallNum (smallEnv noSubset none) smallTable d) ∧
    (∃ d, Succeeds id (fun _ => false) id smallNum (smallEnv noSubset none)
      (reordered [3, 2, 1, 0] smallTable) d) ∧
    digest (smallRunIn [3, 2, 1, 0]) = (some [13, 11, 10],
      some [[true, true], [false, true], [true, false]], some [1, 2, 1], some [2, 1, 1]) ∧
    ((smallRun noSubset none).toOption.map fun d => theCounts (d .selvars)) =
      (smallRunIn [3, 2, 1, 0]).toOption.map fun d => theCounts (d .selvars) := by
  have hrun : digest (smallRunIn [3, 2, 1, 0]) = (some [13, 11, 10],
      some [[true, true], [false, true], [true, false]], some [1, 2, 1], some [2, 1, 1]) := by
    decide +kernel
  have hrun' : digest (smallRun noSubset none) = (some [10, 11, 13],
      some [[true, false], [false, true], [true, true]], some [1, 2, 1], some [1, 1, 2]) := by
    decide +kernel
  refine ⟨small_ordinary, by decide, id_orderBlind, ?_, ?_, hrun, by decide +kernel⟩
  · cases hd : smallRun noSubset none with
    | error e => rw [hd] at hrun'; cases hrun'
    | ok d => exact ⟨d, small_succeeds _ _ d hd⟩
  · cases hd : smallRunIn [3, 2, 1, 0] with
    | error e => rw [hd] at hrun; cases hrun
    | ok d => exact ⟨d, defaultStages, Pipeline.listOrder, Pipeline.defaultSchedule, [], .refl _,
        Pipeline.default_once, hd⟩

end Verif.EndToEnd
