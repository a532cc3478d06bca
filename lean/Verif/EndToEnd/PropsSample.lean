import Verif.EndToEnd.SubsetLemmas
/-!
# C162 with a subset of the instances
-/
set_option autoImplicit false
set_option linter.unusedSectionVars false

namespace Verif.EndToEnd

open Verif (Num)
open Verif.Pipeline (Stg Name)
open Verif.Metadata (Table Squeezed Begins fromDataFrame Meta)
open Verif.Preprocessing (Lists pick)
open Verif.Runner (Dict)

variable {V W : Type} {lower : String → String} {numeric : Squeezed V → Bool} {str : V → V}
  {num : V → Num} {env : Env V W} {t : Table V} {labels : List V} {d : Dict Name (Val V W)}

theorem pick_exact {rows is : List Nat} {P : Nat → Prop} (hr : rows.Pairwise (· < ·))
    (hi : Lists is rows.length P) {q i : Nat} (hq : rows[q]? = some i) : i ∈ pick rows is ↔ P q := by
  have hin : ∀ i ∈ is, i < rows.length := fun i h => ((hi.exact i).1 h).1
  have hql := (List.getElem?_eq_some_iff.1 hq).1
  constructor
  · intro h
    obtain ⟨k, hk⟩ := List.getElem?_of_mem h
    obtain ⟨q', h1, h2⟩ := of_pick hin hk
    have hq' := (List.getElem?_eq_some_iff.1 h2).1
    have hnd : rows.Nodup := hr.imp fun h => Nat.ne_of_lt h
    have : q' = q := (List.Nodup.getElem_inj_iff hnd).1
      (Option.some.inj ((List.getElem?_eq_getElem hq').symm.trans
        (h2.trans (hq.symm.trans (List.getElem?_eq_getElem hql)))))
    exact this ▸ ((hi.exact q').1 (List.mem_of_getElem? h1)).2
  · intro h
    obtain ⟨k, hk⟩ := List.getElem?_of_mem ((hi.exact q).2 ⟨hql, h⟩)
    have : (pick rows is)[k]? = some i := by rw [at_pick hin hk, hq]
    exact List.mem_of_getElem? this

/-- **C162, with a subset.**  Whatever subset of the instances is asked for, all arrays of the Model with a
row for each instance, except the labels, are about the same rows of the table, some of those that
preprocessing keeps, in their order.  Missing for the full property: the labels (see the refutation),
repeated column names, tables with one row. -/
theorem C162_subset_partial (ho : Readable lower env t labels)
    (h : Succeeds lower numeric str num env t d) {rows : List Nat} (hk : KeptRows lower num env t rows)
    {algos feats : List String} (ha : d .algo_labels = some (.names algos))
    (hf : d .feat_labels = some (.names feats)) :
    ∃ sub, sub.Sublist rows ∧ AboutRows lower num env t d algos feats rows sub := by
  obtain ⟨inst, s, o, outs, ys, a, sel, f, tr, -, -, -, -, hs, hsl, hy, hx, hyn, hxn⟩ :=
    run_sampled ho h hk
  rw [tr.algo_labels] at ha
  rw [tr.feat_labels] at hf
  cases ha
  cases hf
  obtain ⟨dense, hfil⟩ := tr.filtered
  obtain ⟨is, h1, h2, h3⟩ := Prelim.C43_one_selection _ _ _ _ _ _ _ _ _ tr.fits hfil
  exact ⟨pick rows is, pick_sublist _ _ h1, about ho hk tr hs hsl hy hx hyn hxn h2 h3⟩

/-- **C162, with an index file.**  When the file lists numbers between 1 and one less than the number of
rows that preprocessing keeps, the arrays are about exactly the listed rows, counted among the rows that
preprocessing keeps and not among the rows of the table. -/
theorem C162_subset_file_partial (ho : Readable lower env t labels)
    (h : Succeeds lower numeric str num env t d) {rows : List Nat} (hk : KeptRows lower num env t rows)
    {algos feats : List String} (ha : d .algo_labels = some (.names algos))
    (hf : d .feat_labels = some (.names feats)) (hu : Prelim.UsesFile env.subset) {nums : List Int}
    (hn : env.file = some nums) (hr : ∀ k ∈ nums, 1 ≤ k ∧ k < rows.length) :
    ∃ sub, sub.Sublist rows ∧ (∀ q i : Nat, rows[q]? = some i → (i ∈ sub ↔ (q : Int) + 1 ∈ nums)) ∧
      AboutRows lower num env t d algos feats rows sub := by
  obtain ⟨inst, s, o, outs, ys, a, sel, f, tr, -, -, -, -, hs, hsl, hy, hx, hyn, hxn⟩ :=
    run_sampled ho h hk
  rw [tr.algo_labels] at ha
  rw [tr.feat_labels] at hf
  cases ha
  cases hf
  obtain ⟨dense, hfil⟩ := tr.filtered
  rw [hn] at hfil
  obtain ⟨b, dd, is, e1, e2, e3⟩ := Prelim.C45_partial env.subset env.tests o.data.x.ncols env.split nums _ _
    tr.fits hu (by rw [hx.nrows]; exact hr)
  rw [hfil] at e1
  cases e1
  refine ⟨pick rows is, pick_sublist _ _ e3.increasing, ?_,
    about ho hk tr hs hsl hy hx hyn hxn (fun i hi => ((e3.exact i).1 hi).1) e2⟩
  intro q i hq
  rw [hx.nrows] at e3
  exact pick_exact hk.increasing e3 hq

/-- **C162, with a fraction.**  The arrays are about exactly the rows that the split picks, counted from 0
among the rows that preprocessing keeps. -/
theorem C162_subset_fraction_partial (ho : Readable lower env t labels)
    (h : Succeeds lower numeric str num env t d) {rows : List Nat} (hk : KeptRows lower num env t rows)
    {algos feats : List String} (ha : d .algo_labels = some (.names algos))
    (hf : d .feat_labels = some (.names feats)) (hu : Prelim.UsesFraction env.subset) :
    ∃ js sub, env.split = some js ∧ sub.Sublist rows ∧
      (∀ q i : Nat, rows[q]? = some i → (i ∈ sub ↔ q ∈ js)) ∧
      AboutRows lower num env t d algos feats rows sub := by
  obtain ⟨inst, s, o, outs, ys, a, sel, f, tr, -, -, -, -, hs, hsl, hy, hx, hyn, hxn⟩ :=
    run_sampled ho h hk
  rw [tr.algo_labels] at ha
  rw [tr.feat_labels] at hf
  cases ha
  cases hf
  obtain ⟨dense, hfil⟩ := tr.filtered
  obtain ⟨js, is, e1, e3, e2⟩ := Prelim.C44_fraction env.subset env.tests o.data.x.ncols env.split env.file
    _ _ _ _ tr.fits hu hfil
  refine ⟨js, pick rows is, e1, pick_sublist _ _ e3.increasing, ?_,
    about ho hk tr hs hsl hy hx hyn hxn (fun i hi => ((e3.exact i).1 hi).1) e2⟩
  intro q i hq
  rw [hx.nrows] at e3
  exact pick_exact hk.increasing e3 hq

/-- **C162, the labels with a subset.**  The labels of the Model are those of all the rows that preprocessing
keeps, whatever subset is taken. -/
theorem C162_subset_labels_partial (ho : Readable lower env t labels)
    (h : Succeeds lower numeric str num env t d) {rows : List Nat}
    (hk : KeptRows lower num env t rows) :
    ∃ (f : V → V) (ls : List V), (f = id ∨ f = str) ∧ d .inst_labels = some (.labels ls) ∧
      ls.length = rows.length ∧
      ∀ k i : Nat, rows[k]? = some i → ∃ l, labels[i]? = some l ∧ ls[k]? = some (f l) := by
  obtain ⟨inst, s, o, outs, ys, a, sel, f, tr, hf, rfl, hl, hi, -⟩ := run_sampled ho h hk
  have hr : ∀ i ∈ rows, i < t.nrows := fun i hi => ((hk.exact i).1 hi).1
  refine ⟨f, _, hf, tr.inst_labels, ?_, ?_⟩
  · rw [hi, Preprocessing.pick_length _ _ (by simpa [hl] using hr)]
  · intro k i hki
    rw [hi, Preprocessing.pick_getElem? _ _ (by simpa [hl] using hr), hki]
    have hlt : i < labels.length := hl ▸ hr i (List.mem_of_getElem? hki)
    exact ⟨labels[i], List.getElem?_eq_getElem hlt, by simp [List.getElem?_eq_getElem hlt]⟩

/-- Non-vacuity: with an index file naming the second of the three instances that preprocessing keeps, the
hypotheses are met, and the arrays are about row 1 of the table, with the labels of all three. -/
example : Readable id (smallEnv withFile (some [2])) smallTable [10, 11, 12, 13] ∧
    KeptRows id smallNum (smallEnv withFile (some [2])) smallTable [0, 1, 3] ∧
    Prelim.UsesFile (smallEnv withFile (some [2])).subset ∧
    (∀ k ∈ [(2 : Int)], 1 ≤ k ∧ k < [0, 1, 3].length) ∧
    (∃ d, Succeeds id (fun _ => false) id smallNum (smallEnv withFile (some [2])) smallTable d) ∧
    digest (smallRun withFile (some [2])) =
      (some [10, 11, 13], some [[false, true]], some [2], some [1]) := by
  have hrun : digest (smallRun withFile (some [2])) =
      (some [10, 11, 13], some [[false, true]], some [2], some [1]) := by decide +kernel
  refine ⟨small_readable _ _, small_kept _ _, by simp [Prelim.UsesFile, Prelim.UsesFraction, smallEnv, withFile],
    by decide, ?_, hrun⟩
  cases hd : smallRun withFile (some [2]) with
  | error e => rw [hd] at hrun; cases hrun
  | ok d => exact ⟨d, small_succeeds _ _ d hd⟩

/-- Non-vacuity of the fraction: the split picks the instances 2 and 0 of three. -/
example : Prelim.UsesFraction ⟨true, true, false, false, false, false, false, ""⟩ ∧
    digest (Runner.contents (Runner.runAll (Pipeline.runner Pipeline.defaultStages Pipeline.defaultSchedule
      (run { smallEnv ⟨true, true, false, false, false, false, false, ""⟩ none with split := some [2, 0] }))
      Runner.State.init (args { smallEnv ⟨true, true, false, false, false, false, false, ""⟩ none with
        split := some [2, 0] } smallNum (fromDataFrame id (fun _ => false) id smallTable)))) =
      (some [10, 11, 13], some [[true, false], [true, true]], some [1, 1], some [1, 2]) := by
  refine ⟨⟨rfl, rfl⟩, ?_⟩
  decide +kernel

end Verif.EndToEnd
