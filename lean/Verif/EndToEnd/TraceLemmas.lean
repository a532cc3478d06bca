import Verif.EndToEnd.EntryLemmas
import Verif.EndToEnd.SvmLemmas
import Verif.EndToEnd.SpecTrace
import Verif.Trace.PropsTable
import Verif.Export.PropsFiles
/-!
# Lemmas about the exported footprints
-/
set_option autoImplicit false
set_option linter.unusedSectionVars false

namespace Verif.EndToEnd

open Verif (Num)
open Verif.Pipeline (Stg Name ModelObj modelOf readPart inputs outputs)
open Verif.Metadata (Table Squeezed)
open Verif.Runner (Dict)
open Verif.Export (Export saveCsv Fits Holds Geometry)
open Verif.Pythia (Sized share)

variable {V α O G : Type} {lower : String → String} {numeric : Squeezed V → Bool} {str : V → V}
  {num : V → Num} {env : Env V (Kept G)} {le : Nat → Late V (Kept G)} {te : Nat → TraceEnv G}
  {t : Table V} {d : Dict Name (Val V (Kept G))} {tx : Text V α} {outline : G → Geometry α}
  {files : List (String × Export.File α)}

/-! ### The stage -/

theorem footprints_ok {te : TraceEnv G} {z : List (Fin 2 → ℚ)} {y : List (List Bool)} {best : List Nat}
    {beta : List Bool} {algo : List String} {o : Trace.Out G ℚ × List (String × List Num)}
    (h : footprints te z y best beta algo = .ok o) : ∃ quals,
      Trace.computeQualities (E := Trace.Err) Trace.missing Trace.missing
        (fun i => .ok (Trace.processAlgorithm te.geo te.purity z y best i)) algo.length
        (te.order algo.length) = .ok quals ∧
      Trace.trace te.geo te.purity z best beta algo.length quals = .ok o.1 ∧
      Trace.summaryTable algo o.1 = .ok o.2 := by
  unfold footprints at h
  split at h
  · cases h
  rename_i quals hq
  split at h
  · cases h
  rename_i out ho
  split at h
  · cases h
  rename_i t ht
  cases h
  exact ⟨quals, hq, ho, ht⟩

theorem runTrace_ok {te : TraceEnv G} {vs : List (Val V (Kept G))}
    {out : List (Name × Val V (Kept G))} (h : runTrace te vs = .ok out) :
    ∃ z sel p beta algo yHat yBin o1 o2 o,
      vs = [.table z, .counts sel, .counts p, .flags beta, .names algo, .verdicts yHat, .verdicts yBin,
        o1, o2] ∧
      isFinite z = true ∧ z.ncols = 2 ∧
      footprints te (z.rows.map place) (if te.useSim then yHat else yBin)
        (if te.useSim then sel else p) beta algo = .ok o ∧
      out = [(.space, .other (.footprint o.1.space)),
          (.good, .other (.footprints o.1.good)), (.best, .other (.footprints o.1.best)),
          (.hard, .other (.footprint o.1.hard)), (.trace_summary, .frame (traceFrame o.2))] := by
  unfold runTrace at h
  split at h
  · rename_i z sel p beta algo yHat yBin o1 o2
    dsimp only at h
    by_cases hc : (isFinite z && z.ncols == 2 &&
        (if te.useSim then yHat else yBin).all (fun r => r.length == algo.length)) = true
    · rw [if_pos hc] at h
      split at h
      · cases h
      · rename_i o t ho
        simp only [Bool.and_eq_true, beq_iff_eq] at hc
        cases h
        exact ⟨z, sel, p, beta, algo, yHat, yBin, o1, o2, (o, t), rfl, hc.1.1, hc.1.2, ho, rfl⟩
    · rw [if_neg hc] at h
      cases h
  · cases h

theorem CompleteTrace.complete (hc : CompleteTrace env le te) : Complete env le where
  stages := hc.stages
  trace := by
    intro k vs out h
    rw [hc.trace] at h
    obtain ⟨_, _, _, _, _, _, _, _, _, _, _, _, _, _, rfl⟩ := runTrace_ok h
    rfl

theorem trace_values (hc : CompleteTrace env le te) (h : Succeeds lower numeric str num env t d) :
    ∃ k z sel p beta algo yHat yBin o, d .z = some (.table z) ∧ d .selection0 = some (.counts sel) ∧
      d .p = some (.counts p) ∧ d .beta = some (.flags beta) ∧ d .algo_labels = some (.names algo) ∧
      d .y_hat = some (.verdicts yHat) ∧ d .y_bin = some (.verdicts yBin) ∧ isFinite z = true ∧
      footprints (te k) (z.rows.map place) (if (te k).useSim then yHat else yBin)
        (if (te k).useSim then sel else p) beta algo = .ok o ∧
      d .good = some (.other (.footprints o.1.good)) ∧ d .best = some (.other (.footprints o.1.best)) ∧
      d .trace_summary = some (.frame (traceFrame o.2)) := by
  obtain ⟨k, vs, out, h1, h2, h3⟩ := succeeds_rest hc.complete.tuples h .trace (by decide)
  rw [hc.stages] at h1
  change (le k).trace vs = .ok out at h1
  rw [hc.trace] at h1
  obtain ⟨z, sel, p, beta, algo, yHat, yBin, o1, o2, o, rfl, f1, -, ho, rfl⟩ := runTrace_ok h1
  simp only [inputs, List.map_cons, List.map_nil, List.cons.injEq] at h2
  obtain ⟨a1, a2, a3, a4, a5, a6, a7, -⟩ := h2
  exact ⟨k, z, sel, p, beta, algo, yHat, yBin, o, a1, a2, a3, a4, a5, a6, a7, f1, ho,
    h3 _ _ (by simp), h3 _ _ (by simp), h3 _ _ (by simp)⟩

/-! ### The regions -/

theorem masked_range {β : Type} (n : Nat) (x : Nat → β) (sel : Nat → Bool) :
    Trace.masked ((List.range n).map x) ((List.range n).map sel) =
      ((List.range n).filter sel).map x := by
  rw [Trace.masked_eq_zip, List.zip_map', List.filter_map, List.map_map]
  rfl

theorem count_range (geo : Trace.Geo G (Fin 2 → ℚ) ℚ) (g : G) (l : List Nat) (x : Nat → Fin 2 → ℚ) :
    Trace.count geo g (l.map x) = (l.filter fun i => geo.contains g (x i)).length := by
  rw [Trace.count, List.filter_map, List.length_map]
  rfl

/-- What a footprint that was built says about the instances. -/
theorem build_region (geo : Trace.Geo G (Fin 2 → ℚ) ℚ) (purity : ℚ) (n : Nat) (x : Nat → Fin 2 → ℚ)
    (sel : Nat → Bool) (f : Trace.Footprint G ℚ)
    (hf : f = Trace.build geo purity ((List.range n).map x) ((List.range n).map sel)) :
    FormedBy geo n x sel f.polygon ∧ f.area = areaOf geo f.polygon ∧
      f.density = densityOf geo n x f.polygon ∧ f.purity = purityOf geo n x sel f.polygon := by
  constructor
  · have h := Trace.C96_missing geo purity ((List.range n).map x) ((List.range n).map sel)
    rw [← hf, masked_range] at h
    unfold FormedBy
    rw [← not_lt, ← h]
    cases f.polygon <;> simp
  · rcases Trace.build_madeFor geo purity ((List.range n).map x) ((List.range n).map sel) with h | ⟨g, h⟩
    · rw [← hf] at h
      subst h
      simp [Trace.missing, areaOf, densityOf, purityOf, inRegion, share]
    · rw [← hf] at h
      subst h
      simp only [Trace.fromPolygon, Bool.false_eq_true, if_false, areaOf, densityOf, purityOf, inRegion,
        masked_range, count_range, share, List.filter_filter, true_and]
      constructor
      · by_cases h0 : geo.area g = 0 <;> simp [h0]
      · by_cases h0 : ((List.range n).filter fun i => geo.contains g (x i)).length = 0
        · simp [h0]
        · simp only [h0, ne_eq, not_false_iff, if_true, Bool.and_comm]

theorem list_map_range {β γ : Type} (l : List β) (f : β → γ) (c : β) :
    l.map f = (List.range l.length).map fun i => f (l.getD i c) := by
  apply List.ext_getElem (by simp)
  intro i h1 h2
  simp [List.getD_eq_getElem?_getD, List.getElem?_eq_getElem (by simpa using h1 : i < l.length)]

theorem places_range (rows : List (List Num)) :
    rows.map place = (List.range rows.length).map (point (ent rows)) := by
  rw [list_map_range rows place []]
  rfl

theorem goodMask_range (y : List (List Bool)) (j : Nat) :
    Trace.goodMask y j = (List.range y.length).map fun i => truth y i j := by
  rw [Trace.goodMask, list_map_range y _ []]
  rfl

theorem bestMask_range (p : List Nat) (j : Nat) :
    Trace.bestMask p j = (List.range p.length).map fun i => p.getD i 0 == j := by
  rw [Trace.bestMask, list_map_range p _ 0]
  refine List.map_congr_left fun i _ => ?_
  rw [Bool.eq_iff_iff]
  simp

/-- The footprints of TRACE and the rows of its summary, in terms of the instances. -/
theorem footprints_regions {te : TraceEnv G} (laws : Trace.Laws te.geo)
    (horder : ∀ n, (te.order n).Perm (List.range n)) {rows : List (List Num)} {y : List (List Bool)}
    {best : List Nat} {beta : List Bool} {algo : List String}
    {o : Trace.Out G ℚ × List (String × List Num)} {n : Nat} (hz : rows.length = n)
    (hy : y.length = n) (hp : best.length = n) (hb : beta.length = n)
    (h : footprints te (rows.map place) y best beta algo = .ok o) :
    o.1.good.length = algo.length ∧ o.1.best.length = algo.length ∧ o.2.length = algo.length ∧
    FormedBy te.geo n (point (ent rows)) (fun _ => true) o.1.space.polygon ∧
    ∀ (j : Nat) (a : String), algo[j]? = some a → ∃ g b row,
      o.1.good[j]? = some g ∧ o.1.best[j]? = some b ∧ o.2[j]? = some (a, row) ∧
      FormedBy te.geo n (point (ent rows)) (fun i => truth y i j) g.polygon ∧
      FormedBy te.geo n (point (ent rows)) (fun i => best.getD i 0 == j) b.polygon ∧
      row[1]? = some (.fin (relative (areaOf te.geo g.polygon) (areaOf te.geo o.1.space.polygon))) ∧
      row[3]? = some (.fin (relative (densityOf te.geo n (point (ent rows)) g.polygon)
        (densityOf te.geo n (point (ent rows)) o.1.space.polygon))) ∧
      row[4]? = some (.fin (purityOf te.geo n (point (ent rows)) (fun i => truth y i j) g.polygon)) ∧
      row[6]? = some (.fin (relative (areaOf te.geo b.polygon) (areaOf te.geo o.1.space.polygon))) ∧
      row[8]? = some (.fin (relative (densityOf te.geo n (point (ent rows)) b.polygon)
        (densityOf te.geo n (point (ent rows)) o.1.space.polygon))) ∧
      row[9]? = some (.fin (purityOf te.geo n (point (ent rows)) (fun i => best.getD i 0 == j)
        b.polygon)) := by
  obtain ⟨quals, h1, h2, h3⟩ := footprints_ok h
  obtain ⟨q, c1, -, c2⟩ := Trace.C94_completes te.geo laws te.purity (rows.map place) y best beta
    algo.length (te.order algo.length) (horder _)
  rw [h1] at c1
  cases c1
  obtain ⟨e1, -, e3, e4⟩ := c2 _ h2
  obtain ⟨t, t1, t2, t3⟩ := Trace.C156_rows te.geo laws te.purity (rows.map place) y best beta algo
    (te.order algo.length) (horder _) (by simp [hz, hy]) (by simp [hz, hp]) (by simp [hz, hb]) quals h1
    o.1 h2
  rw [h3] at t1
  cases t1
  have hpts := places_range rows
  rw [hz] at hpts
  have hspace := build_region te.geo te.purity n (point (ent rows)) (fun _ => true) o.1.space (by
    rw [e1, hpts]
    congr 1
    simp)
  refine ⟨by simp [e3], by simp [e4], t2, hspace.1, ?_⟩
  intro j a ha
  have hj : j < algo.length := (List.getElem?_eq_some_iff.1 ha).1
  obtain ⟨row, g, b, r1, r2, r3, r4, r5⟩ := t3 j a ha
  have hg := build_region te.geo te.purity n (point (ent rows)) (fun i => truth y i j) g (by
    rw [e3] at r3
    simp only [List.getElem?_map, List.getElem?_range hj, Option.map_some, Option.some.injEq] at r3
    rw [← r3, hpts, goodMask_range, hy])
  have hbr := build_region te.geo te.purity n (point (ent rows)) (fun i => best.getD i 0 == j) b (by
    rw [e4] at r4
    simp only [List.getElem?_map, List.getElem?_range hj, Option.map_some, Option.some.injEq] at r4
    rw [← r4, hpts, bestMask_range, hp])
  obtain ⟨s1, s2, s3, s4⟩ := hspace
  obtain ⟨g1, g2, g3, g4⟩ := hg
  obtain ⟨b1, b2, b3, b4⟩ := hbr
  refine ⟨g, b, row, r3, r4, r1, g1, b1, ?_⟩
  have hrow : ∀ (c : Nat) (name : String), Trace.dataLabels[c]? = some name →
      Trace.cellOf row name = row[c]? := by
    match row, r2 with
    | [v0, v1, v2, v3, v4, v5, v6, v7, v8, v9], _ =>
      intro c name hc
      match c with
      | 0 | 1 | 2 | 3 | 4 | 5 | 6 | 7 | 8 | 9 => cases hc; rfl
      | c + 10 => simp [Trace.dataLabels] at hc
  have hr : ∀ a b, Trace.ratioOr a b = relative a b := fun _ _ => rfl
  rw [← hrow 1 _ rfl, ← hrow 3 _ rfl, ← hrow 4 _ rfl, ← hrow 6 _ rfl, ← hrow 8 _ rfl, ← hrow 9 _ rfl,
    r5.area_good_normalised, r5.density_good_normalised, r5.purity_good, r5.area_best_normalised,
    r5.density_best_normalised, r5.purity_best]
  simp only [hr, g2, g3, g4, b2, b3, b4, s2, s3, and_self]

/-! ### The export -/

theorem traceOf_eq {start rest : Export α} {opts : O} {m : ModelObj (Val V (Kept G)) O}
    (hm : modelOf d opts = .ok m) (ht : traceOf tx outline start m = some rest) :
    ∃ good best f, d .good = some (.other (.footprints good)) ∧
      d .best = some (.other (.footprints best)) ∧ d .trace_summary = some (.frame f) ∧
      rest.good = good.map (fun f => f.polygon.map outline) ∧
      rest.best = best.map (fun f => f.polygon.map outline) ∧
      rest.traceSummary = f.map fun c => (c.1, c.2.map tx.entry) := by
  obtain ⟨-, -, -, -, h1⟩ := modelOf_parts hm
  unfold traceOf at ht
  rw [readPart_attr h1 "good" .good rfl, readPart_attr h1 "best" .best rfl,
    readPart_attr h1 "summary" .trace_summary rfl] at ht
  split at ht
  · cases ht
    exact ⟨_, _, _, by assumption, by assumption, by assumption, rfl, rfl, rfl⟩
  · cases ht

theorem lateOf_trace {rest late : Export α} {m : ModelObj (Val V (Kept G)) O}
    (hl : lateOf tx rest m = some late) : late.good = rest.good ∧ late.best = rest.best ∧
      late.traceSummary = rest.traceSummary := by
  unfold lateOf at hl
  split at hl
  · cases hl
    exact ⟨rfl, rfl, rfl⟩
  · cases hl

theorem exportOf_trace {rest e : Export α} {m : ModelObj (Val V (Kept G)) O}
    (he : exportOf tx rest m = some e) : e.good = rest.good ∧ e.best = rest.best ∧
      e.traceSummary = rest.traceSummary ∧
      ∃ y, attr m.data "y" = some (.table y) ∧ e.nalgos = y.ncols := by
  unfold exportOf at he
  split at he
  · cases he
    exact ⟨rfl, rfl, rfl, _, by assumption, rfl⟩
  · cases he

theorem SavedAll.late (h : SavedAll tx outline d files) : SavedLate tx d files := by
  obtain ⟨junk, start, rest, late, e, m, h1, -, h2⟩ := h
  exact ⟨junk, rest, late, e, m, h1, h2⟩

theorem counts_of_holds {file : String} {headings names : List String} {l : List Nat}
    (h : Holds files file headings names fun i _ => (l.map tx.count)[i]?) :
    Holds files file headings names fun i _ => some (tx.count (l.getD i 0)) := by
  obtain ⟨tb, h1, h2, h3, h4⟩ := h
  refine ⟨tb, h1, h2, h3, fun i j hi hj => ?_⟩
  obtain ⟨v, h5, h6⟩ := h4 i j hi hj
  refine ⟨v, h5, ?_⟩
  dsimp only at h6 ⊢
  rw [List.getElem?_map] at h6
  rw [List.getD_eq_getElem?_getD]
  cases hv : l[i]? with
  | none => rw [hv] at h6; cases h6
  | some w => rw [hv] at h6; simpa using h6

/-- The table of `footprint_performance.csv`, column by column. -/
theorem trace_frame (junk : α × α) {e : Export α} (hF : Fits e) {s : List (String × List Num)}
    (hsum : e.traceSummary = (traceFrame s).map fun c => (c.1, c.2.map tx.entry)) :
    Export.onDisk (saveCsv junk true e).files "footprint_performance.csv" = some (.frame
      (("Row", s.map fun r => tx.word r.1) ::
        [("Area_Good_Normalised", 1), ("Density_Good_Normalised", 3), ("Purity_Good", 4),
          ("Area_Best_Normalised", 6), ("Density_Best_Normalised", 8), ("Purity_Best", 9)].map
        fun c => (c.1, s.map fun r => tx.num (r.2.getD c.2 .nan)))) := by
  obtain ⟨f, -, -, hf, -, -, g1, -, -, g2, -⟩ := Export.C111_summaries junk e hF
  have hfr : f = (([0, 2, 4, 5, 7, 9, 10].filterMap (fun i => (e.traceSummary[i]?).map (·.1))).map
        (fun s => if s = "Algorithm" then "Row" else s)).zip
      ([0, 2, 4, 5, 7, 9, 10].filterMap (fun i => (e.traceSummary[i]?).map (·.2))) := by
    rw [← g1, ← g2, List.zip_map', List.map_id']
  rw [hf, hfr, hsum]
  simp [traceFrame, Trace.dataLabels, Text.entry, Function.comp_def]

end Verif.EndToEnd
