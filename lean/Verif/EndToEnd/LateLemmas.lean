import Verif.EndToEnd.RestLemmas
import Verif.Pilot.GapsLemmas
import Verif.EndToEnd.FilesLemmas
import Verif.EndToEnd.SpecLate
/-! The values that PILOT, CLOISTER and PYTHIA leave behind, and what is exported of them. -/
set_option autoImplicit false
set_option linter.unusedSectionVars false

namespace Verif.EndToEnd

open Verif (Num)
open Verif.Pipeline (Stg Name ModelObj modelOf readPart inputs outputs)
open Verif.Metadata (Table Squeezed)
open Verif.Preprocessing (Mat)
open Verif.Export (Export saveCsv Fits)
open Verif.Runner (Dict)

variable {V W α O : Type} {lower : String → String} {numeric : Squeezed V → Bool} {str : V → V}
  {num : V → Num} {env : Env V W} {le : Nat → Late V W} {t : Table V} {d : Dict Name (Val V W)}
  {tx : Text V α} {files : List (String × Export.File α)}

theorem runPilot_ok {le : Late V W} {vs : List (Val V W)} {out : List (Name × Val V W)}
    (h : runPilot le vs = .ok out) : ∃ x y feat opts o, vs = [.table x, .table y, .names feat, opts] ∧
      isFinite x = true ∧ noInfinity y = true ∧ y.rows.length = x.rows.length ∧
      Pilot.pilotGaps (le.pilotLib (entries x x.rows.length x.ncols))
          (entries x x.rows.length x.ncols) (entries y x.rows.length y.ncols) (gapsOf y x.rows.length y.ncols) feat
          (le.pilotOpts x.ncols y.ncols) = .ok o ∧
      out = pilotOut le (gapsOf y x.rows.length y.ncols) o := by
  unfold runPilot at h
  split at h
  · rename_i x y feat opts
    by_cases hc : (isFinite x && noInfinity y && y.rows.length == x.rows.length) = true
    · rw [if_pos hc] at h
      split at h
      · cases h
      · rename_i o ho
        simp only [Bool.and_eq_true, beq_iff_eq] at hc
        cases h
        exact ⟨x, y, feat, opts, o, rfl, hc.1.1, hc.1.2, hc.2, ho, rfl⟩
    · rw [if_neg hc] at h
      cases h
  · cases h

theorem runCloister_ok {le : Late V W} {vs : List (Val V W)} {out : List (Name × Val V W)}
    (h : runCloister le vs = .ok out) : ∃ x a opts r l, vs = [.table x, .table a, opts] ∧
      isFinite x = true ∧ isFinite a = true ∧ a.ncols = x.ncols ∧ a.rows.length = 2 ∧
      List.ofFn (entries x x.rows.length x.ncols) = r :: l ∧
      out = [(.z_edge, .table (pointsOf (Cloister.cloister le.qhull (le.pearson (r :: l)) le.pThr le.cThr
            (entries a 2 x.ncols) r l).1)),
          (.z_ecorr, .table (pointsOf (Cloister.cloister le.qhull (le.pearson (r :: l)) le.pThr le.cThr
            (entries a 2 x.ncols) r l).2))] := by
  unfold runCloister at h
  split at h
  · rename_i x a opts
    by_cases hc : (isFinite x && isFinite a && a.ncols == x.ncols && a.rows.length == 2) = true
    · rw [if_pos hc] at h
      split at h
      · cases h
      · rename_i r l hl
        simp only [Bool.and_eq_true, beq_iff_eq] at hc
        split at h
        · cases h
        · cases h
          exact ⟨x, a, opts, r, l, rfl, hc.1.1.1, hc.1.1.2, hc.1.2, hc.2, hl, rfl⟩
    · rw [if_neg hc] at h
      cases h
  · cases h

theorem runPythia_ok {le : Late V W} {vs : List (Val V W)} {out : List (Name × Val V W)}
    (h : runPythia le vs = .ok out) : ∃ z y yBin yBest algo o1 o2 w o,
      vs = [.table z, .table y, .verdicts yBin, .numbers yBest, .names algo, o1, o2] ∧
      Pythia.weightMatrix le.useWeights yBin.length y.ncols y.rows = .ok w ∧
      Pythia.pythia le.pythiaLib y.ncols algo y.rows yBin yBest (le.fitted z y yBin) = .ok o ∧
      out = pythiaOut le y.ncols w o := by
  unfold runPythia at h
  split at h
  · rename_i z y yBin yBest algo o1 o2
    split at h
    · cases h
    · rename_i w hw
      split at h
      · cases h
      · rename_i o ho
        cases h
        exact ⟨z, y, yBin, yBest, algo, o1, o2, w, o, rfl, hw, ho, rfl⟩
  · cases h

/-- The last four stages return their output tuples. -/
theorem Complete.tuples (hc : Complete env le) (k : Nat) (s : Stg) (vs : List (Val V W))
    (out : List (Name × Val V W)) (h : env.rest k s vs = .ok out) :
    out.map Prod.fst = (outputs s).map Prod.fst := by
  rw [hc.stages] at h
  cases s with
  | pilot =>
    obtain ⟨_, _, _, _, _, _, _, _, _, _, rfl⟩ := runPilot_ok h
    rfl
  | pythia =>
    obtain ⟨_, _, _, _, _, _, _, _, _, _, _, _, rfl⟩ := runPythia_ok h
    rfl
  | cloister =>
    obtain ⟨_, _, _, _, _, _, _, _, _, _, _, rfl⟩ := runCloister_ok h
    rfl
  | trace => exact hc.trace k vs out h
  | preprocessing => cases h
  | prelim => cases h
  | sifted => cases h

theorem pilot_values (hc : Complete env le) (h : Succeeds lower numeric str num env t d) :
    ∃ k x y feat o, d .x = some (.table x) ∧ d .y = some (.table y) ∧
      d .feat_labels = some (.names feat) ∧ isFinite x = true ∧ noInfinity y = true ∧
      y.rows.length = x.rows.length ∧
      Pilot.pilotGaps ((le k).pilotLib (entries x x.rows.length x.ncols))
          (entries x x.rows.length x.ncols) (entries y x.rows.length y.ncols) (gapsOf y x.rows.length y.ncols) feat
          ((le k).pilotOpts x.ncols y.ncols) = .ok o ∧
      d .a = some (.table (tableOf o.a)) ∧ d .z = some (.table (tableOf o.z)) ∧
      d .pilot_summary = some (.frame (("0", o.summary.rows.map .word) ::
        o.summary.columns.map fun c => (c.1, c.2.map fun q => .num (.fin q)))) := by
  obtain ⟨k, vs, out, h1, h2, h3⟩ := succeeds_rest hc.tuples h .pilot (by decide)
  rw [hc.stages] at h1
  obtain ⟨x, y, feat, opts, o, rfl, f1, f2, f3, hp, rfl⟩ := runPilot_ok h1
  simp only [inputs, List.map_cons, List.map_nil, List.cons.injEq] at h2
  exact ⟨k, x, y, feat, o, h2.1, h2.2.1, h2.2.2.1, f1, f2, f3, hp, h3 _ _ (by simp [pilotOut]),
    h3 _ _ (by simp [pilotOut]), h3 _ _ (by simp [pilotOut])⟩

theorem cloister_values (hc : Complete env le) (h : Succeeds lower numeric str num env t d) :
    ∃ k x a r l, d .x = some (.table x) ∧ d .a = some (.table a) ∧
      List.ofFn (entries x x.rows.length x.ncols) = r :: l ∧
      d .z_edge = some (.table (pointsOf (Cloister.cloister (le k).qhull ((le k).pearson (r :: l))
        (le k).pThr (le k).cThr (entries a 2 x.ncols) r l).1)) ∧
      d .z_ecorr = some (.table (pointsOf (Cloister.cloister (le k).qhull ((le k).pearson (r :: l))
        (le k).pThr (le k).cThr (entries a 2 x.ncols) r l).2)) := by
  obtain ⟨k, vs, out, h1, h2, h3⟩ := succeeds_rest hc.tuples h .cloister (by decide)
  rw [hc.stages] at h1
  obtain ⟨x, a, opts, r, l, rfl, -, -, -, -, hl, rfl⟩ := runCloister_ok h1
  simp only [inputs, List.map_cons, List.map_nil, List.cons.injEq] at h2
  exact ⟨k, x, a, r, l, h2.1, h2.2.1, hl, h3 _ _ (by simp), h3 _ _ (by simp)⟩

theorem pythia_values (hc : Complete env le) (h : Succeeds lower numeric str num env t d) :
    ∃ k z y yBin yBest algo o, d .z = some (.table z) ∧ d .y_raw = some (.table y) ∧
      d .y_bin = some (.verdicts yBin) ∧ d .y_best = some (.numbers yBest) ∧
      d .algo_labels = some (.names algo) ∧
      Pythia.pythia (le k).pythiaLib y.ncols algo y.rows yBin yBest ((le k).fitted z y yBin) = .ok o ∧
      d .y_hat = some (.verdicts o.trained.yHat) ∧ d .selection0 = some (.counts o.selection0.vals) ∧
      d .pythia_summary = some (.frame (summaryFrame o.summary)) := by
  obtain ⟨k, vs, out, h1, h2, h3⟩ := succeeds_rest hc.tuples h .pythia (by decide)
  rw [hc.stages] at h1
  obtain ⟨z, y, yBin, yBest, algo, o1, o2, w, o, rfl, -, hp, rfl⟩ := runPythia_ok h1
  simp only [inputs, List.map_cons, List.map_nil, List.cons.injEq] at h2
  exact ⟨k, z, y, yBin, yBest, algo, o, h2.1, h2.2.1, h2.2.2.1, h2.2.2.2.1, h2.2.2.2.2.1, hp,
    h3 _ _ (by simp [pythiaOut]), h3 _ _ (by simp [pythiaOut]), h3 _ _ (by simp [pythiaOut])⟩

theorem exportOf_rest {rest e : Export α} {m : ModelObj (Val V W) O} (he : exportOf tx rest m = some e) :
    e.z = rest.z ∧ e.zEdge = rest.zEdge ∧ e.zEcorr = rest.zEcorr ∧ e.yHat = rest.yHat ∧
      e.selection0 = rest.selection0 ∧ e.pilotSummary = rest.pilotSummary ∧
      e.pythiaSummary = rest.pythiaSummary := by
  unfold exportOf at he
  split at he
  · cases he
    exact ⟨rfl, rfl, rfl, rfl, rfl, rfl, rfl⟩
  · cases he

theorem lateOf_eq {rest late : Export α} {opts : O} {m : ModelObj (Val V W) O}
    (hm : modelOf d opts = .ok m) (hl : lateOf tx rest m = some late) :
    ∃ z ps ze zc yh sel pys, d .z = some (.table z) ∧ d .pilot_summary = some (.frame ps) ∧
      d .z_edge = some (.table ze) ∧ d .z_ecorr = some (.table zc) ∧ d .y_hat = some (.verdicts yh) ∧
      d .selection0 = some (.counts sel) ∧ d .pythia_summary = some (.frame pys) ∧
      late.z = z.rows.map (·.map tx.num) ∧ late.zEdge = ze.rows.map (·.map tx.num) ∧
      late.zEcorr = zc.rows.map (·.map tx.num) ∧ late.yHat = yh.map (·.map tx.bool) ∧
      late.selection0 = sel.map tx.count ∧
      late.pilotSummary = ps.map (fun c => (c.1, c.2.map tx.entry)) ∧
      late.pythiaSummary = pys.map (fun c => (c.1, c.2.map tx.entry)) := by
  obtain ⟨-, h1, h2, h3, -⟩ := modelOf_parts hm
  unfold lateOf at hl
  rw [readPart_attr h1 "z" .z rfl, readPart_attr h1 "summary" .pilot_summary rfl,
    readPart_attr h2 "z_edge" .z_edge rfl, readPart_attr h2 "z_ecorr" .z_ecorr rfl,
    readPart_attr h3 "y_hat" .y_hat rfl, readPart_attr h3 "selection0" .selection0 rfl,
    readPart_attr h3 "summary" .pythia_summary rfl] at hl
  split at hl
  · cases hl
    exact ⟨_, _, _, _, _, _, _, by assumption, by assumption, by assumption, by assumption,
      by assumption, by assumption, by assumption, rfl, rfl, rfl, rfl, rfl, rfl, rfl⟩
  · cases hl

/-- What is exported of the results of the run. -/
theorem savedLate_common (hc : Complete env le) (h : Succeeds lower numeric str num env t d)
    (hs : SavedLate tx d files) :
    ∃ (junk : α × α) (e : Export α), files = (saveCsv junk true e).files ∧ Fits e ∧
      (∃ k x y o, d .feat_labels = some (.names e.featLabels) ∧ d .x = some (.table x) ∧
        isFinite x = true ∧ e.x = x.rows.map (·.map tx.num) ∧ d .a = some (.table (tableOf o.a)) ∧
        Pilot.pilot (((le k).pilotLib (entries x x.rows.length x.ncols)).onGaps (entries x x.rows.length x.ncols)
            (entries y x.rows.length y.ncols) (gapsOf y x.rows.length y.ncols))
          (entries x x.rows.length x.ncols) (entries y x.rows.length y.ncols) e.featLabels
          ((le k).pilotOpts x.ncols y.ncols) = .ok o ∧
        e.z = (tableOf o.z).rows.map (·.map tx.num) ∧
        e.pilotSummary = (("0", o.summary.rows.map Entry.word) :: o.summary.columns.map
          fun c => (c.1, c.2.map fun q => Entry.num (.fin q))).map fun c => (c.1, c.2.map tx.entry)) ∧
      (∃ k x a r l, d .x = some (.table x) ∧ d .a = some (.table a) ∧
        List.ofFn (entries x x.rows.length x.ncols) = r :: l ∧
        e.zEdge = (pointsOf (Cloister.cloister (le k).qhull ((le k).pearson (r :: l))
          (le k).pThr (le k).cThr (entries a 2 x.ncols) r l).1).rows.map (·.map tx.num) ∧
        e.zEcorr = (pointsOf (Cloister.cloister (le k).qhull ((le k).pearson (r :: l))
          (le k).pThr (le k).cThr (entries a 2 x.ncols) r l).2).rows.map (·.map tx.num)) ∧
      (∃ k z y yBin yBest o, (d .z = some (.table z) ∧ d .y_raw = some (.table y) ∧
        d .y_bin = some (.verdicts yBin) ∧ d .y_best = some (.numbers yBest)) ∧ e.yRaw = y.rows.map (·.map tx.num) ∧
        e.yBin = yBin.map (·.map tx.bool) ∧ d .algo_labels = some (.names e.algoLabels) ∧
        Pythia.pythia (le k).pythiaLib y.ncols e.algoLabels y.rows yBin yBest
          ((le k).fitted z y yBin) = .ok o ∧
        e.yHat = o.trained.yHat.map (·.map tx.bool) ∧ e.selection0 = o.selection0.vals.map tx.count ∧
        e.pythiaSummary = (summaryFrame o.summary).map fun c => (c.1, c.2.map tx.entry)) := by
  obtain ⟨junk, rest, late, e, m, hm, hl, he, herr, rfl⟩ := hs
  have hfit := (Export.C82_exact_partial junk e).1 herr
  obtain ⟨inst, x, y, xr, yr, yb, n, beta, p, -, e2, e3, e4, -, -, e7, e8, -, -, -, -, -, e14,
    -, -, e17, e18, -⟩ := exportOf_eq hm he
  obtain ⟨r1, r2, r3, r4, r5, r6, r7⟩ := exportOf_rest he
  obtain ⟨z, ps, ze, zc, yh, sel, pys, l1, l2, l3, l4, l5, l6, l7, l8, l9, l10, l11, l12, l13, l14⟩ :=
    lateOf_eq hm hl
  refine ⟨junk, e, rfl, hfit, ?_, ?_, ?_⟩
  · obtain ⟨k, x', y', feat, o, p1, p2, p3, p4, p5, p6, p7, p8, p9, p10⟩ := pilot_values hc h
    rw [e4] at p1
    rw [e2] at p3
    rw [l1] at p9
    rw [l2] at p10
    cases p1; cases p3; cases p9; cases p10
    exact ⟨k, x, y', o, e2, e4, p4, e14, p8, (Pilot.pilotGaps_ok p7).1, by rw [r1, l8], by rw [r6, l13]⟩
  · obtain ⟨k, x', a, r, l, c1, c2, c3, c4, c5⟩ := cloister_values hc h
    rw [l3] at c4
    rw [l4] at c5
    cases c4; cases c5
    exact ⟨k, x', a, r, l, c1, c2, c3, by rw [r2, l9], by rw [r3, l10]⟩
  · obtain ⟨k, z', y', yBin, yBest, algo, o, q1, q2, q3, q4, q5, q6, q7, q8, q9⟩ := pythia_values hc h
    rw [e8] at q3
    rw [e7] at q2
    rw [e3] at q5
    rw [l5] at q7
    rw [l6] at q8
    rw [l7] at q9
    cases q2; cases q3; cases q5; cases q7; cases q8; cases q9
    exact ⟨k, z', yr, yb, yBest, o, ⟨q1, e7, e8, q4⟩, e17, e18, e3, q6, by rw [r4, l11], by rw [r5, l12],
      by rw [r7, l14]⟩

end Verif.EndToEnd
