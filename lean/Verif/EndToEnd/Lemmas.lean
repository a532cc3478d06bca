import Verif.EndToEnd.Spec
import Verif.Pipeline.PropsWhole
import Verif.Pipeline.RowLemmas
import Verif.Preprocessing.PropsRun
import Verif.Prelim.Props
import Verif.Prelim.MetaLemmas
import Verif.Sifted.Props
/-! Evaluation of the stages and of the runner. -/
set_option autoImplicit false
set_option linter.unusedSectionVars false

namespace Verif.EndToEnd

open Verif (Num)
open Verif.Pipeline (Stg Name inputs outputs defaultStages buildDefault runner builderOf_tables)
open Verif.Metadata (Table Squeezed Begins fromDataFrame Columns)
open Verif.Preprocessing (Lists Mat Chosen)
open Verif.Runner (Dict Op exec runAll contents override applyAll applyStage applyStage_ok runFrom_apply
  built_proper exec_inv runFrom pipelineOf applyAll_frame Writes)

variable {V W : Type}

theorem preprocessing_ok {env : Env V W} {vs : List (Val V W)} {out : List (Name × Val V W)}
    (h : runPreprocessing env vs = .ok out) :
    ∃ feat algo inst s x y z o, vs = [.names feat, .names algo, .labels inst, .sources s, .table x,
        .table y, z] ∧
      Preprocessing.run Num.isNan ⟨x, y, s, feat, inst⟩ algo env.feats env.algos = .ok o ∧
      out = [(.inst_labels, .labels o.data.inst), (.feat_labels, .names o.data.feat),
        (.algo_labels, .names o.algo), (.x, .table o.data.x), (.y, .table o.data.y),
        (.s, .sources o.data.s), (.x_raw, .table o.data.x), (.y_raw, .table o.data.y)] := by
  unfold runPreprocessing at h
  split at h
  · rename_i feat algo inst s x y z
    cases ho : Preprocessing.run Num.isNan ⟨x, y, s, feat, inst⟩ algo env.feats env.algos with
    | error e => rw [ho] at h; cases h
    | ok o =>
      rw [ho] at h
      cases h
      exact ⟨feat, algo, inst, s, x, y, z, o, rfl, ho, rfl⟩
  · cases h

/-- The arrays of PRELIM before a subset is taken. -/
def arrays (env : Env V W) (x y xRaw yRaw : Mat Num) (s : Option (List V)) (inst : List V)
    (outs : List Prelim.Row) (ys : List (List Num)) :
    Prelim.Arrays (List Num) (List Num) (List Bool) Nat Num Nat V V :=
  { x := rowsOf x.rows.length
      (Prelim.outX env.prelim env.junk env.tr (Prelim.columns x.ncols x.rows))
    y := rowsOf y.rows.length ys
    xRaw := xRaw.rows
    yRaw := Prelim.yRawOut env.prelim (fun _ => yRaw.rows) 0 0
    yBin := outs.map (·.yBin), beta := outs.map (·.beta), numGood := outs.map (·.numGood)
    yBest := outs.map (·.yBest), p := outs.map (·.p), inst, s }

/-- What PRELIM returns. -/
def prelimOut (env : Env V W) (x y xRaw yRaw : Mat Num)
    (a : Prelim.Arrays (List Num) (List Num) (List Bool) Nat Num Nat V V) (dense : Bool) :
    List (Name × Val V W) :=
  recorded env x y ((Prelim.rows env.prelim y.rows).getD []) ++
    [(.x, .table ⟨x.ncols, a.x⟩), (.y, .table ⟨y.ncols, a.y⟩), (.x_raw, .table ⟨xRaw.ncols, a.xRaw⟩),
      (.y_raw, .table ⟨yRaw.ncols, a.yRaw⟩), (.y_bin, .verdicts a.yBin),
      (.y_best, .numbers a.yBest), (.p, .counts a.p), (.num_good_algos, .counts a.numGood),
      (.beta, .flags a.beta), (.instlabels, .labels a.inst), (.data_dense, .dense dense),
      (.s, .sources a.s)]

theorem prelim_ok {env : Env V W} {vs : List (Val V W)} {out : List (Name × Val V W)}
    (h : runPrelim env vs = .ok out) :
    ∃ x y xRaw yRaw s inst z z' outs ys a dense, vs = [.table x, .table y, .table xRaw, .table yRaw,
        .sources s, .labels inst, z, z'] ∧
      Prelim.rows env.prelim y.rows = some outs ∧
      Prelim.outY env.prelim env.tr y.ncols y.rows = some ys ∧
      Prelim.filter env.subset env.tests x.ncols env.split env.file
        (arrays env x y xRaw yRaw s inst outs ys) = .ok (a, dense) ∧
      out = prelimOut env x y xRaw yRaw a dense.isSome := by
  unfold runPrelim at h
  split at h
  · rename_i x y xRaw yRaw s inst z z'
    cases h1 : Prelim.rows env.prelim y.rows with
    | none => rw [h1] at h; cases h
    | some outs =>
      cases h2 : Prelim.outY env.prelim env.tr y.ncols y.rows with
      | none => rw [h1, h2] at h; cases h
      | some ys =>
        rw [h1, h2] at h
        dsimp only at h
        cases h3 : Prelim.filter env.subset env.tests x.ncols env.split env.file
            (arrays env x y xRaw yRaw s inst outs ys) with
        | error e =>
          unfold arrays at h3
          rw [h3] at h
          cases h
        | ok r =>
          obtain ⟨a, dense⟩ := r
          have h3' := h3
          unfold arrays at h3
          rw [h3] at h
          cases h
          exact ⟨x, y, xRaw, yRaw, s, inst, z, z', outs, ys, a, dense, rfl, h1, h2, h3', by
            unfold prelimOut; rw [h1]; rfl⟩
  · cases h

theorem sifted_ok {env : Env V W} {vs : List (Val V W)} {out : List (Name × Val V W)}
    (h : runSifted env vs = .ok out) :
    ∃ x y yb xRaw yRaw beta numGood yBest p inst feat s z z' present z'' c o,
      vs = [.table x, .table y, .verdicts yb, xRaw, yRaw, beta, numGood, yBest, p, inst, .names feat, s, z, z',
        .dense present, z''] ∧
      correlations env x y yb = .ok c ∧
      Sifted.sifted (env.lib x y yb) ((c.map (·.rho)).getD []) env.thr env.clusters y.ncols
        (Prelim.columns x.ncols x.rows) feat (env.subset.byDensity && present) = .ok o ∧
      out = [(.x, .table ⟨o.x.length, rowsOf x.rows.length o.x⟩), (.y, .table y), (.y_bin, .verdicts yb),
        (.x_raw, xRaw), (.y_raw, yRaw), (.beta, beta), (.num_good_algos, numGood), (.y_best, yBest),
        (.p, p), (.inst_labels, inst), (.s, s), (.feat_labels, .names o.featLabels),
        (.selvars, .counts o.selvars), (.idx, .counts o.idx)] ++ grounds env y.ncols c o := by
  unfold runSifted at h
  split at h
  · rename_i x y yb xRaw yRaw beta numGood yBest p inst feat s z z' present z''
    cases hc : correlations env x y yb with
    | error e => rw [hc] at h; cases h
    | ok c =>
    rw [hc] at h
    dsimp only at h
    cases ho : Sifted.sifted (env.lib x y yb) ((c.map (·.rho)).getD []) env.thr env.clusters y.ncols
        (Prelim.columns x.ncols x.rows) feat (env.subset.byDensity && present) with
    | error e => rw [ho] at h; cases h
    | ok o =>
      rw [ho] at h
      cases h
      exact ⟨x, y, yb, xRaw, yRaw, beta, numGood, yBest, p, inst, feat, s, z, z', present, z'', c, o, rfl,
        hc, ho, rfl⟩
  · cases h

/-- Looking up all fields when they are present. -/
theorem filterMap_some {N X : Type} {d : N → Option X} {l : List N} {vs : List X}
    (hp : ∀ n ∈ l, (d n).isSome) (h : l.filterMap d = vs) : l.map d = vs.map some := by
  subst h
  induction l with
  | nil => rfl
  | cons n l ih =>
    have h1 := hp n (by simp)
    cases hd : d n with
    | none => rw [hd] at h1; cases h1
    | some v =>
      rw [List.filterMap_cons, hd, List.map_cons, List.map_cons, hd,
        ih fun m hm => hp m (List.mem_cons_of_mem _ hm)]

/-- The first three stages run on the initial inputs, one after the other, and the values the others do
not return stay as they are. -/
theorem succeeds_stages {lower : String → String} {numeric : Squeezed V → Bool} {str : V → V}
    {num : V → Num} {env : Env V W} {t : Table V} {d : Dict Name (Val V W)}
    (htup : ∀ k s vs out, env.rest k s vs = .ok out → out.map Prod.fst = (outputs s).map Prod.fst)
    (h : Succeeds lower numeric str num env t d) :
    ∃ vs1 vs2 vs3 o1 o2 o3,
      let d0 := args env num (fromDataFrame lower numeric str t)
      runPreprocessing env vs1 = .ok o1 ∧ runPrelim env vs2 = .ok o2 ∧ runSifted env vs3 = .ok o3 ∧
      ((inputs .preprocessing).map Prod.fst).map d0 = vs1.map some ∧
      ((inputs .prelim).map Prod.fst).map (override d0 o1) = vs2.map some ∧
      ((inputs .sifted).map Prod.fst).map (override (override d0 o1) o2) = vs3.map some ∧
      ∀ n, (∀ s ∈ [Stg.pilot, .pythia, .cloister, .trace], n ∉ (outputs s).map Prod.fst) →
        d n = override (override (override d0 o1) o2) o3 n := by
  obtain ⟨order, π, sched, ops, horder, hs, hd⟩ := h
  have hB := (builderOf_tables order horder).1
  have hP : (runner order sched (run env)).Proper := built_proper hB hs _
  obtain ⟨g1, -⟩ := runFrom_apply hP (exec_inv hP.once ops)
    (args env num (fromDataFrame lower numeric str t)) sched [] (by simp [pipelineOf])
  change contents (runFrom _ _ _ sched.flatten) = .ok d at hd
  rw [g1] at hd
  generalize (exec (runner order sched (run env)) ops).st.calls.length = k at hd
  generalize args env num (fromDataFrame lower numeric str t) = d0 at hd
  have hflat : ∃ post, sched.flatten = .preprocessing :: .prelim :: .sifted :: post ∧
      ∀ s ∈ post, s ∈ [Stg.pilot, .pythia, .cloister, .trace] := by
    rcases Pipeline.C10_default_schedule order horder π with h | h <;> rw [h] at hs <;> cases hs
    · exact ⟨_, rfl, by decide⟩
    · exact ⟨_, rfl, by decide⟩
  obtain ⟨post, hpost, hmem⟩ := hflat
  rw [hpost, Pipeline.runner_eq order horder] at hd
  simp only [applyAll] at hd
  cases e1 : applyStage ⟨sched, fun s => (inputs s).map Prod.fst, run env⟩ k .preprocessing d0 with
  | error e => rw [e1] at hd; cases hd
  | ok d1 =>
  rw [e1] at hd
  dsimp only at hd
  cases e2 : applyStage ⟨sched, fun s => (inputs s).map Prod.fst, run env⟩ (k + 1) .prelim d1 with
  | error e => rw [e2] at hd; cases hd
  | ok d2 =>
  rw [e2] at hd
  dsimp only at hd
  cases e3 : applyStage ⟨sched, fun s => (inputs s).map Prod.fst, run env⟩ (k + 1 + 1) .sifted d2 with
  | error e => rw [e3] at hd; cases hd
  | ok d3 =>
  rw [e3] at hd
  dsimp only at hd
  obtain ⟨p1, o1, r1, rfl⟩ := applyStage_ok e1
  obtain ⟨p2, o2, r2, rfl⟩ := applyStage_ok e2
  obtain ⟨p3, o3, r3, rfl⟩ := applyStage_ok e3
  refine ⟨_, _, _, o1, o2, o3, r1, r2, r3, filterMap_some p1 rfl, filterMap_some p2 rfl,
    filterMap_some p3 rfl, ?_⟩
  intro n hn
  refine applyAll_frame ?_ hd
  rintro s hs' ⟨j, vs, out, h1, h2⟩
  have hs4 := hmem s hs'
  apply hn s hs4
  rw [← htup j s vs out]
  · exact h2
  · simp only [List.mem_cons, List.not_mem_nil, or_false] at hs4
    rcases hs4 with rfl | rfl | rfl | rfl <;> exact h1

end Verif.EndToEnd
