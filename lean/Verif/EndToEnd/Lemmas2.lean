import Verif.EndToEnd.Lemmas
/-! The data of the Model in terms of the models of the stages. -/
set_option autoImplicit false
set_option linter.unusedSectionVars false

namespace Verif.EndToEnd

open Verif (Num)
open Verif.Pipeline (Stg Name inputs outputs)
open Verif.Metadata (Table Squeezed Begins fromDataFrame Columns Meta)
open Verif.Preprocessing (Lists Mat Chosen)
open Verif.Runner (Dict override)

variable {V W : Type}

/-- The metadata as a matrix of numbers. -/
def featMat (num : V → Num) (m : Meta V) : Mat Num := ⟨m.featureNames.length, m.features.map (·.map num)⟩
/-- The performances as a matrix of numbers. -/
def algoMat (num : V → Num) (m : Meta V) : Mat Num :=
  ⟨m.algorithmNames.length, m.algorithms.map (·.map num)⟩

/-- The rows of `x` after PRELIM, without a subset. -/
def prelimX (env : Env V W) (x : Mat Num) : List (List Num) :=
  rowsOf x.rows.length (Prelim.outX env.prelim env.junk env.tr (Prelim.columns x.ncols x.rows))

/-- What a successful run without a subset leaves behind. -/
structure Traced (num : V → Num) (env : Env V W) (m : Meta V) (d : Dict Name (Val V W)) (inst : List V)
    (s : Option (List V)) (o : Preprocessing.Output Num String V V) (outs : List Prelim.Row)
    (ys : List (List Num)) (sel : Sifted.Out (List Num)) : Prop where
  labels : m.labels = .series inst
  sources : (m.sources = none ∧ s = none) ∨ ∃ l, m.sources = some (.series l) ∧ s = some l
  run : Preprocessing.run Num.isNan ⟨featMat num m, algoMat num m, s, m.featureNames, inst⟩
    m.algorithmNames env.feats env.algos = .ok o
  rows : Prelim.rows env.prelim o.data.y.rows = some outs
  outY : Prelim.outY env.prelim env.tr o.data.y.ncols o.data.y.rows = some ys
  sifted : ∃ lib rho, Sifted.sifted lib rho env.thr env.clusters o.data.y.ncols
    (Prelim.columns o.data.x.ncols (prelimX env o.data.x)) o.data.feat false = .ok sel
  inst_labels : d .inst_labels = some (.labels o.data.inst)
  algo_labels : d .algo_labels = some (.names o.algo)
  feat_labels : d .feat_labels = some (.names sel.featLabels)
  selvars : d .selvars = some (.counts sel.selvars)
  x : d .x = some (.table ⟨sel.x.length, rowsOf (prelimX env o.data.x).length sel.x⟩)
  y : d .y = some (.table ⟨o.data.y.ncols, rowsOf o.data.y.rows.length ys⟩)
  x_raw : d .x_raw = some (.table o.data.x)
  y_raw : d .y_raw = some (.table ⟨o.data.y.ncols,
    Prelim.yRawOut env.prelim (fun _ => o.data.y.rows) 0 0⟩)
  y_bin : d .y_bin = some (.verdicts (outs.map (·.yBin)))
  y_best : d .y_best = some (.numbers (outs.map (·.yBest)))
  p : d .p = some (.counts (outs.map (·.p)))
  num_good_algos : d .num_good_algos = some (.counts (outs.map (·.numGood)))
  beta : d .beta = some (.flags (outs.map (·.beta)))
  s_out : d .s = some (.sources o.data.s)
  idx : d .idx = some (.counts sel.idx)
  recorded : ∀ a ∈ recorded env o.data.x o.data.y outs, d a.1 = some a.2

theorem traced {lower : String → String} {numeric : Squeezed V → Bool} {str : V → V}
    {num : V → Num} {env : Env V W} {t : Table V} {labels : List V} {d : Dict Name (Val V W)}
    (ho : Ordinary lower env t labels) (h : Succeeds lower numeric str num env t d) :
    ∃ inst s o outs ys sel,
      Traced num env (fromDataFrame lower numeric str t) d inst s o outs ys sel := by
  obtain ⟨vs1, vs2, vs3, o1, o2, o3, r1, r2, r3, i1, i2, i3, hd⟩ := succeeds_stages ho.tuples h
  generalize fromDataFrame lower numeric str t = m at *
  obtain ⟨feat, algo, inst, s, x, y, z, o, rfl, hrun, rfl⟩ := preprocessing_ok r1
  obtain ⟨x', y', xRaw', yRaw', s', inst', z1, z2, outs, ys, a, dense, rfl, hrows, hys, hfil, rfl⟩ :=
    prelim_ok r2
  obtain ⟨x2, y2, yBin2, xRaw2, yRaw2, beta2, ng2, yb2, p2, inst2, feat2, s2, z3, z4, present, z5, corr, sel,
    rfl, hcorr, hsel, rfl⟩ := sifted_ok r3
  have j1 : [some (Val.names m.featureNames), some (.names m.algorithmNames),
      args env num m .instance_labels, args env num m .instance_sources,
      some (.table (featMat num m)), some (.table (algoMat num m)), args env num m .selvars_options] =
      [some (.names feat), some (.names algo), some (.labels inst), some (.sources s), some (.table x),
        some (.table y), some z] := i1
  simp only [List.cons.injEq, Option.some.injEq, Val.names.injEq, Val.table.injEq, and_true] at j1
  obtain ⟨rfl, rfl, hl, hs, rfl, rfl, -⟩ := j1
  have j2 : [some (Val.table o.data.x), some (.table o.data.y), some (.table o.data.x),
      some (.table o.data.y), some (.sources o.data.s), some (.labels o.data.inst),
      args env num m .prelim_options, args env num m .selvars_options] =
      [some (Val.table x'), some (.table y'), some (.table xRaw'), some (.table yRaw'),
        some (.sources s'), some (.labels inst'), some z1, some z2] := i2
  simp only [List.cons.injEq, Option.some.injEq, Val.labels.injEq, Val.sources.injEq, Val.table.injEq,
    and_true] at j2
  obtain ⟨rfl, rfl, rfl, rfl, rfl, rfl, -, -⟩ := j2
  rw [Prelim.C44_all _ _ _ _ _ _ ho.noFraction ho.noFile ho.noDensity] at hfil
  simp only [Except.ok.injEq, Prod.mk.injEq] at hfil
  obtain ⟨rfl, rfl⟩ := hfil
  have j3 : [some (Val.table ⟨o.data.x.ncols, prelimX env o.data.x⟩),
      some (.table ⟨o.data.y.ncols, rowsOf o.data.y.rows.length ys⟩),
      some (.verdicts (outs.map (·.yBin))), some (.table o.data.x),
      some (.table ⟨o.data.y.ncols, Prelim.yRawOut env.prelim (fun _ => o.data.y.rows) 0 0⟩),
      some (.flags (outs.map (·.beta))), some (.counts (outs.map (·.numGood))),
      some (.numbers (outs.map (·.yBest))), some (.counts (outs.map (·.p))),
      some (.labels o.data.inst), some (.names o.data.feat), some (.sources o.data.s),
      args env num m .sifted_options, args env num m .selvars_options, some (.dense false),
      args env num m .parallel_options] =
      [some (Val.table x2), some (.table y2), some (.verdicts yBin2), some xRaw2, some yRaw2, some beta2, some ng2,
        some yb2, some p2, some inst2, some (.names feat2), some s2, some z3, some z4,
        some (.dense present), some z5] := i3
  simp only [List.cons.injEq, Option.some.injEq, Val.names.injEq, Val.dense.injEq, Val.table.injEq,
    Val.verdicts.injEq,
    and_true] at j3
  obtain ⟨rfl, rfl, rfl, rfl, rfl, rfl, rfl, rfl, rfl, rfl, rfl, rfl, -, -, rfl, -⟩ := j3
  rw [Bool.and_false] at hsel
  have look : ∀ (n : Name) (v : Val V W),
      (∀ st ∈ [Stg.pilot, .pythia, .cloister, .trace], n ∉ (outputs st).map Prod.fst) →
      override (override (override (args env num m) _) _) _ n = some v → d n = some v :=
    fun n v h1 h2 => (hd n h1).trans h2
  exact ⟨inst, s, o, outs, ys, sel, {
    labels := by
      simp only [args] at hl
      cases hm : m.labels with
      | scalar v => rw [hm] at hl; cases hl
      | series l => rw [hm] at hl; cases hl; rfl
      | frame f => rw [hm] at hl; cases hl
    sources := by
      simp only [args] at hs
      cases hm : m.sources with
      | none => rw [hm] at hs; cases hs; exact .inl ⟨rfl, rfl⟩
      | some q =>
        cases q with
        | scalar v => rw [hm] at hs; cases hs
        | series l => rw [hm] at hs; cases hs; exact .inr ⟨l, rfl, rfl⟩
        | frame f => rw [hm] at hs; cases hs
    run := hrun
    rows := hrows
    outY := hys
    sifted := ⟨_, _, hsel⟩
    inst_labels := look _ _ (by decide) rfl
    algo_labels := look _ _ (by decide) rfl
    feat_labels := look _ _ (by decide) rfl
    selvars := look _ _ (by decide) rfl
    x := look _ _ (by decide) rfl
    y := look _ _ (by decide) rfl
    x_raw := look _ _ (by decide) rfl
    y_raw := look _ _ (by decide) rfl
    y_bin := look _ _ (by decide) rfl
    y_best := look _ _ (by decide) rfl
    p := look _ _ (by decide) rfl
    num_good_algos := look _ _ (by decide) rfl
    beta := look _ _ (by decide) rfl
    s_out := look _ _ (by decide) rfl
    idx := look _ _ (by decide) rfl
    recorded := by
      have hout : (Prelim.rows env.prelim o.data.y.rows).getD [] = outs := by rw [hrows]; rfl
      rw [← hout]
      unfold recorded
      simp only [List.mem_cons, List.not_mem_nil, or_false]
      rintro a (rfl | rfl | rfl | rfl | rfl | rfl | rfl | rfl | rfl | rfl | rfl | rfl)
      · exact look .med_val _ (by decide) rfl
      · exact look .iq_range _ (by decide) rfl
      · exact look .hi_bound _ (by decide) rfl
      · exact look .lo_bound _ (by decide) rfl
      · exact look .min_x _ (by decide) rfl
      · exact look .lambda_x _ (by decide) rfl
      · exact look .mu_x _ (by decide) rfl
      · exact look .sigma_x _ (by decide) rfl
      · exact look .min_y _ (by decide) rfl
      · exact look .lambda_y _ (by decide) rfl
      · exact look .sigma_y _ (by decide) rfl
      · exact look .mu_y _ (by decide) rfl }⟩

end Verif.EndToEnd
