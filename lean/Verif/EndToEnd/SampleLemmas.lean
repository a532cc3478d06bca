import Verif.EndToEnd.Lemmas3
/-! A run with a subset of the instances. -/
set_option autoImplicit false
set_option linter.unusedSectionVars false

namespace Verif.EndToEnd

open Verif (Num)
open Verif.Pipeline (Stg Name inputs outputs)
open Verif.Metadata (Table Squeezed Begins fromDataFrame Columns Meta)
open Verif.Preprocessing (Lists Mat Chosen pick)
open Verif.Runner (Dict override)

variable {V W : Type}

/-- What a successful run leaves behind: `a` are the arrays after a subset is taken. -/
structure Sampled (num : V → Num) (env : Env V W) (m : Meta V) (d : Dict Name (Val V W)) (inst : List V)
    (s : Option (List V)) (o : Preprocessing.Output Num String V V) (outs : List Prelim.Row)
    (ys : List (List Num))
    (a : Prelim.Arrays (List Num) (List Num) (List Bool) Nat Num Nat V V)
    (sel : Sifted.Out (List Num)) : Prop where
  labels : m.labels = .series inst
  sources : (m.sources = none ∧ s = none) ∨ ∃ l, m.sources = some (.series l) ∧ s = some l
  run : Preprocessing.run Num.isNan ⟨featMat num m, algoMat num m, s, m.featureNames, inst⟩
    m.algorithmNames env.feats env.algos = .ok o
  rows : Prelim.rows env.prelim o.data.y.rows = some outs
  outY : Prelim.outY env.prelim env.tr o.data.y.ncols o.data.y.rows = some ys
  fits : (arrays env o.data.x o.data.y o.data.x o.data.y o.data.s o.data.inst outs ys).Fits
    o.data.x.rows.length
  filtered : ∃ dense, Prelim.filter env.subset env.tests o.data.x.ncols env.split env.file
    (arrays env o.data.x o.data.y o.data.x o.data.y o.data.s o.data.inst outs ys) = .ok (a, dense)
  sifted : ∃ lib rho b, Sifted.sifted lib rho env.thr env.clusters o.data.y.ncols
    (Prelim.columns o.data.x.ncols a.x) o.data.feat b = .ok sel
  inst_labels : d .inst_labels = some (.labels o.data.inst)
  algo_labels : d .algo_labels = some (.names o.algo)
  feat_labels : d .feat_labels = some (.names sel.featLabels)
  selvars : d .selvars = some (.counts sel.selvars)
  x : d .x = some (.table ⟨sel.x.length, rowsOf a.x.length sel.x⟩)
  y : d .y = some (.table ⟨o.data.y.ncols, a.y⟩)
  x_raw : d .x_raw = some (.table ⟨o.data.x.ncols, a.xRaw⟩)
  y_raw : d .y_raw = some (.table ⟨o.data.y.ncols, a.yRaw⟩)
  y_bin : d .y_bin = some (.verdicts a.yBin)
  y_best : d .y_best = some (.numbers a.yBest)
  p : d .p = some (.counts a.p)
  num_good_algos : d .num_good_algos = some (.counts a.numGood)
  beta : d .beta = some (.flags a.beta)
  s_out : d .s = some (.sources a.s)

theorem rows_length {o : Prelim.Opts} {m : List (List Num)} {outs : List Prelim.Row}
    (h : Prelim.rows o m = some outs) : outs.length = m.length := by
  simpa using (congrArg List.length (Prelim.rows_iff.1 h)).symm

theorem yRawOut_eq (o : Prelim.Opts) (m : List (List Num)) : Prelim.yRawOut o (fun _ => m) 0 0 =
    m.map fun r => if o.absPerf then r else r.map Prelim.fixZero := by
  unfold Prelim.yRawOut Prelim.afterPrelim
  cases o.absPerf <;> simp

/-- Everything about a successful run, with or without a subset. -/
theorem run_sampled {lower : String → String} {numeric : Squeezed V → Bool} {str : V → V}
    {num : V → Num} {env : Env V W} {t : Table V} {labels : List V} {d : Dict Name (Val V W)}
    (ho : Readable lower env t labels) (h : Succeeds lower numeric str num env t d) {rows : List Nat}
    (hk : KeptRows lower num env t rows) :
    ∃ inst s o outs ys a sel f,
      Sampled num env (fromDataFrame lower numeric str t) d inst s o outs ys a sel ∧
      (f = id ∨ f = str) ∧ inst = labels.map f ∧ labels.length = t.nrows ∧
      o.data.inst = pick inst rows ∧ o.data.s = s.map (pick · rows) ∧
      (∀ l, s = some l → l.length = t.nrows) ∧
      Located num t rows o.algo o.data.y.rows ∧ Located num t rows o.data.feat o.data.x.rows ∧
      o.data.y.ncols = o.algo.length ∧ o.data.x.ncols = o.data.feat.length := by
  obtain ⟨vs1, vs2, vs3, o1, o2, o3, r1, r2, r3, i1, i2, i3, hd⟩ := succeeds_stages ho.tuples h
  obtain ⟨⟨fps, hf⟩, ⟨aps, ha⟩⟩ := Metadata.C47_columns lower numeric str t ho.rect
  obtain ⟨feat, algo, inst, s, x, y, z, o, rfl, hrun, rfl⟩ := preprocessing_ok r1
  obtain ⟨x', y', xRaw', yRaw', s', inst', z1, z2, outs, ys, a, dense, rfl, hrows, hys, hfil, rfl⟩ :=
    prelim_ok r2
  obtain ⟨x2, y2, yBin2, xRaw2, yRaw2, beta2, ng2, yb2, p2, inst2, feat2, s2', z3, z4, present, z5, corr, sel,
    rfl, hcorr, hsel, rfl⟩ := sifted_ok r3
  have hlab := @labels_series V W lower numeric str env t labels
  have hsrc := @sources_series V W lower numeric str env t labels
  generalize fromDataFrame lower numeric str t = m at *
  have j1 : [some (Val.names m.featureNames), some (.names m.algorithmNames),
      args env num m .instance_labels, args env num m .instance_sources,
      some (.table (featMat num m)), some (.table (algoMat num m)), args env num m .selvars_options] =
      [some (.names feat), some (.names algo), some (.labels inst), some (.sources s), some (.table x),
        some (.table y), some z] := i1
  simp only [List.cons.injEq, Option.some.injEq, Val.names.injEq, Val.table.injEq, and_true] at j1
  obtain ⟨rfl, rfl, hl, hs, rfl, rfl, -⟩ := j1
  have hlabels : m.labels = .series inst := by
    simp only [args] at hl
    cases hm : m.labels with
    | scalar v => rw [hm] at hl; cases hl
    | series l => rw [hm] at hl; cases hl; rfl
    | frame f => rw [hm] at hl; cases hl
  have hsources : (m.sources = none ∧ s = none) ∨ ∃ l, m.sources = some (.series l) ∧ s = some l := by
    simp only [args] at hs
    cases hm : m.sources with
    | none => rw [hm] at hs; cases hs; exact .inl ⟨rfl, rfl⟩
    | some q =>
      cases q with
      | scalar v => rw [hm] at hs; cases hs
      | series l => rw [hm] at hs; cases hs; exact .inr ⟨l, rfl, rfl⟩
      | frame f => rw [hm] at hs; cases hs
  obtain ⟨f, hf1, hf2, hf3⟩ := hlab ho hlabels
  have hsl : ∀ l, s = some l → l.length = t.nrows := by
    intro l hl
    rcases hsources with ⟨-, rfl⟩ | ⟨l', h1, h2⟩
    · cases hl
    · rw [hl] at h2
      cases h2
      obtain ⟨-, -, h3⟩ := hsrc ho h1
      exact h3
  have fits : (⟨featMat num m, algoMat num m, s, m.featureNames, inst⟩ :
      Preprocessing.Data Num String V V).Fits := by
    constructor
    · intro r hr
      obtain ⟨r', hr', rfl⟩ := List.mem_map.1 hr
      simp only [featMat, List.length_map]
      rw [hf.ncols r' hr', columns_length hf]
    · intro r hr
      obtain ⟨r', hr', rfl⟩ := List.mem_map.1 hr
      simp only [algoMat, List.length_map]
      rw [ha.ncols r' hr', columns_length ha]
    · rfl
    · simp only [featMat, algoMat, List.length_map]
      rw [hf.nrows, ha.nrows]
    · simp only [featMat, List.length_map, hf2, hf.nrows, hf3]
    · intro l hl
      simp only [featMat, List.length_map, hf.nrows]
      exact hsl l hl
  obtain ⟨rows', fcols, acols, c1, c2, c3, c4, c5, c6, c7, c8, c9, c10, c11⟩ :=
    Preprocessing.C27_run_partial _ _ _ _ _ _ fits rfl (columns_nodup hf ho.distinct)
      (columns_nodup ha ho.distinct) hrun
  have hrows' : rows' = rows := by
    refine Lists.unique (P := fun i => HasSome num t (Begins lower "feature_") env.feats i ∧
      HasSome num t (Begins lower "algo_") env.algos i) (n := t.nrows) ⟨c3.increasing, ?_⟩ hk
    intro i
    have e := c3.exact i
    simp only [featMat, algoMat] at e
    rw [hasSome_iff hf ho.rect ho.distinct num, hasSome_iff ha ho.rect ho.distinct num,
      List.length_map, hf.nrows] at e
    exact e
  subst hrows'
  have hr : ∀ i ∈ rows', i < t.nrows := fun i hi => ((hk.exact i).1 hi).1
  have hacl : ∀ j ∈ acols, j < m.algorithmNames.length := fun j hj => ((c1.exact j).1 hj).1
  have hfcl : ∀ j ∈ fcols, j < m.featureNames.length := fun j hj => ((c2.exact j).1 hj).1
  have la : Located num t rows' o.algo o.data.y.rows := by
    rw [c9, c7]
    exact located ha ho.rect ho.distinct num hr c1.increasing hacl
  have lf : Located num t rows' o.data.feat o.data.x.rows := by
    rw [c6, c4]
    exact located hf ho.rect ho.distinct num hr c2.increasing hfcl
  have j2 : [some (Val.table o.data.x), some (.table o.data.y), some (.table o.data.x),
      some (.table o.data.y), some (.sources o.data.s), some (.labels o.data.inst),
      args env num m .prelim_options, args env num m .selvars_options] =
      [some (Val.table x'), some (.table y'), some (.table xRaw'), some (.table yRaw'),
        some (.sources s'), some (.labels inst'), some z1, some z2] := i2
  simp only [List.cons.injEq, Option.some.injEq, Val.labels.injEq, Val.sources.injEq, Val.table.injEq,
    and_true] at j2
  obtain ⟨rfl, rfl, rfl, rfl, rfl, rfl, -, -⟩ := j2
  have hol := rows_length hrows
  have hfit : (arrays env o.data.x o.data.y o.data.x o.data.y o.data.s o.data.inst outs ys).Fits
      o.data.x.rows.length := by
    have hxy : o.data.y.rows.length = o.data.x.rows.length := by rw [la.nrows, lf.nrows]
    constructor
    · simp [arrays, rowsOf]
    · simp [arrays, rowsOf, hxy]
    · rfl
    · simp only [arrays, yRawOut_eq, List.length_map, hxy]
    · simp [arrays, hol, hxy]
    · simp [arrays, hol, hxy]
    · simp [arrays, hol, hxy]
    · simp [arrays, hol, hxy]
    · simp [arrays, hol, hxy]
    · simp only [arrays]
      rw [c10, Preprocessing.pick_length _ _ (by rw [hf2, List.length_map, hf3]; exact hr), lf.nrows]
    · intro l hl
      simp only [arrays] at hl
      rw [c11] at hl
      obtain ⟨l', rfl, rfl⟩ := Option.map_eq_some_iff.1 hl
      rw [Preprocessing.pick_length _ _ (by rw [hsl l' rfl]; exact hr), lf.nrows]
  have j3 : [some (Val.table ⟨o.data.x.ncols, a.x⟩), some (.table ⟨o.data.y.ncols, a.y⟩),
      some (.verdicts a.yBin), some (.table ⟨o.data.x.ncols, a.xRaw⟩),
      some (.table ⟨o.data.y.ncols, a.yRaw⟩),
      some (.flags a.beta), some (.counts a.numGood),
      some (.numbers a.yBest), some (.counts a.p),
      some (.labels o.data.inst), some (.names o.data.feat), some (.sources a.s),
      args env num m .sifted_options, args env num m .selvars_options, some (.dense dense.isSome),
      args env num m .parallel_options] =
      [some (Val.table x2), some (.table y2), some (.verdicts yBin2), some xRaw2, some yRaw2, some beta2, some ng2,
        some yb2, some p2, some inst2, some (.names feat2), some s2', some z3, some z4,
        some (.dense present), some z5] := i3
  simp only [List.cons.injEq, Option.some.injEq, Val.names.injEq, Val.dense.injEq, Val.table.injEq,
    Val.verdicts.injEq,
    and_true] at j3
  obtain ⟨rfl, rfl, rfl, rfl, rfl, rfl, rfl, rfl, rfl, rfl, rfl, rfl, -, -, rfl, -⟩ := j3
  have look : ∀ (n : Name) (v : Val V W),
      (∀ st ∈ [Stg.pilot, .pythia, .cloister, .trace], n ∉ (outputs st).map Prod.fst) →
      override (override (override (args env num m) _) _) _ n = some v → d n = some v :=
    fun n v h1 h2 => (hd n h1).trans h2
  refine ⟨inst, s, o, outs, ys, a, sel, f, {
    labels := hlabels
    sources := hsources
    run := hrun
    rows := hrows
    outY := hys
    fits := hfit
    filtered := ⟨_, hfil⟩
    sifted := ⟨_, _, _, hsel⟩
    inst_labels := look _ _ (by decide) rfl
    algo_labels := look _ _ (by decide) rfl
    feat_labels := look _ _ (by decide) rfl
    selvars := look _ _ (by decide) rfl
    x := look _ _ (by decide) rfl
    y := look _ _ (by decide) rfl
    x_raw := look _ _ (by decide) rfl
    y_raw := look _ _ (by decide) rfl
    y_bin := look _ _ (by decide) rfl
    y_best := look _ _ (by decide) rfl
    p := look _ _ (by decide) rfl
    num_good_algos := look _ _ (by decide) rfl
    beta := look _ _ (by decide) rfl
    s_out := look _ _ (by decide) rfl }, hf1, hf2, hf3, c10, c11, hsl, la, lf, ?_, ?_⟩
  · rw [c8, c9, Preprocessing.pick_length _ _ hacl]
  · rw [c5, c6, Preprocessing.pick_length _ _ hfcl]

end Verif.EndToEnd
