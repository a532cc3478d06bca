import Verif.EndToEnd.SpecAgain
import Verif.EndToEnd.PartLemmas
import Verif.EndToEnd.ColumnLemmas
import Verif.EndToEnd.OrderLemmas
import Verif.Preprocessing.PropsAbsent
/-!
# Lemmas about builds on the features that were selected
-/
set_option autoImplicit false
set_option linter.unusedSectionVars false

namespace Verif.Preprocessing

variable {V L I S : Type}

/-- With no missing value, preprocessing selects features and algorithms and does nothing else. -/
theorem run_full [DecidableEq L] {nan : V → Bool} {d : Data V L I S} {algo : List L} {feats algos : Option (List L)}
    (hd : d.Fits) (ha : algo.length = d.y.ncols) (hx : d.x.Full nan) (hy : d.y.Full nan)
    {o : Output V L I S} (h : run nan d algo feats algos = .ok o) :
    ∃ x feat y al, select d.x d.feat feats = .ok (x, feat) ∧ select d.y algo algos = .ok (y, al) ∧
      o = ⟨{ d with x := x, y := y, feat := feat }, al⟩ ∧ o.data.Fits := by
  unfold run at h
  cases e1 : select d.x d.feat feats with
  | error e => rw [e1] at h; cases h
  | ok r =>
    obtain ⟨x, feat⟩ := r
    cases e2 : select d.y algo algos with
    | error e => rw [e1, e2] at h; cases h
    | ok r =>
      obtain ⟨y, al⟩ := r
      rw [e1, e2] at h
      dsimp only at h
      obtain ⟨hx1, hx2, hx3⟩ := select_fits hd.rectX hd.feat e1
      obtain ⟨hy1, hy2, hy3⟩ := select_fits hd.rectY ha e2
      have hd' : ({ d with x := x, y := y, feat := feat } : Data V L I S).Fits :=
        { rectX := hx1, rectY := hy1, feat := hx2, y := by rw [hy3, hx3, hd.y]
          inst := by rw [hd.inst, hx3], s := fun s hs => by rw [hd.s s hs, hx3] }
      cases g : removeMissing nan { d with x := x, y := y, feat := feat } with
      | error e => rw [g] at h; cases h
      | ok r =>
        have gr := removeMissing_full hd' (select_full hx e1) (select_full hy e2) g
        rw [g] at h
        cases h
        subst gr
        exact ⟨x, feat, y, al, rfl, rfl, rfl, hd'⟩

/-- Asking for names that were chosen chooses exactly their columns. -/
theorem again_cols {labels : List String} (hnd : labels.Nodup) {wanted : Option (List String)} {n : Nat}
    (hl : labels.length = n) {cols cols' sv : List Nat} (hc : Lists cols n (Chosen labels wanted))
    (hsv : sv.Pairwise (· < ·)) (hlt : ∀ i ∈ sv, i < cols.length) (hne : sv ≠ [])
    (hc' : Lists cols' n (Chosen labels (some (pick (pick labels cols) sv)))) : cols' = pick cols sv := by
  have hcl : ∀ i ∈ cols, i < labels.length := fun i hi => by rw [hl]; exact ((hc.exact i).1 hi).1
  have hpl : ∀ i ∈ pick cols sv, i < labels.length := fun i hi => hcl i (pick_sub hi)
  have hmem : ∀ a, a ∈ pick (pick labels cols) sv ↔ ∃ j ∈ pick cols sv, labels[j]? = some a := by
    intro a
    rw [pick_pick labels cols sv hcl hlt]
    unfold pick
    rw [List.mem_filterMap]
  have hlen : (pick cols sv).length = sv.length := pick_length _ _ hlt
  refine hc'.unique ⟨pick_increasing hc.increasing hsv hlt, fun j => ⟨fun hj => ?_, ?_⟩⟩
  · have hjl := hpl j hj
    refine ⟨by omega, ?_⟩
    rintro _ ⟨⟩ -
    exact ⟨labels[j], (hmem _).2 ⟨j, hj, List.getElem?_eq_getElem hjl⟩, List.getElem?_eq_getElem hjl⟩
  · rintro ⟨hj, hch⟩
    obtain ⟨j0, hj0⟩ : ∃ j0, j0 ∈ pick cols sv := by
      refine List.exists_mem_of_ne_nil _ fun h0 => hne ?_
      rw [h0] at hlen
      exact List.length_eq_zero_iff.1 hlen.symm
    have hj0l := hpl j0 hj0
    obtain ⟨a, ha, hja⟩ := hch _ rfl ⟨labels[j0], List.getElem_mem _,
      (hmem _).2 ⟨j0, hj0, List.getElem?_eq_getElem hj0l⟩⟩
    obtain ⟨i, hi, hia⟩ := (hmem a).1 ha
    have h1 := hpl i hi
    have h2 : j < labels.length := by omega
    rw [List.getElem?_eq_getElem h1] at hia
    rw [List.getElem?_eq_getElem h2] at hja
    have : i = j := (List.Nodup.getElem_inj_iff hnd).1 (Option.some.inj (hia.trans hja.symm))
    exact this ▸ hi

end Verif.Preprocessing

namespace Verif.EndToEnd

open Verif (Num)
open Verif.Pipeline (Stg Name inputs outputs)
open Verif.Metadata (Meta)
open Verif.Preprocessing (pick Data Mat Lists)
open Verif.Runner (Dict override applyAll applyStage RunError Pipeline)

theorem columns_part {n : Nat} {m : List (List Num)} {τ : List Nat} (hlt : ∀ i ∈ τ, i < n)
    (hr : ∀ r ∈ m, r.length = n) :
    Prelim.columns τ.length (m.map (pick · τ)) = pick (Prelim.columns n m) τ := by
  apply List.ext_getElem?
  intro j
  have hc : (Prelim.columns n m).length = n := by simp [Prelim.columns]
  rw [Preprocessing.pick_getElem? _ _ (by rw [hc]; exact hlt)]
  unfold Prelim.columns
  by_cases hj : j < τ.length
  · have hq := hlt _ (List.getElem_mem hj)
    simp only [List.getElem?_map, List.getElem?_range hj, List.getElem?_eq_getElem hj, Option.map_some,
      Option.bind_some, List.getElem?_range hq, Option.some.injEq, List.map_map]
    apply List.map_congr_left
    intro r hrm
    simp only [Function.comp, List.getD_eq_getElem?_getD]
    rw [at_pick (by rw [hr r hrm]; exact hlt) (List.getElem?_eq_getElem hj)]
  · rw [List.getElem?_eq_none (by simpa using hj), List.getElem?_eq_none (l := τ) (by omega)]
    rfl

/-- The rows that `_filter` keeps do not depend on the features. -/
theorem filter_features {X Y B N T P L S : Type} {o : Prelim.SubsetOpts} (hden : o.byDensity = false)
    {tests : Filter.Tests (X × Y × B)} {n n' : Nat} {split : Option (List Nat)} {file : Option (List Int)}
    {a : Prelim.Arrays X Y B N T P L S} {F : X → X} {raw : List X} {r r'}
    (h : Prelim.filter o tests n split file a = .ok r)
    (h' : Prelim.filter o tests n' split file { a with x := a.x.map F, xRaw := raw } = .ok r') :
    ∃ raw', r'.1 = { r.1 with x := r.1.x.map F, xRaw := raw' } ∧ r.2.isSome = false ∧ r'.2.isSome = false ∧
      ∀ u ∈ r.1.x, u ∈ a.x := by
  have hmask : ∀ (l : List X) (m : List Bool), Prelim.mask (l.map F) m = (Prelim.mask l m).map F := by
    intro l m
    unfold Prelim.mask
    rw [List.zip_map_left, List.filter_map, List.map_map, List.map_map]
    rfl
  have hsub : ∀ (l : List X) (m : List Bool), ∀ u ∈ Prelim.mask l m, u ∈ l := by
    intro l m u hu
    unfold Prelim.mask at hu
    obtain ⟨p, hp, rfl⟩ := List.mem_map.1 hu
    exact (List.of_mem_zip (List.mem_filter.1 hp).1).1
  have hidx : Prelim.subsetIndex o tests n' split file { a with x := a.x.map F, xRaw := raw } =
      Prelim.subsetIndex o tests n split file a := by
    unfold Prelim.subsetIndex
    simp only [hden, List.length_map, List.map_map, Function.comp_def]
    rfl
  unfold Prelim.filter at h h'
  rw [hidx] at h'
  cases e : Prelim.subsetIndex o tests n split file a with
  | error e' => rw [e] at h; cases h
  | ok m =>
    rw [e] at h h'
    dsimp only at h h'
    rw [hden] at h h'
    by_cases hb : (o.fileIndexed || o.fractional || false) = true
    · rw [if_pos hb] at h h'
      cases h
      cases h'
      exact ⟨_, by dsimp only; rw [hmask], rfl, rfl, hsub _ _⟩
    · rw [if_neg hb] at h h'
      cases h
      cases h'
      exact ⟨_, rfl, rfl, rfl, fun _ h => h⟩

variable {V W : Type}

/-- What SIFTED returns, sifted.py:356-386. -/
def chosenOut (env : Env V W) (w cx : Nat) (a : Prelim.Arrays (List Num) (List Num) (List Bool) Nat Num Nat V V)
    (inst : List V) (cy : Nat) (c : Option Sifted.Performance) (q : Sifted.Out (List Num)) : List (Name × Val V W) :=
  [(.x, .table ⟨q.x.length, rowsOf a.x.length q.x⟩), (.y, .table ⟨w, a.y⟩), (.y_bin, .verdicts a.yBin),
    (.x_raw, .table ⟨cx, a.xRaw⟩), (.y_raw, .table ⟨cy, a.yRaw⟩), (.beta, .flags a.beta),
    (.num_good_algos, .counts a.numGood), (.y_best, .numbers a.yBest), (.p, .counts a.p),
    (.inst_labels, .labels inst), (.s, .sources a.s), (.feat_labels, .names q.featLabels),
    (.selvars, .counts q.selvars), (.idx, .counts q.idx)] ++ grounds env w c q

/-- The first three stages of a run that returns a dictionary. -/
theorem front {num : V → Num} {env : Env V W} {m : Meta V} {l : List V} {s : Option (List V)} (hm : Fitting l s m)
    {sched : List (List Stg)} {rest : List Stg} {k : Nat} {d : Dict Name (Val V W)}
    (h : applyAll ⟨sched, fun s => (inputs s).map Prod.fst, run env⟩ k
      (.preprocessing :: .prelim :: .sifted :: rest) (args env num m) = .ok d) :
    ∃ o outs ys a dense c q,
      Preprocessing.run Num.isNan (received num l s m) m.algorithmNames env.feats env.algos = .ok o ∧
      Prelim.rows env.prelim o.data.y.rows = some outs ∧
      Prelim.outY env.prelim env.tr o.data.y.ncols o.data.y.rows = some ys ∧
      Prelim.filter env.subset env.tests o.data.x.ncols env.split env.file
        (arrays env o.data.x o.data.y o.data.x o.data.y o.data.s o.data.inst outs ys) = .ok (a, dense) ∧
      correlations env ⟨o.data.x.ncols, a.x⟩ ⟨o.data.y.ncols, a.y⟩ a.yBin = .ok c ∧
      Sifted.sifted (env.lib ⟨o.data.x.ncols, a.x⟩ ⟨o.data.y.ncols, a.y⟩ a.yBin) ((c.map (·.rho)).getD []) env.thr
        env.clusters o.data.y.ncols (Prelim.columns o.data.x.ncols a.x) o.data.feat
        (env.subset.byDensity && dense.isSome) = .ok q ∧
      applyAll ⟨sched, fun s => (inputs s).map Prod.fst, run env⟩ (k + 1 + 1 + 1) rest
        (override (override (override (args env num m)
          [(.inst_labels, .labels o.data.inst), (.feat_labels, .names o.data.feat), (.algo_labels, .names o.algo),
            (.x, .table o.data.x), (.y, .table o.data.y), (.s, .sources o.data.s), (.x_raw, .table o.data.x),
            (.y_raw, .table o.data.y)])
          (prelimOut env o.data.x o.data.y o.data.x o.data.y a dense.isSome))
          (chosenOut env o.data.y.ncols o.data.x.ncols a o.data.inst o.data.y.ncols c q)) = .ok d := by
  have step : ∀ {k : Nat} {s : Stg} {ss : List Stg} {d0 : Dict Name (Val V W)},
      applyAll ⟨sched, fun s => (inputs s).map Prod.fst, run env⟩ k (s :: ss) d0 = .ok d →
      ∃ vs out, ((inputs s).map Prod.fst).map d0 = vs.map some ∧ run env k s vs = .ok out ∧
        applyAll ⟨sched, fun s => (inputs s).map Prod.fst, run env⟩ (k + 1) ss (override d0 out) = .ok d := by
    intro k s ss d0 h
    unfold applyAll at h
    cases e : applyStage ⟨sched, fun s => (inputs s).map Prod.fst, run env⟩ k s d0 with
    | error e' => rw [e] at h; cases h
    | ok y =>
      rw [e] at h
      obtain ⟨g1, out, g2, rfl⟩ := Runner.applyStage_ok e
      exact ⟨_, out, filterMap_some g1 rfl, g2, h⟩
  obtain ⟨vs1, out1, i1, r1, h⟩ := step h
  obtain ⟨vs2, out2, i2, r2, h⟩ := step h
  obtain ⟨vs3, out3, i3, r3, h⟩ := step h
  obtain ⟨z1, rfl⟩ := args_inputs hm.labels hm.sources i1
  unfold run at r1
  dsimp only at r1
  rw [runPreprocessing_received] at r1
  cases hrun : Preprocessing.run Num.isNan (received num l s m) m.algorithmNames env.feats env.algos with
  | error e => rw [hrun] at r1; cases r1
  | ok o =>
  rw [hrun] at r1
  dsimp only at r1
  obtain rfl := Except.ok.inj r1
  obtain ⟨x, y, xRaw, yRaw, s', inst, _, _, outs, ys, a, dense, rfl, g1, g2, g3, rfl⟩ := prelim_ok r2
  have j2 : [some (Val.table o.data.x), some (.table o.data.y), some (.table o.data.x), some (.table o.data.y),
      some (.sources o.data.s), some (.labels o.data.inst), some (.other (env.fill .prelim_options)),
      some (.other (env.fill .selvars_options))] = _ := i2
  simp only [List.map_cons, List.map_nil, List.cons.injEq, Option.some.injEq, Val.table.injEq, Val.sources.injEq,
    Val.labels.injEq, and_true] at j2
  obtain ⟨rfl, rfl, rfl, rfl, rfl, rfl, rfl, rfl⟩ := j2
  obtain ⟨x, y, yb, xRaw, yRaw, beta, ng, best, p, inst, feat, s', z, z', b, z'', c, q, rfl, f1, f2, rfl⟩ :=
    sifted_ok r3
  have j3 : [some (Val.table ⟨o.data.x.ncols, a.x⟩), some (.table ⟨o.data.y.ncols, a.y⟩), some (.verdicts a.yBin),
      some (.table ⟨o.data.x.ncols, a.xRaw⟩), some (.table ⟨o.data.y.ncols, a.yRaw⟩), some (.flags a.beta),
      some (.counts a.numGood), some (.numbers a.yBest), some (.counts a.p), some (.labels o.data.inst),
      some (.names o.data.feat), some (.sources a.s), some (.other (env.fill .sifted_options)),
      some (.other (env.fill .selvars_options)), some (.dense dense.isSome),
      some (.other (env.fill .parallel_options))] = _ := i3
  simp only [List.map_cons, List.map_nil, List.cons.injEq, Option.some.injEq, Val.table.injEq, Val.names.injEq,
    Val.verdicts.injEq, Val.dense.injEq, and_true] at j3
  obtain ⟨rfl, rfl, rfl, rfl, rfl, rfl, rfl, rfl, rfl, rfl, rfl, rfl, rfl, rfl, rfl, rfl⟩ := j3
  exact ⟨o, outs, ys, a, dense, c, q, rfl, g1, g2, g3, f1, f2, h⟩

/-- The late stages leave the names that they do not return alone. -/
theorem rest_keeps {env : Env V W}
    (htup : ∀ k s vs out, env.rest k s vs = .ok out → out.map Prod.fst = (outputs s).map Prod.fst)
    {sched : List (List Stg)} {n : Name} : ∀ {rest : List Stg} {k : Nat} {d0 d : Dict Name (Val V W)},
    (∀ s ∈ rest, (s = Stg.pilot ∨ s = .pythia ∨ s = .cloister ∨ s = .trace) ∧ n ∉ (outputs s).map Prod.fst) →
    applyAll ⟨sched, fun s => (inputs s).map Prod.fst, run env⟩ k rest d0 = .ok d → d n = d0 n := by
  intro rest
  induction rest with
  | nil => intro k d0 d _ h; cases h; rfl
  | cons s ss ih =>
    intro k d0 d hs h
    unfold applyAll at h
    cases e : applyStage ⟨sched, fun s => (inputs s).map Prod.fst, run env⟩ k s d0 with
    | error e' => rw [e] at h; cases h
    | ok y =>
      rw [e] at h
      obtain ⟨-, out, g2, rfl⟩ := Runner.applyStage_ok e
      rw [ih (fun t ht => hs t (List.mem_cons_of_mem _ ht)) h]
      obtain ⟨h1, h2⟩ := hs s List.mem_cons_self
      apply Runner.override_of_not_mem
      have : env.rest k s (((inputs s).map Prod.fst).filterMap d0) = .ok out := by
        rcases h1 with rfl | rfl | rfl | rfl <;> exact g2
      rw [htup _ _ _ _ this]
      exact h2

/-- What SIFTED returns when it keeps all features. -/
theorem sifted_keeps_all {lib : Sifted.Lib} {rho : List (List Num)} {thr : Num} {k nalgos : Nat}
    {x : List (List Num)} {feat : List String} {dense : Bool} {q : Sifted.Out (List Num)}
    (hl : feat.length = x.length)
    (h : Sifted.sifted lib rho thr k nalgos x feat dense = .ok q)
    (hall : x.length ≤ 3 ∨ q.featLabels.length = feat.length) : q.x = x ∧ q.featLabels = feat := by
  have al := Sifted.C69_aligned hl h
  obtain ⟨h1, h2⟩ := sifted_pick hl h
  have hs : q.selvars = List.range x.length := by
    rcases hall with h3 | h3
    · unfold Sifted.sifted at h
      dsimp only at h
      by_cases h0 : x.length ≤ 1
      · rw [if_pos h0] at h; cases h
      · rw [if_neg h0, if_pos h3] at h
        cases h
        rfl
    · rw [al.names, hl] at h3
      have hsub : q.selvars ⊆ List.range x.length := fun i hi => List.mem_range.2 (al.inRange i hi)
      have hn : q.selvars.Nodup := al.increasing.imp fun h => Nat.ne_of_lt h
      have hp : q.selvars.Perm (List.range x.length) :=
        (hn.subperm hsub).perm_of_length_le (by simp [h3])
      exact List.Perm.eq_of_pairwise (le := (· < ·)) (fun a b _ _ h1 h2 => by omega) al.increasing
        List.pairwise_lt_range hp
  constructor
  · rw [h1]; exact Preprocessing.pick_all _ _ hs
  · rw [h2]; exact Preprocessing.pick_all _ _ (by rw [hs, hl])

theorem dict_mono {ns ns' : List Name} (hn : ∀ n ∈ ns, n ∈ ns') {d d' : Dict Name (Val V W)} {n : Name}
    (h : Option.Rel (Outside ns n) (d n) (d' n)) : Option.Rel (Outside ns' n) (d n) (d' n) := by
  revert h
  generalize d n = u
  generalize d' n = u'
  rintro (h | _)
  · exact .some fun hne => h fun h => hne (hn _ h)
  · exact .none

theorem dict_free {ns ns' : List Name} {n : Name} (hn : n ∈ ns → n ∈ ns') {d d' : Dict Name (Val V W)}
    (h : Option.Rel (Outside ns n) (d n) (d' n)) : Option.Rel (Outside ns' n) (d n) (d' n) := by
  revert h
  generalize d n = u
  generalize d' n = u'
  rintro (h | _)
  · exact .some fun hne => h fun h => hne (hn h)
  · exact .none

/-- Two builds, the second on the features that the first selected. -/
theorem run_again {num : V → Num} {env : Env V W} {m : Meta V} {l : List V} {s : Option (List V)}
    (hm : Fitting l s m) (hv : NothingMissing num m) (hnd : m.featureNames.Nodup)
    (hden : env.subset.byDensity = false)
    (htup : ∀ k s vs out, env.rest k s vs = .ok out → out.map Prod.fst = (outputs s).map Prod.fst)
    {sched : List (List Stg)} {rest : List Stg}
    (hrest : ∀ s ∈ rest, s = Stg.pilot ∨ s = .pythia ∨ s = .cloister ∨ s = .trace) {k : Nat}
    {sel sel' : List String} {d d' : Dict Name (Val V W)}
    (h : applyAll ⟨sched, fun s => (inputs s).map Prod.fst, run env⟩ k
      (.preprocessing :: .prelim :: .sifted :: rest) (args env num m) = .ok d)
    (hsel : d .feat_labels = some (.names sel)) (hsome : sel ≠ [])
    (h' : applyAll ⟨sched, fun s => (inputs s).map Prod.fst, run (keepingOnly sel env)⟩ k
      (.preprocessing :: .prelim :: .sifted :: rest) (args (keepingOnly sel env) num m) = .ok d')
    (hsel' : d' .feat_labels = some (.names sel')) (hall : sel.length ≤ 3 ∨ sel'.length = sel.length) :
    ∀ n, n ∉ ofAllFeatures → d' n = d n := by
  have hkeep : ∀ s ∈ rest, (s = Stg.pilot ∨ s = .pythia ∨ s = .cloister ∨ s = .trace) ∧
      Name.feat_labels ∉ (outputs s).map Prod.fst := fun s hs => ⟨hrest s hs, by
    rcases hrest s hs with rfl | rfl | rfl | rfl <;> decide⟩
  obtain ⟨o, outs, ys, a, dense, c, q, r1, r2, r3, r4, r5, r6, hlast⟩ := front hm h
  obtain ⟨o', outs', ys', a', dense', c', q', r1', r2', r3', r4', r5', r6', hlast'⟩ := front hm h'
  have hq : q.featLabels = sel := by
    have e1 := rest_keeps htup hkeep hlast
    rw [hsel] at e1
    have e2 : some (Val.names sel) = some (Val.names q.featLabels : Val V W) := e1
    cases e2
    rfl
  have hq' : q'.featLabels = sel' := by
    have e1 := rest_keeps (env := keepingOnly sel env) htup hkeep hlast'
    rw [hsel'] at e1
    have e2 : some (Val.names sel') = some (Val.names q'.featLabels : Val V W) := e1
    cases e2
    rfl
  have hfull : (received num l s m).x.Full Num.isNan ∧ (received num l s m).y.Full Num.isNan := by
    have key : ∀ {t : List (List V)}, (∀ r ∈ t, ∀ v ∈ r, num v ≠ .nan) →
        ∀ r ∈ t.map (·.map num), ∀ v ∈ r, Num.isNan v = false := by
      intro t ht r hr v hv
      obtain ⟨r', hr', rfl⟩ := List.mem_map.1 hr
      obtain ⟨v', hv', rfl⟩ := List.mem_map.1 hv
      have := ht r' hr' v' hv'
      cases h : num v' <;> simp_all [Num.isNan]
    exact ⟨key hv.1, key hv.2⟩
  have hfit := received_fits (num := num) hm
  -- preprocessing
  obtain ⟨x, feat, y, al, e1, e2, rfl, fo⟩ := Preprocessing.run_full hfit rfl hfull.1 hfull.2 r1
  obtain ⟨x', feat', y', al', e1', e2', rfl, fo'⟩ := Preprocessing.run_full hfit rfl hfull.1 hfull.2 r1'
  have e2'' : Preprocessing.select (received num l s m).y m.algorithmNames env.algos = .ok (y', al') := e2'
  rw [e2] at e2''
  cases e2''
  obtain ⟨x1, feat1, cols, p1, p2, p3, p4, p5⟩ := Preprocessing.select_pick (received num l s m).x
    (received num l s m).feat env.feats hfit.rectX hfit.feat hnd
  rw [e1] at p1
  cases p1
  obtain ⟨x1', feat1', cols', p1', p2', p3', p4', p5'⟩ := Preprocessing.select_pick (received num l s m).x
    (received num l s m).feat (keepingOnly sel env).feats hfit.rectX hfit.feat hnd
  rw [e1'] at p1'
  cases p1'
  dsimp only at r2 r3 r4 r5 r6 r2' r3' r4' r5' r6' hlast hlast' fo fo'
  have ey : Prelim.rows env.prelim y.rows = some outs' := r2'
  rw [r2] at ey
  cases ey
  have ey : Prelim.outY env.prelim env.tr y.ncols y.rows = some ys' := r3'
  rw [r3] at ey
  cases ey
  -- the columns
  have hlf : feat.length = (Prelim.columns x.ncols a.x).length := by
    simp only [Prelim.columns, List.length_map, List.length_range]
    exact fo.feat
  have hali := Sifted.C69_aligned hlf r6
  obtain ⟨s1, s2⟩ := sifted_pick hlf r6
  rw [hq] at s2
  have hxc : (Prelim.columns x.ncols a.x).length = x.ncols := by simp [Prelim.columns]
  have hsv : ∀ i ∈ q.selvars, i < cols.length := fun i hi => by
    have := hali.inRange i hi
    rwa [hxc, p3] at this
  have hcl : ∀ i ∈ cols, i < (received num l s m).feat.length := fun i hi => by
    rw [hfit.feat]; exact ((p2.exact i).1 hi).1
  have hlen : sel.length = q.selvars.length := by rw [← hq]; exact hali.names
  have hne : q.selvars ≠ [] := by
    intro h0
    rw [h0] at hlen
    exact hsome (List.length_eq_zero_iff.1 hlen)
  have hask : Lists cols' (received num l s m).x.ncols (Preprocessing.Chosen (received num l s m).feat
      (some (pick (pick (received num l s m).feat cols) q.selvars))) := by
    rw [← p5, ← s2]
    exact p2'
  have hcols : cols' = pick cols q.selvars :=
    Preprocessing.again_cols hnd hfit.feat p2 hali.increasing hsv hne hask
  have hcols'len : cols'.length = q.selvars.length := by rw [hcols, Preprocessing.pick_length _ _ hsv]
  have hfeat' : feat' = sel := by
    rw [p5', hcols, ← Preprocessing.pick_pick _ _ _ hcl hsv, ← p5, s2]
  have hrows' : x'.rows = x.rows.map (pick · q.selvars) := by
    rw [p4', p4, List.map_map]
    apply List.map_congr_left
    intro r hr
    rw [Function.comp, hcols, Preprocessing.pick_pick _ _ _ _ hsv]
    intro i hi
    rw [hfit.rectX r hr]
    exact ((p2.exact i).1 hi).1
  have hncols' : x'.ncols = q.selvars.length := by rw [p3', hcols'len]
  -- PRELIM
  have hcol : Prelim.columns x'.ncols x'.rows = pick (Prelim.columns x.ncols x.rows) q.selvars := by
    rw [hncols', hrows']
    exact columns_part (fun i hi => by rw [p3]; exact hsv i hi) fo.rectX
  have harr : arrays (keepingOnly sel env) x' y x' y (received num l s m).s (received num l s m).inst outs ys =
      { arrays env x y x y (received num l s m).s (received num l s m).inst outs ys with
        x := (arrays env x y x y (received num l s m).s (received num l s m).inst outs ys).x.map (pick · q.selvars)
        xRaw := x'.rows } := by
    unfold arrays
    dsimp only [keepingOnly]
    rw [hcol, outX_sub, rowsOf_sub, hrows', List.length_map]
  have r4'' := r4'
  rw [harr] at r4''
  obtain ⟨raw, f1, f2, f3, f4⟩ := filter_features hden r4 r4''
  dsimp only at f1 f2 f3 f4
  subst f1
  -- SIFTED
  have hax : ∀ r ∈ a.x, r.length = x.ncols := by
    intro r hr
    obtain ⟨i, -, rfl⟩ := List.mem_map.1 (f4 r hr)
    rw [List.length_map]
    unfold Prelim.outX
    cases env.prelim.bound <;> cases env.prelim.norm <;> simp [Prelim.columns]
  have hcol' : Prelim.columns x'.ncols (a.x.map (pick · q.selvars)) = q.x := by
    rw [s1, hncols']
    exact columns_part (fun i hi => by rw [p3]; exact hsv i hi) hax
  have hlf' : feat'.length = (Prelim.columns x'.ncols (a.x.map (pick · q.selvars))).length := by
    simp only [Prelim.columns, List.length_map, List.length_range]
    exact fo'.feat
  obtain ⟨t1, t2⟩ := sifted_keeps_all hlf' r6' (by
    rw [← hlf', hfeat', hq']; exact hall)
  rw [hcol'] at t1
  rw [hfeat'] at t2
  -- the dictionaries
  have start : DictRel (Outside [Name.x, .x_raw, .feat_labels])
      (override (args env num m)
          [(.inst_labels, .labels (received num l s m).inst), (.feat_labels, .names feat), (.algo_labels, .names al),
            (.x, .table x), (.y, .table y), (.s, .sources (received num l s m).s), (.x_raw, .table x),
            (.y_raw, .table y)])
      (override (args (keepingOnly sel env) num m)
          [(.inst_labels, .labels (received num l s m).inst), (.feat_labels, .names feat'), (.algo_labels, .names al),
            (.x, .table x'), (.y, .table y), (.s, .sources (received num l s m).s), (.x_raw, .table x'),
            (.y_raw, .table y)]) :=
    override_rel (outside_cons rfl (outside_free (by decide) (outside_cons rfl (outside_free (by decide)
      (outside_cons rfl (outside_cons rfl (outside_free (by decide) (outside_cons rfl .nil))))))))
      fun n _ => dict_refl _ _ n
  have second : DictRel (Outside (Name.x :: .feat_labels :: ofAllFeatures)) _ _ :=
    override_rel (out := prelimOut env x y x y a dense.isSome)
      (out' := prelimOut (keepingOnly sel env) x' y x' y
        { a with x := a.x.map (pick · q.selvars), xRaw := raw } dense'.isSome) (by
      unfold prelimOut
      dsimp only [keepingOnly]
      rw [f2, f3]
      refine List.rel_append ?_ ?_
      · unfold recorded
        dsimp only
        exact outside_free (by decide) (outside_free (by decide) (outside_free (by decide) (outside_free (by decide)
          (outside_free (by decide) (outside_free (by decide) (outside_free (by decide) (outside_free (by decide)
          (outside_refl _ _))))))))
      · exact outside_free (by decide) (outside_cons rfl (outside_free (by decide) (outside_refl _ _))))
      fun n _ => dict_free (ns := [Name.x, .x_raw, .feat_labels]) (fun h => by revert h; cases n <;> decide) (start n)
  have third : DictRel (Outside ofAllFeatures) _ _ :=
    override_rel (out := chosenOut env y.ncols x.ncols a (received num l s m).inst y.ncols c q)
      (out' := chosenOut (keepingOnly sel env) y.ncols x'.ncols
        { a with x := a.x.map (pick · q.selvars), xRaw := raw } (received num l s m).inst y.ncols c' q') (by
      unfold chosenOut
      refine List.rel_append ?_ ?_
      · rw [t1, t2, hq, List.length_map]
        exact outside_cons rfl (outside_cons rfl (outside_cons rfl (outside_free (by decide) (outside_cons rfl
          (outside_cons rfl (outside_cons rfl (outside_cons rfl (outside_cons rfl (outside_cons rfl (outside_cons rfl
          (outside_cons rfl (outside_free (by decide) (outside_free (by decide) .nil)))))))))))))
      · exact outside_free (by decide) (outside_free (by decide) (outside_free (by decide) (outside_free (by decide)
          .nil))))
      fun n hn => dict_free (ns := Name.x :: .feat_labels :: ofAllFeatures)
        (fun h => by revert h hn; cases n <;> simp [chosenOut, grounds, ofAllFeatures]) (second n)
  have hfin := all_outside (ns := ofAllFeatures) (env := env) (env' := keepingOnly sel env) sched rest
    (fun t ht k ps hps out out' r r' => stage_outside hps r r' (.inl (by
      rcases hrest t ht with rfl | rfl | rfl | rfl <;> exact ⟨rfl, by decide⟩))) (k + 1 + 1 + 1) third
  rw [hlast, hlast'] at hfin
  intro n hn
  have := hfin n
  revert this
  generalize d n = u
  generalize d' n = u'
  rintro (hv | _)
  · rw [hv hn]
  · rfl

end Verif.EndToEnd
