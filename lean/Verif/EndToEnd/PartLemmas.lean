import Verif.EndToEnd.SpecPart
import Verif.EndToEnd.AbsentLemmas
import Verif.EndToEnd.ThresholdLemmas
import Verif.EndToEnd.InfluenceLemmas
import Verif.EndToEnd.SampleLemmas
/-!
# Lemmas about builds on part of the instances
-/
set_option autoImplicit false
set_option linter.unusedSectionVars false

namespace Verif.Preprocessing

variable {V L I S : Type}

theorem pick_sub {α : Type} {l : List α} {is : List Nat} {a : α} (h : a ∈ pick l is) : a ∈ l := by
  obtain ⟨i, -, hi⟩ := List.mem_filterMap.1 h
  exact List.mem_of_getElem? hi

/-- No value of the matrix is missing. -/
def Mat.Full (nan : V → Bool) (x : Mat V) : Prop := ∀ r ∈ x.rows, ∀ v ∈ r, nan v = false

theorem select_full [DecidableEq L] {nan : V → Bool} {x x' : Mat V} {labels labels' : List L}
    {wanted : Option (List L)} (hx : x.Full nan) (h : select x labels wanted = .ok (x', labels')) : x'.Full nan := by
  cases wanted with
  | none => cases h; exact hx
  | some w =>
    unfold select at h
    dsimp only at h
    split at h
    · cases h; exact hx
    · split at h
      · cases h
        intro r hr v hv
        obtain ⟨r', hr', rfl⟩ := List.mem_map.1 hr
        obtain ⟨i, -, hi⟩ := List.mem_filterMap.1 hv
        exact hx r' hr' v (List.mem_of_getElem? hi)
      · cases h

theorem removeMissing_full {nan : V → Bool} {d d' : Data V L I S} (hd : d.Fits) (hx : d.x.Full nan)
    (hy : d.y.Full nan) (h : removeMissing nan d = .ok d') : d' = d := by
  have hcols : ∀ e : Data V L I S, (removeCols nan e).x.rows.length = e.x.rows.length := by
    intro e
    unfold removeCols
    dsimp only
    split
    · simp
    · rfl
  have hne : (removeRows nan d).x.rows.length ≠ 0 := by
    intro h0
    unfold removeMissing at h
    dsimp only at h
    rw [hcols, if_pos h0] at h
    cases h
  have hrow : ∀ (x : Mat V), x.Rect → x.Full nan → x.ncols ≠ 0 → ∀ r ∈ x.rows, r.all nan = false := by
    intro x hr hf hn r hm
    have := hr r hm
    cases r with
    | nil => exact absurd this.symm hn
    | cons v r => simp [hf _ hm v List.mem_cons_self]
  have hzero : ∀ (x : Mat V), x.Rect → x.ncols = 0 → ∀ r ∈ x.rows, r = [] := by
    intro x hr hn r hm
    exact List.length_eq_zero_iff.1 ((hr r hm).trans hn)
  have hany : (emptyRows nan d.x d.y).any id = false := by
    by_contra hc
    have hall : ∀ b ∈ emptyRows nan d.x d.y, b = true := by
      by_cases h1 : d.x.ncols = 0
      · intro b hb
        obtain ⟨i, hi, rfl⟩ := List.getElem_of_mem hb
        simp only [emptyRows, List.getElem_zipWith, hzero _ hd.rectX h1 _ (List.getElem_mem _)]
        rfl
      · by_cases h2 : d.y.ncols = 0
        · intro b hb
          obtain ⟨i, hi, rfl⟩ := List.getElem_of_mem hb
          simp only [emptyRows, List.getElem_zipWith, hzero _ hd.rectY h2 _ (List.getElem_mem _)]
          simp
        · exfalso
          apply hc
          rw [List.any_eq_false]
          intro b hb
          obtain ⟨i, hi, rfl⟩ := List.getElem_of_mem hb
          simp only [emptyRows, List.getElem_zipWith, hrow _ hd.rectX hx h1 _ (List.getElem_mem _),
            hrow _ hd.rectY hy h2 _ (List.getElem_mem _)]
          decide
    apply hne
    have hc' : (emptyRows nan d.x d.y).any id = true := by simpa using hc
    unfold removeRows
    dsimp only
    rw [if_pos hc']
    dsimp only
    rw [List.length_eq_zero_iff]
    unfold mask
    rw [List.map_eq_nil_iff, List.filter_eq_nil_iff]
    rintro ⟨r, b⟩ hp
    simp [hall b (List.of_mem_zip hp).2]
  have e1 : removeRows nan d = d := by
    unfold removeRows
    simp [hany]
  rw [e1] at hne
  have e2 : removeCols nan d = d := by
    have : (sparseCols nan d.x).any id = false := by
      rw [List.any_eq_false]
      intro b hb
      obtain ⟨j, hj, rfl⟩ := List.mem_map.1 hb
      have : missing nan d.x j = 0 := by
        unfold missing
        rw [List.countP_eq_zero]
        intro v hv
        obtain ⟨r, hr1, hr2⟩ := List.mem_filterMap.1 hv
        simp [hx r hr1 v (List.mem_of_getElem? hr2)]
      rw [this]
      simp
    unfold removeCols
    simp [this]
  unfold removeMissing at h
  dsimp only at h
  rw [e1, e2, if_neg hne] at h
  cases h
  rfl

/-- With no missing value, part of the instances gives part of the output. -/
theorem run_part [DecidableEq L] {nan : V → Bool} {d : Data V L I S} {algo : List L} {feats algos : Option (List L)}
    (hd : d.Fits) (ha : algo.length = d.y.ncols) (hx : d.x.Full nan) (hy : d.y.Full nan) {σ : List Nat}
    (hσ : ∀ i ∈ σ, i < d.x.rows.length) {o o' : Output V L I S} (h : run nan d algo feats algos = .ok o)
    (h' : run nan (d.inOrder σ) algo feats algos = .ok o') :
    o'.data = o.data.inOrder σ ∧ o'.algo = o.algo ∧ o.data.Fits ∧ o.data.x.rows.length = d.x.rows.length := by
  unfold run at h h'
  dsimp only [Data.inOrder] at h'
  rw [select_order, select_order] at h'
  cases e1 : select d.x d.feat feats with
  | error e => rw [e1] at h; cases h
  | ok r =>
    obtain ⟨x, feat⟩ := r
    cases e2 : select d.y algo algos with
    | error e => rw [e1, e2] at h; cases h
    | ok r =>
      obtain ⟨y, al⟩ := r
      rw [e1, e2] at h h'
      dsimp only at h h'
      obtain ⟨hx1, hx2, hx3⟩ := select_fits hd.rectX hd.feat e1
      obtain ⟨hy1, hy2, hy3⟩ := select_fits hd.rectY ha e2
      have hd' : ({ d with x := x, y := y, feat := feat } : Data V L I S).Fits :=
        { rectX := hx1, rectY := hy1, feat := hx2, y := by rw [hy3, hx3, hd.y]
          inst := by rw [hd.inst, hx3], s := fun s hs => by rw [hd.s s hs, hx3] }
      have f1 := select_full hx e1
      have f2 := select_full hy e2
      cases g : removeMissing nan { d with x := x, y := y, feat := feat } with
      | error e => rw [g] at h; cases h
      | ok r =>
        have gr := removeMissing_full hd' f1 f2 g
        rw [g] at h
        cases h
        have hd'' := inOrder_fits' hd' (σ := σ) (by dsimp only; rw [hx3]; exact hσ)
        cases g' : removeMissing nan (({ d with x := x, y := y, feat := feat } : Data V L I S).inOrder σ) with
        | error e =>
          dsimp only [Data.inOrder] at g'
          rw [g'] at h'
          cases h'
        | ok r' =>
          have gr' := removeMissing_full hd'' (fun r hr => f1 r (pick_sub hr)) (fun r hr => f2 r (pick_sub hr)) g'
          dsimp only [Data.inOrder] at g'
          rw [g'] at h'
          cases h'
          subst gr gr'
          exact ⟨rfl, rfl, hd', hx3⟩

end Verif.Preprocessing

namespace Verif.EndToEnd

open Verif (Num)
open Verif.Pipeline (Stg Name inputs outputs)
open Verif.Metadata (Meta)
open Verif.Preprocessing (pick Data Mat)
open Verif.Runner (Dict override applyAll applyStage RunError Pipeline)

section rel

variable {S N X E : Type} [DecidableEq N]

/-- A stage of two pipelines on related dictionaries. -/
theorem each_rel {R R' : N → X → X → Prop} {P P' : Pipeline S N X E} (hf : P'.fields = P.fields) {k : Nat} {s : S}
    {d d' : Dict N X} (hd : DictRel R d d')
    (hrun : ∀ ps : List (X × X), List.Forall₂ (fun n p => R n p.1 p.2) (P.fields s) ps →
      ∀ out out', P.run k s (ps.map Prod.fst) = .ok out → P'.run k s (ps.map Prod.snd) = .ok out' →
        OutRel R' out out' ∧ ∀ n, n ∉ out.map Prod.fst → ∀ v v', R n v v' → R' n v v') :
    Each (DictRel R') (applyStage P k s d) (applyStage P' k s d') := by
  obtain ⟨h1, h2⟩ := inputs_rel (P.fields s) fun n _ => hd n
  unfold applyStage
  rw [hf, ← h1]
  cases e : (P.fields s).find? (fun n => (d n).isNone) with
  | some n => trivial
  | none =>
    obtain ⟨ps, p1, p2, p3⟩ := h2 e
    dsimp only
    rw [p1, p2]
    have h3 := hrun ps p3
    cases r : P.run k s (ps.map Prod.fst) with
    | error e => trivial
    | ok out =>
      cases r' : P'.run k s (ps.map Prod.snd) with
      | error e' => trivial
      | ok out' =>
        obtain ⟨h4, h5⟩ := h3 out out' r r'
        refine override_rel h4 fun n hn => ?_
        have := hd n
        cases e1 : d n with
        | none => rw [e1] at this; cases e2 : d' n <;> rw [e2] at this <;> cases this; exact .none
        | some v =>
          rw [e1] at this
          cases e2 : d' n with
          | none => rw [e2] at this; cases this
          | some v' =>
            rw [e2] at this
            cases this with
            | some h => exact .some (h5 n hn v v' h)

end rel

/-! ### PRELIM -/

theorem rowsOf_columns_map (c : Nat) (m : List (List Num)) :
    rowsOf m.length (Prelim.columns c m) = m.map fun r => (List.range c).map fun j => r.getD j .nan := by
  apply List.ext_getElem
  · simp [rowsOf]
  · intro i h1 h2
    have hi : i < m.length := by simpa [rowsOf] using h1
    simp only [rowsOf, Prelim.columns, List.getElem_map, List.getElem_range, List.map_map]
    apply List.map_congr_left
    intro j _
    simp [Function.comp, List.getD_eq_getElem?_getD, hi]

theorem rows_part {o : Prelim.Opts} {m : List (List Num)} {outs : List Prelim.Row} (h : Prelim.rows o m = some outs)
    (σ : List Nat) : Prelim.rows o (pick m σ) = some (pick outs σ) := by
  rw [Prelim.rows_iff] at h ⊢
  rw [← Preprocessing.pick_map, ← Preprocessing.pick_map, h]

variable {V W : Type}

theorem without_filter {X Y B N T P L S : Type} {tests : Filter.Tests (X × Y × B)} {n : Nat}
    {split : Option (List Nat)} {file : Option (List Int)} {a : Prelim.Arrays X Y B N T P L S} {r}
    (h : Prelim.filter ⟨false, false, false, false, false, false, false, ""⟩ tests n split file a = .ok r) :
    r = (a, none) := by
  unfold Prelim.filter at h
  cases e : Prelim.subsetIndex ⟨false, false, false, false, false, false, false, ""⟩ tests n split file a with
  | error e' => rw [e] at h; cases h
  | ok m =>
    rw [e] at h
    cases h
    rfl

/-- What PRELIM returns for part of the instances is part of what it returns for all, when it neither bounds nor
normalises. -/
theorem prelim_part {env : Env V W} (hbound : env.prelim.bound = false) (hnorm : env.prelim.norm = false)
    (hden : env.subset.byDensity = false) {d : Data Num String V V} (hd : d.Fits) {σ : List Nat}
    (hsub : ∀ (a b : Prelim.Arrays (List Num) (List Num) (List Bool) Nat Num Nat V V) dd, a.Fits d.x.rows.length →
      Prelim.filter env.subset env.tests d.x.ncols env.split env.file a = .ok (b, dd) → Prelim.SamePicks σ a b)
    {z w z' w' : Val V W} {out out' : List (Name × Val V W)}
    (e : runPrelim env [.table d.x, .table d.y, .table d.x, .table d.y, .sources d.s, .labels d.inst, z, w] = .ok out)
    (e' : runPrelim (withoutSubset env) [.table (d.inOrder σ).x, .table (d.inOrder σ).y, .table (d.inOrder σ).x,
      .table (d.inOrder σ).y, .sources (d.inOrder σ).s, .labels (d.inOrder σ).inst, z', w'] = .ok out') :
    OutRel (Outside ofAllInstances) out out' ∧
      out.map Prod.fst = (outputs .prelim).map Prod.fst := by
  obtain ⟨x, y, xRaw, yRaw, s, inst, _, _, outs, ys, a, dense, hvs, g1, g2, g3, rfl⟩ := prelim_ok e
  simp only [List.cons.injEq, Val.table.injEq, Val.sources.injEq, Val.labels.injEq, and_true] at hvs
  obtain ⟨rfl, rfl, rfl, rfl, rfl, rfl, rfl, rfl⟩ := hvs
  obtain ⟨x', y', xRaw', yRaw', s', inst', _, _, outs', ys', a', dense', hvs, k1, k2, k3, rfl⟩ := prelim_ok e'
  simp only [List.cons.injEq, Val.table.injEq, Val.sources.injEq, Val.labels.injEq, and_true] at hvs
  obtain ⟨rfl, rfl, rfl, rfl, rfl, rfl, rfl, rfl⟩ := hvs
  dsimp only [withoutSubset, Data.inOrder] at k1 k2 k3
  have hol := rows_length g1
  have e1 := rows_part g1 σ
  rw [k1] at e1
  have ho : outs' = pick outs σ := Option.some.inj e1
  subst ho
  have hol' := rows_length k1
  -- what the transformations give
  have hy : ys = Prelim.columns d.y.ncols (outs.map Prelim.Row.y) := by
    unfold Prelim.outY at g2
    rw [g1, Option.map_some, Option.some.injEq, hnorm] at g2
    exact g2.symm
  have hy' : ys' = Prelim.columns d.y.ncols ((pick outs σ).map Prelim.Row.y) := by
    unfold Prelim.outY at k2
    rw [k1, Option.map_some, Option.some.injEq, hnorm] at k2
    exact k2.symm
  subst hy hy'
  have hX : ∀ c, Prelim.outX env.prelim env.junk env.tr c = c := by
    intro c
    unfold Prelim.outX
    rw [hnorm, hbound]
    rfl
  have hfit : (arrays env d.x d.y d.x d.y d.s d.inst outs
      (Prelim.columns d.y.ncols (outs.map Prelim.Row.y))).Fits d.x.rows.length := by
    constructor
    · simp [arrays, rowsOf]
    · simp [arrays, rowsOf, hd.y]
    · rfl
    · simp only [arrays, yRawOut_eq, List.length_map, hd.y]
    · simp [arrays, hol, hd.y]
    · simp [arrays, hol, hd.y]
    · simp [arrays, hol, hd.y]
    · simp [arrays, hol, hd.y]
    · simp [arrays, hol, hd.y]
    · exact hd.inst
    · exact hd.s
  have hp := hsub _ _ _ hfit g3
  have hk := without_filter k3
  cases hk
  have hdense : dense.isSome = false := by
    unfold Prelim.filter at g3
    split at g3
    · cases g3
    · rw [hden] at g3
      split at g3 <;> cases g3 <;> rfl
  have hrec : OutRel (Outside ofAllInstances) (recorded env d.x d.y outs)
      (recorded (withoutSubset env) (d.inOrder σ).x (d.inOrder σ).y (pick outs σ)) := by
    unfold recorded
    dsimp only [withoutSubset, Data.inOrder]
    have hl : ∀ l, Prelim.Scale.lambda (Prelim.recordX env.prelim env.junk env.mid env.fit l) = 0 := by
      intro l; unfold Prelim.recordX; rw [hnorm]; rfl
    have hm : ∀ l, Prelim.Scale.mu (Prelim.recordX env.prelim env.junk env.mid env.fit l) = 0 := by
      intro l; unfold Prelim.recordX; rw [hnorm]; rfl
    have hs : ∀ l, Prelim.Scale.sigma (Prelim.recordX env.prelim env.junk env.mid env.fit l) = 0 := by
      intro l; unfold Prelim.recordX; rw [hnorm]; rfl
    have hy : ∀ os, (Prelim.recordY env.prelim env.fit d.y.ncols os).2 = List.replicate d.y.ncols (0, 0, 0) := by
      intro os
      unfold Prelim.recordY
      rw [hnorm]
      simp [Prelim.columns, List.map_map, Function.comp_def]
    simp only [hy, List.map_map, Function.comp_def, hl, hm, hs, Prelim.columns]
    exact outside_free (by decide) (outside_free (by decide) (outside_free (by decide) (outside_free (by decide)
      (outside_free (by decide) (outside_cons rfl (outside_cons rfl (outside_cons rfl (outside_free (by decide)
      (outside_cons rfl (outside_cons rfl (outside_cons rfl .nil)))))))))))
  constructor
  · unfold prelimOut
    dsimp only [withoutSubset, Data.inOrder]
    rw [g1, k1, Option.getD_some, Option.getD_some]
    refine List.rel_append hrec ?_
    rw [hdense]
    refine outside_cons ?_ (outside_cons ?_ (outside_cons ?_ (outside_cons ?_ (outside_cons ?_ (outside_cons ?_
      (outside_cons ?_ (outside_cons ?_ (outside_cons ?_ (outside_free (by decide) (outside_cons rfl
      (outside_cons ?_ .nil)))))))))))
    · rw [hp.x]
      dsimp only [arrays]
      rw [hX, hX, rowsOf_columns_map, rowsOf_columns_map, Preprocessing.pick_map]
    · rw [hp.y]
      dsimp only [arrays]
      have h1 : d.y.rows.length = (outs.map Prelim.Row.y).length := by rw [List.length_map, hol]
      have h2 : (pick d.y.rows σ).length = ((pick outs σ).map Prelim.Row.y).length := by rw [List.length_map, hol']
      rw [h1, h2, rowsOf_columns_map, rowsOf_columns_map, Preprocessing.pick_map, Preprocessing.pick_map]
    · rw [hp.xRaw]
      rfl
    · rw [hp.yRaw]
      dsimp only [arrays]
      rw [yRawOut_eq, yRawOut_eq, Preprocessing.pick_map]
    · rw [hp.yBin]
      exact congrArg _ (Preprocessing.pick_map _ _ _)
    · rw [hp.yBest]
      exact congrArg _ (Preprocessing.pick_map _ _ _)
    · rw [hp.p]
      exact congrArg _ (Preprocessing.pick_map _ _ _)
    · rw [hp.numGood]
      exact congrArg _ (Preprocessing.pick_map _ _ _)
    · rw [hp.beta]
      exact congrArg _ (Preprocessing.pick_map _ _ _)
    · rw [hp.s]
      rfl
  · rfl

/-! ### SIFTED -/

theorem sifted_part {env : Env V W} (hden : env.subset.byDensity = false) {ps : List (Val V W × Val V W)}
    (h : List.Forall₂ (fun n q => Outside ofAllInstances n q.1 q.2) ((inputs .sifted).map Prod.fst) ps)
    {out out' : List (Name × Val V W)} (e : runSifted env (ps.map Prod.fst) = .ok out)
    (e' : runSifted (withoutSubset env) (ps.map Prod.snd) = .ok out') :
    OutRel (Outside ofAllInstances) out out' := by
  obtain ⟨x, y, yb, xRaw, yRaw, beta, ng, best, p, inst, feat, s, z, z', b, z'', c, o, i1, g1, g2, rfl⟩ :=
    sifted_ok e
  obtain ⟨x', y', yb', xRaw', yRaw', beta', ng', best', p', inst', feat', s', w, w', b', w'', c', o'', i2, k1, k2,
    rfl⟩ := sifted_ok e'
  simp only [inputs, List.map_cons, List.map_nil] at h
  cases h with | cons h1 h => cases h with | cons h2 h => cases h with | cons h3 h => cases h with
  | cons h4 h => cases h with | cons h5 h => cases h with | cons h6 h => cases h with
  | cons h7 h => cases h with | cons h8 h => cases h with | cons h9 h => cases h with
  | cons h10 h => cases h with | cons h11 h => cases h with | cons h12 h => cases h with
  | cons h13 h => cases h with | cons h14 h => cases h with | cons h15 h => cases h with
  | cons h16 h => cases h with
  | nil =>
    rename_i q1 q2 q3 q4 q5 q6 q7 q8 q9 q10 q11 q12 q13 q14 q15 q16
    obtain ⟨a1, b1⟩ := q1
    obtain ⟨a2, b2⟩ := q2
    obtain ⟨a3, b3⟩ := q3
    obtain ⟨a4, b4⟩ := q4
    obtain ⟨a5, b5⟩ := q5
    obtain ⟨a6, b6⟩ := q6
    obtain ⟨a7, b7⟩ := q7
    obtain ⟨a8, b8⟩ := q8
    obtain ⟨a9, b9⟩ := q9
    obtain ⟨a10, b10⟩ := q10
    obtain ⟨a11, b11⟩ := q11
    obtain ⟨a12, b12⟩ := q12
    obtain ⟨a13, b13⟩ := q13
    obtain ⟨a14, b14⟩ := q14
    obtain ⟨a15, b15⟩ := q15
    obtain ⟨a16, b16⟩ := q16
    simp only [List.map_cons, List.map_nil, List.cons.injEq, and_true] at i1 i2
    obtain ⟨rfl, rfl, rfl, rfl, rfl, rfl, rfl, rfl, rfl, rfl, rfl, rfl, rfl, rfl, rfl, rfl⟩ := i1
    obtain ⟨rfl, rfl, rfl, rfl, rfl, rfl, rfl, rfl, rfl, rfl, rfl, rfl, rfl, rfl, rfl, rfl⟩ := i2
    cases h1 (by decide)
    cases h2 (by decide)
    cases h3 (by decide)
    cases h4 (by decide)
    cases h5 (by decide)
    cases h6 (by decide)
    cases h7 (by decide)
    cases h8 (by decide)
    cases h9 (by decide)
    cases h11 (by decide)
    cases h12 (by decide)
    have k1' : correlations env x y yb = .ok c' := k1
    rw [g1] at k1'
    cases k1'
    rw [hden, Bool.false_and] at g2
    have k2' : Sifted.sifted (env.lib x y yb) ((c.map (·.rho)).getD []) env.thr env.clusters y.ncols
      (Prelim.columns x.ncols x.rows) feat false = .ok o'' := k2
    rw [g2] at k2'
    cases k2'
    refine List.rel_append ?_ (outside_refl _ _)
    exact outside_cons rfl (outside_cons rfl (outside_cons rfl (outside_cons rfl (outside_cons rfl (outside_cons rfl
      (outside_cons rfl (outside_cons rfl (outside_cons rfl (outside_free (by decide) (outside_refl _ _))))))))))

/-! ### Preprocessing and the run -/

/-- How the values after preprocessing are related: those of all instances and those of part of them. -/
def PartRel (d : Data Num String V V) (σ : List Nat) (n : Name) (v v' : Val V W) : Prop :=
  match n with
  | .x | .x_raw => v = .table d.x ∧ v' = .table (d.inOrder σ).x
  | .y | .y_raw => v = .table d.y ∧ v' = .table (d.inOrder σ).y
  | .s => v = .sources d.s ∧ v' = .sources (d.inOrder σ).s
  | .inst_labels => v = .labels d.inst ∧ v' = .labels (d.inOrder σ).inst
  | n => n ∈ [Name.features, .algorithms, .instance_labels, .instance_sources] ∨ v = v'

theorem run_of_part {num : V → Num} {env : Env V W} {m : Meta V} {l : List V} {s : Option (List V)}
    (hm : Fitting l s m) (hv : NothingMissing num m) (hbound : env.prelim.bound = false)
    (hnorm : env.prelim.norm = false) (hden : env.subset.byDensity = false) {σ : List Nat}
    (hσ : ∀ i ∈ σ, i < m.features.length)
    (hsub : ∀ (c : Nat) (a b : Prelim.Arrays (List Num) (List Num) (List Bool) Nat Num Nat V V) dd,
      a.Fits m.features.length →
      Prelim.filter env.subset env.tests c env.split env.file a = .ok (b, dd) → Prelim.SamePicks σ a b)
    (sched : List (List Stg)) {rest : List Stg}
    (hrest : ∀ s ∈ rest, s = Stg.pilot ∨ s = .pythia ∨ s = .cloister ∨ s = .trace) (k : Nat) :
    Each (DictRel (Outside ofAllInstances))
      (applyAll ⟨sched, fun s => (inputs s).map Prod.fst, run env⟩ k
        (.preprocessing :: .prelim :: .sifted :: rest) (args env num m))
      (applyAll ⟨sched, fun s => (inputs s).map Prod.fst, run (withoutSubset env)⟩ k
        (.preprocessing :: .prelim :: .sifted :: rest) (args (withoutSubset env) num (instancesOnly σ l s m))) := by
  have hl' : (instancesOnly σ l s m).labels = .series (pick l σ) := rfl
  have hs' : (instancesOnly σ l s m).sources = (s.map fun s => pick s σ).map .series := by
    simp only [instancesOnly, Option.map_map]; rfl
  have e1 : received num (pick l σ) (s.map fun s => pick s σ) (instancesOnly σ l s m) =
      (received num l s m).inOrder σ := by
    simp only [received, Preprocessing.Data.inOrder, instancesOnly, Preprocessing.pick_map]
  have start : DictRel (fun n v v' => args env num m n = some v ∧
      args (withoutSubset env) num (instancesOnly σ l s m) n = some v') (args env num m)
      (args (withoutSubset env) num (instancesOnly σ l s m)) := by
    intro n
    cases n <;> first | exact .none | exact .some ⟨rfl, rfl⟩
  have fold : ∀ {fields : List Name} {ps : List (Val V W × Val V W)},
      List.Forall₂ (fun n p => args env num m n = some p.1 ∧
        args (withoutSubset env) num (instancesOnly σ l s m) n = some p.2) fields ps →
      fields.map (args env num m) = (ps.map Prod.fst).map some ∧
        fields.map (args (withoutSubset env) num (instancesOnly σ l s m)) = (ps.map Prod.snd).map some := by
    intro fields ps h
    induction h with
    | nil => exact ⟨rfl, rfl⟩
    | cons h _ ih => simp only [List.map_cons, h.1, h.2, ih.1, ih.2]; exact ⟨trivial, trivial⟩
  cases hrun : Preprocessing.run Num.isNan (received num l s m) m.algorithmNames env.feats env.algos with
  | error e =>
    refine each_cons (J := fun _ _ => False) ?_ fun _ _ h => h.elim
    cases h1 : applyStage ⟨sched, fun s => (inputs s).map Prod.fst, run env⟩ k .preprocessing (args env num m) with
    | error _ => trivial
    | ok y =>
      obtain ⟨g1, out, g2, -⟩ := Runner.applyStage_ok h1
      obtain ⟨o1, g3⟩ := args_inputs hm.labels hm.sources (filterMap_some g1 rfl)
      change runPreprocessing env _ = _ at g2
      dsimp only at g2 g3
      rw [g3, runPreprocessing_received, hrun] at g2
      cases g2
  | ok o =>
  have hfull : (received num l s m).x.Full Num.isNan ∧ (received num l s m).y.Full Num.isNan := by
    have key : ∀ {t : List (List V)}, (∀ r ∈ t, ∀ v ∈ r, num v ≠ .nan) →
        ∀ r ∈ t.map (·.map num), ∀ v ∈ r, Num.isNan v = false := by
      intro t ht r hr v hv
      obtain ⟨r', hr', rfl⟩ := List.mem_map.1 hr
      obtain ⟨v', hv', rfl⟩ := List.mem_map.1 hv
      have := ht r' hr' v' hv'
      cases h : num v' <;> simp_all [Num.isNan]
    exact ⟨key hv.1, key hv.2⟩
  have hpart : ∀ {o'}, Preprocessing.run Num.isNan ((received num l s m).inOrder σ) m.algorithmNames env.feats
      env.algos = .ok o' → _ := fun {o'} h' => Preprocessing.run_part (received_fits hm) rfl hfull.1 hfull.2
        (by simpa [received] using hσ) hrun h'
  refine each_cons (J := fun y y' => o.data.Fits ∧ o.data.x.rows.length = m.features.length ∧
    DictRel (PartRel o.data σ) y y') ?_ fun y y' hy =>
    each_cons (J := DictRel (Outside ofAllInstances)) (each_rel (by rfl) hy.2.2 ?_) fun y y' hy =>
    all_outside sched (.sifted :: rest) ?_ _ hy
  · have main : o.data.Fits ∧ o.data.x.rows.length = m.features.length → ∀ {a b : Except (RunError Name Err)
        (Dict Name (Val V W))}, Each (DictRel (PartRel o.data σ)) a b →
        Each (fun y y' => o.data.Fits ∧ o.data.x.rows.length = m.features.length ∧
          DictRel (PartRel o.data σ) y y') a b := by
      intro h a b hab
      cases a <;> cases b <;> first | trivial | exact ⟨h.1, h.2, hab⟩
    cases hrun' : Preprocessing.run Num.isNan ((received num l s m).inOrder σ) m.algorithmNames env.feats
        env.algos with
    | error e =>
      cases applyStage ⟨sched, fun s => (inputs s).map Prod.fst, run env⟩ k .preprocessing (args env num m) with
      | error _ => trivial
      | ok _ =>
      cases h1 : applyStage ⟨sched, fun s => (inputs s).map Prod.fst, run (withoutSubset env)⟩ k .preprocessing
          (args (withoutSubset env) num (instancesOnly σ l s m)) with
      | error _ => trivial
      | ok y =>
        obtain ⟨g1, out, g2, -⟩ := Runner.applyStage_ok h1
        obtain ⟨o1, g3⟩ := args_inputs hl' hs' (filterMap_some g1 rfl)
        change runPreprocessing (withoutSubset env) _ = _ at g2
        dsimp only at g2 g3
        have hr : Preprocessing.run Num.isNan ((received num l s m).inOrder σ)
          (instancesOnly σ l s m).algorithmNames (withoutSubset env).feats (withoutSubset env).algos = _ := hrun'
        rw [g3, runPreprocessing_received, e1, hr] at g2
        cases g2
    | ok o' =>
      obtain ⟨p1, p2, p3, p4⟩ := hpart hrun'
      refine main ⟨p3, by simpa [received] using p4⟩ (each_rel (by rfl) start ?_)
      intro ps hps out out' r r'
      obtain ⟨f1, f2⟩ := fold hps
      obtain ⟨o1, h1⟩ := args_inputs hm.labels hm.sources f1
      obtain ⟨o2, h2⟩ := args_inputs hl' hs' f2
      change runPreprocessing env _ = _ at r
      change runPreprocessing (withoutSubset env) _ = _ at r'
      have hr : Preprocessing.run Num.isNan ((received num l s m).inOrder σ)
        (instancesOnly σ l s m).algorithmNames (withoutSubset env).feats (withoutSubset env).algos = _ := hrun'
      rw [h1, runPreprocessing_received, hrun] at r
      rw [h2, runPreprocessing_received, e1, hr] at r'
      cases r
      cases r'
      rw [p1, p2]
      constructor
      · exact .cons ⟨rfl, rfl, rfl⟩ (.cons ⟨rfl, .inr rfl⟩ (.cons ⟨rfl, .inr rfl⟩ (.cons ⟨rfl, rfl, rfl⟩
          (.cons ⟨rfl, rfl, rfl⟩ (.cons ⟨rfl, rfl, rfl⟩ (.cons ⟨rfl, rfl, rfl⟩ (.cons ⟨rfl, rfl, rfl⟩ .nil)))))))
      · intro n hn v v' ⟨hv, hv'⟩
        simp only [List.map_cons, List.map_nil, List.mem_cons, List.not_mem_nil, or_false, not_or] at hn
        cases n <;> first
          | (exfalso; simp at hn; done)
          | exact .inl (by decide)
          | exact .inr (Option.some.inj (hv.symm.trans hv'))
  · intro ps hps out out' r r'
    simp only [inputs, List.map_cons, List.map_nil] at hps
    cases hps with | cons h1 h => cases h with | cons h2 h => cases h with | cons h3 h => cases h with
    | cons h4 h => cases h with | cons h5 h => cases h with | cons h6 h => cases h with
    | cons h7 h => cases h with | cons h8 h => cases h with
    | nil =>
      rename_i q1 q2 q3 q4 q5 q6 q7 q8
      simp only [List.map_cons, List.map_nil] at r r'
      rw [h1.1, h2.1, h3.1, h4.1, h5.1, h6.1] at r
      rw [h1.2, h2.2, h3.2, h4.2, h5.2, h6.2] at r'
      obtain ⟨g1, g2⟩ := prelim_part (z := q7.1) (w := q8.1) (z' := q7.2) (w' := q8.2) hbound hnorm hden hy.1 (σ := σ)
        (fun a b dd ha hf => hsub _ a b dd (hy.2.1 ▸ ha) hf) r r'
      refine ⟨g1, ?_⟩
      rw [g2]
      intro n hn v v' h hne
      cases n <;> first
        | exact absurd (by decide) hn
        | exact absurd (by decide) hne
        | exact h.resolve_left (by decide)
  · intro t ht k ps hps out out' r r'
    rcases List.mem_cons.1 ht with rfl | ht
    · exact sifted_part hden hps r r'
    · refine stage_outside hps r r' (.inl ⟨?_, ?_⟩)
      · rcases hrest t ht with rfl | rfl | rfl | rfl <;> rfl
      · rcases hrest t ht with rfl | rfl | rfl | rfl <;> decide

end Verif.EndToEnd
