import Verif.EndToEnd.SpecThreshold
import Verif.EndToEnd.LevelLemmas
/-!
# Lemmas about builds that differ in what counts as good
-/
set_option autoImplicit false
set_option linter.unusedSectionVars false

namespace Verif.EndToEnd

open Verif (Num)
open Verif.Pipeline (Stg Name inputs outputs)
open Verif.Runner (Dict override applyAll applyStage RunError Pipeline)
open Verif.Preprocessing (Mat)

/-! ### Two runs that both succeed -/

/-- If both succeed, the results are related. -/
def Each {ε α β : Type} (J : α → β → Prop) : Except ε α → Except ε β → Prop
  | .ok a, .ok b => J a b
  | _, _ => True

section each

variable {S N X E : Type} [DecidableEq N]

theorem each_cons {J K : Dict N X → Dict N X → Prop} {P P' : Pipeline S N X E} {s : S} {ss : List S} {k : Nat}
    {d d' : Dict N X} (h1 : Each J (applyStage P k s d) (applyStage P' k s d'))
    (h2 : ∀ y y', J y y' → Each K (applyAll P (k + 1) ss y) (applyAll P' (k + 1) ss y')) :
    Each K (applyAll P k (s :: ss) d) (applyAll P' k (s :: ss) d') := by
  simp only [applyAll]
  cases e : applyStage P k s d with
  | error x => trivial
  | ok y =>
    cases e' : applyStage P' k s d' with
    | error x' =>
      dsimp only
      cases applyAll P (k + 1) ss y <;> trivial
    | ok y' =>
      rw [e, e'] at h1
      exact h2 y y' h1

theorem each_all {J : Dict N X → Dict N X → Prop} {P P' : Pipeline S N X E} :
    ∀ (ss : List S) (k : Nat) (d d' : Dict N X), J d d' →
    (∀ s ∈ ss, ∀ k (d d' : Dict N X), J d d' → Each J (applyStage P k s d) (applyStage P' k s d')) →
    Each J (applyAll P k ss d) (applyAll P' k ss d')
  | [], _, _, _, hd, _ => hd
  | s :: ss, k, d, d', hd, h =>
    each_cons (h s List.mem_cons_self k d d' hd) fun y y' hy =>
      each_all ss (k + 1) y y' hy fun t ht => h t (List.mem_cons_of_mem _ ht)

/-- The same value, unless the name is one of `ns`. -/
def Outside (ns : List N) (n : N) (v v' : X) : Prop := n ∉ ns → v = v'

theorem outside_refl (ns : List N) (out : List (N × X)) : OutRel (Outside ns) out out :=
  List.forall₂_same.2 fun _ _ => ⟨rfl, fun _ => rfl⟩

/-- A stage on dictionaries that agree outside `ns`. -/
theorem each_step {ns : List N} {P P' : Pipeline S N X E} (hf : P'.fields = P.fields) {k : Nat} {s : S}
    {d d' : Dict N X} (hd : DictRel (Outside ns) d d') {J : Dict N X → Dict N X → Prop}
    (hrun : ∀ ps : List (X × X), List.Forall₂ (fun n p => Outside ns n p.1 p.2) (P.fields s) ps →
      ∀ out out', P.run k s (ps.map Prod.fst) = .ok out → P'.run k s (ps.map Prod.snd) = .ok out' →
        (OutRel (Outside ns) out out' ∨ ∀ d d', J (override d out) (override d' out')))
    (hJ : ∀ d d', DictRel (Outside ns) d d' → J d d') :
    Each J (applyStage P k s d) (applyStage P' k s d') := by
  obtain ⟨h1, h2⟩ := inputs_rel (P.fields s) fun n _ => hd n
  unfold applyStage
  rw [hf, ← h1]
  cases e : (P.fields s).find? (fun n => (d n).isNone) with
  | some n => trivial
  | none =>
    obtain ⟨ps, p1, p2, p3⟩ := h2 e
    dsimp only
    rw [p1, p2]
    have h3 := hrun ps p3
    cases r : P.run k s (ps.map Prod.fst) with
    | error e => trivial
    | ok out =>
      cases r' : P'.run k s (ps.map Prod.snd) with
      | error e' => trivial
      | ok out' =>
        rcases h3 out out' r r' with h4 | h4
        · exact hJ _ _ (override_rel h4 fun n _ => hd n)
        · exact h4 d d'

end each

/-! ### PRELIM -/

theorem thresholds_row {o o' : Prelim.Opts} (h : SameButThresholds o o') (row : List Num) :
    (Prelim.rowStep o' row).map (fun r => (r.yBest, r.p, r.y, r.yIn)) =
      (Prelim.rowStep o row).map fun r => (r.yBest, r.p, r.y, r.yIn) := by
  unfold Prelim.rowStep
  rw [h.max, h.abs]
  cases row.map (Prelim.aux o.maxPerf) with
  | nil => rfl
  | cons a l => rfl

theorem thresholds_rows {o o' : Prelim.Opts} (h : SameButThresholds o o') : ∀ (rows : List (List Num)),
    (Prelim.rows o' rows).map (fun l => l.map fun r => (r.yBest, r.p, r.y, r.yIn)) =
      (Prelim.rows o rows).map fun l => l.map fun r => (r.yBest, r.p, r.y, r.yIn)
  | [] => rfl
  | row :: rows => by
    have h1 := thresholds_row h row
    have h2 := thresholds_rows h rows
    unfold Prelim.rows
    cases e : Prelim.rowStep o row with
    | none =>
      rw [e] at h1
      cases e' : Prelim.rowStep o' row with
      | none => rfl
      | some r' => rw [e'] at h1; cases h1
    | some r =>
      rw [e] at h1
      cases e' : Prelim.rowStep o' row with
      | none => rw [e'] at h1; cases h1
      | some r' =>
        rw [e'] at h1
        dsimp only
        cases f : Prelim.rows o rows with
        | none =>
          rw [f] at h2
          cases f' : Prelim.rows o' rows with
          | none => rfl
          | some l' => rw [f'] at h2; cases h2
        | some l =>
          rw [f] at h2
          cases f' : Prelim.rows o' rows with
          | none => rw [f'] at h2; cases h2
          | some l' =>
            rw [f'] at h2
            simp only [Option.map_some, Option.some.injEq] at h1 h2 ⊢
            rw [List.map_cons, List.map_cons, h1, h2]

theorem thresholds_outs {o o' : Prelim.Opts} (h : SameButThresholds o o') {rows : List (List Num)}
    {outs outs' : List Prelim.Row} (e : Prelim.rows o rows = some outs) (e' : Prelim.rows o' rows = some outs') :
    outs'.map (·.yBest) = outs.map (·.yBest) ∧ outs'.map (·.p) = outs.map (·.p) ∧
      outs'.map (·.y) = outs.map (·.y) ∧ outs'.map (·.yIn) = outs.map (·.yIn) := by
  have := thresholds_rows h rows
  rw [e, e'] at this
  simp only [Option.map_some, Option.some.injEq] at this
  refine ⟨?_, ?_, ?_, ?_⟩
  · simpa [List.map_map, Function.comp_def] using congrArg (List.map fun q => q.1) this
  · simpa [List.map_map, Function.comp_def] using congrArg (List.map fun q => q.2.1) this
  · simpa [List.map_map, Function.comp_def] using congrArg (List.map fun q => q.2.2.1) this
  · simpa [List.map_map, Function.comp_def] using congrArg (List.map fun q => q.2.2.2) this

/-- Without the density option, the subset does not depend on the verdicts. -/
theorem filter_verdicts {X Y B N T P L S : Type} {o : Prelim.SubsetOpts} (hden : o.byDensity = false)
    (tests : Filter.Tests (X × Y × B)) (n : Nat) (split : Option (List Nat)) (file : Option (List Int))
    (a a' : Prelim.Arrays X Y B N T P L S) (h1 : a'.x = a.x) (h2 : a'.y = a.y) (h3 : a'.xRaw = a.xRaw)
    (h4 : a'.yRaw = a.yRaw) (h5 : a'.yBest = a.yBest) (h6 : a'.p = a.p) (h7 : a'.inst = a.inst)
    (h8 : a'.s = a.s) {r r'} (e : Prelim.filter o tests n split file a = .ok r)
    (e' : Prelim.filter o tests n split file a' = .ok r') :
    r'.1.x = r.1.x ∧ r'.1.y = r.1.y ∧ r'.1.xRaw = r.1.xRaw ∧ r'.1.yRaw = r.1.yRaw ∧ r'.1.yBest = r.1.yBest ∧
      r'.1.p = r.1.p ∧ r'.1.inst = r.1.inst ∧ r'.1.s = r.1.s ∧ r'.2.isSome = r.2.isSome := by
  have hidx : Prelim.subsetIndex o tests n split file a' = Prelim.subsetIndex o tests n split file a := by
    unfold Prelim.subsetIndex
    rw [h1, hden]
    rfl
  unfold Prelim.filter at e e'
  rw [hidx] at e'
  cases hi : Prelim.subsetIndex o tests n split file a with
  | error x => rw [hi] at e; cases e
  | ok m =>
    rw [hi] at e e'
    dsimp only at e e'
    split at e
    · rw [if_pos (by assumption)] at e'
      cases e
      cases e'
      simp only [h1, h2, h3, h4, h5, h6, h7, h8, hden]
      simp
    · rw [if_neg (by assumption)] at e'
      cases e
      cases e'
      exact ⟨h1, h2, h3, h4, h5, h6, h7, h8, rfl⟩

variable {V W : Type}

theorem outside_cons {ns : List Name} {n : Name} {v v' : Val V W} {l l' : List (Name × Val V W)} (h : v = v')
    (hl : OutRel (Outside ns) l l') : OutRel (Outside ns) ((n, v) :: l) ((n, v') :: l') :=
  .cons ⟨rfl, fun _ => h⟩ hl

theorem outside_free {ns : List Name} {n : Name} (hn : n ∈ ns) {v v' : Val V W} {l l' : List (Name × Val V W)}
    (hl : OutRel (Outside ns) l l') : OutRel (Outside ns) ((n, v) :: l) ((n, v') :: l') :=
  .cons ⟨rfl, fun h => absurd hn h⟩ hl

theorem prelim_thresholds {env : Env V W} {o' : Prelim.Opts} (h : SameButThresholds env.prelim o')
    (hden : env.subset.byDensity = false) {vs : List (Val V W)} {out out' : List (Name × Val V W)}
    (e : runPrelim env vs = .ok out) (e' : runPrelim { env with prelim := o' } vs = .ok out') :
    OutRel (Outside aboutGood) out out' := by
  obtain ⟨x, y, xRaw, yRaw, s, inst, z, z', outs, ys, a, dense, rfl, g1, g2, g3, rfl⟩ := prelim_ok e
  obtain ⟨x', y', xRaw', yRaw', s', inst', w, w', outs', ys', a', dense', hvs, k1, k2, k3, rfl⟩ := prelim_ok e'
  simp only [List.cons.injEq, Val.table.injEq, Val.sources.injEq, Val.labels.injEq, and_true] at hvs
  obtain ⟨rfl, rfl, rfl, rfl, rfl, rfl, rfl, rfl⟩ := hvs
  dsimp only at k1 k2 k3
  obtain ⟨b1, b2, b3, b4⟩ := thresholds_outs h g1 k1
  have hys : ys' = ys := by
    unfold Prelim.outY at g2 k2
    rw [g1, Option.map_some, Option.some.injEq] at g2
    rw [k1, Option.map_some, Option.some.injEq] at k2
    rw [← g2, ← k2, h.norm]
    change (if _ then Prelim.normY env.tr (Prelim.columns y.ncols (outs'.map Prelim.Row.yIn))
      else Prelim.columns y.ncols (outs'.map Prelim.Row.y)) = _
    rw [b3, b4]
  subst hys
  have hX : Prelim.outX o' env.junk env.tr (Prelim.columns x.ncols x.rows) =
      Prelim.outX env.prelim env.junk env.tr (Prelim.columns x.ncols x.rows) := by
    unfold Prelim.outX
    rw [h.norm, h.bound]
  have hraw : Prelim.yRawOut o' (fun _ => yRaw.rows) 0 0 = Prelim.yRawOut env.prelim (fun _ => yRaw.rows) 0 0 := by
    unfold Prelim.yRawOut Prelim.afterPrelim
    rw [h.abs]
  obtain ⟨c1, c2, c3, c4, c5, c6, c7, c8, c9⟩ := filter_verdicts hden _ _ _ _
    (arrays env x y xRaw yRaw s inst outs ys')
    (arrays { env with prelim := o' } x y xRaw yRaw s inst outs' ys')
    (by dsimp only [arrays]; rw [hX]) rfl rfl hraw b1 b2 rfl rfl g3 k3
  have hrec : recorded (V := V) (W := W) { env with prelim := o' } x y outs' = recorded env x y outs := by
    have hx : Prelim.recordX o' env.junk env.mid env.fit = Prelim.recordX env.prelim env.junk env.mid env.fit := by
      unfold Prelim.recordX
      rw [h.norm, h.bound]
    have hy : Prelim.recordY o' env.fit y.ncols outs' = Prelim.recordY env.prelim env.fit y.ncols outs := by
      unfold Prelim.recordY
      rw [h.norm]
      have hcol : outs'.map (fun r => if env.prelim.norm = true then r.yIn else r.y) =
          outs.map (fun r => if env.prelim.norm = true then r.yIn else r.y) := by
        cases env.prelim.norm
        · exact b3
        · exact b4
      rw [hcol]
    unfold recorded
    dsimp only
    rw [hx, hy]
  unfold prelimOut
  dsimp only
  rw [g1, k1, Option.getD_some, Option.getD_some, hrec]
  refine List.rel_append (outside_refl _ _) ?_
  dsimp only at c1 c2 c3 c4 c5 c6 c7 c8 c9
  exact outside_cons (by rw [c1]) (outside_cons (by rw [c2]) (outside_cons (by rw [c3])
    (outside_cons (by rw [c4]) (outside_free (by decide) (outside_cons (by rw [c5]) (outside_cons (by rw [c6])
    (outside_free (by decide) (outside_free (by decide) (outside_cons (by rw [c7]) (outside_cons (by rw [c9])
    (outside_cons (by rw [c8]) .nil)))))))))))

/-! ### SIFTED -/

theorem sifted_verdicts {lib lib' : Sifted.Lib} (h1 : lib'.argsort = lib.argsort)
    (h2 : lib'.silhouette = lib.silhouette) (h3 : lib'.evalLabels = lib.evalLabels)
    (h4 : lib'.kmeans = lib.kmeans) {α : Type} {rho : List (List Num)} {thr : Num} {k n : Nat} {x : List α}
    {labels : List String} {dense : Bool} {o o' : Sifted.Out α}
    (e : Sifted.sifted lib rho thr k n x labels dense = .ok o)
    (e' : Sifted.sifted lib' rho thr k n x labels dense = .ok o') : o.clust.isSome ∨ o' = o := by
  unfold Sifted.sifted at e e'
  rw [h1, h2, h3, h4] at e'
  dsimp only at e e'
  split at e
  · cases e
  rw [if_neg (by assumption)] at e'
  split at e
  · rw [if_pos (by assumption)] at e'
    cases e
    cases e'
    exact .inr rfl
  rw [if_neg (by assumption)] at e'
  split at e
  · cases e
  rw [if_neg (by assumption)] at e'
  split at e
  · rw [if_pos (by assumption)] at e'
    cases e
    cases e'
    exact .inr rfl
  split at e
  · cases e
  split at e
  · cases e
  split at e
  · cases e
  split at e
  · cases e
  cases e
  exact .inl rfl

theorem sifted_thresholds {env : Env V W} (o' : Prelim.Opts) (hs : OnlySearchSeesVerdicts env)
    {ps : List (Val V W × Val V W)}
    (h : List.Forall₂ (fun n q => Outside aboutGood n q.1 q.2) ((inputs .sifted).map Prod.fst) ps)
    {out out' : List (Name × Val V W)} (e : runSifted env (ps.map Prod.fst) = .ok out)
    (e' : runSifted { env with prelim := o' } (ps.map Prod.snd) = .ok out') :
    OutRel (Outside aboutGood) out out' ∨ ∀ d, Searched (override d out) := by
  obtain ⟨x, y, yb, xRaw, yRaw, beta, ng, best, p, inst, feat, s, z, z', b, z'', c, o, i1, g1, g2, rfl⟩ :=
    sifted_ok e
  obtain ⟨x', y', yb', xRaw', yRaw', beta', ng', best', p', inst', feat', s', w, w', b', w'', c', o'', i2, k1, k2,
    rfl⟩ := sifted_ok e'
  simp only [inputs, List.map_cons, List.map_nil] at h
  cases h with | cons h1 h => cases h with | cons h2 h => cases h with | cons h3 h => cases h with
  | cons h4 h => cases h with | cons h5 h => cases h with | cons h6 h => cases h with
  | cons h7 h => cases h with | cons h8 h => cases h with | cons h9 h => cases h with
  | cons h10 h => cases h with | cons h11 h => cases h with | cons h12 h => cases h with
  | cons h13 h => cases h with | cons h14 h => cases h with | cons h15 h => cases h with
  | cons h16 h => cases h with
  | nil =>
    rename_i q1 q2 q3 q4 q5 q6 q7 q8 q9 q10 q11 q12 q13 q14 q15 q16
    obtain ⟨a1, b1⟩ := q1
    obtain ⟨a2, b2⟩ := q2
    obtain ⟨a3, b3⟩ := q3
    obtain ⟨a4, b4⟩ := q4
    obtain ⟨a5, b5⟩ := q5
    obtain ⟨a6, b6⟩ := q6
    obtain ⟨a7, b7⟩ := q7
    obtain ⟨a8, b8⟩ := q8
    obtain ⟨a9, b9⟩ := q9
    obtain ⟨a10, b10⟩ := q10
    obtain ⟨a11, b11⟩ := q11
    obtain ⟨a12, b12⟩ := q12
    obtain ⟨a13, b13⟩ := q13
    obtain ⟨a14, b14⟩ := q14
    obtain ⟨a15, b15⟩ := q15
    obtain ⟨a16, b16⟩ := q16
    simp only [List.map_cons, List.map_nil, List.cons.injEq, and_true] at i1 i2
    obtain ⟨rfl, rfl, rfl, rfl, rfl, rfl, rfl, rfl, rfl, rfl, rfl, rfl, rfl, rfl, rfl, rfl⟩ := i1
    obtain ⟨rfl, rfl, rfl, rfl, rfl, rfl, rfl, rfl, rfl, rfl, rfl, rfl, rfl, rfl, rfl, rfl⟩ := i2
    cases h1 (by decide)
    cases h2 (by decide)
    cases h4 (by decide)
    cases h5 (by decide)
    cases h8 (by decide)
    cases h9 (by decide)
    cases h10 (by decide)
    cases h11 (by decide)
    cases h12 (by decide)
    cases h15 (by decide)
    dsimp only at k1 k2
    have hc : correlations { env with prelim := o' } x y yb' = correlations env x y yb := by
      unfold correlations
      dsimp only
      rw [(hs x y yb yb').1]
    rw [hc, g1] at k1
    cases k1
    obtain ⟨l1, l2, l3, l4⟩ := hs x y yb yb'
    rcases sifted_verdicts l1 l2 l3 l4 g2 k2 with hcl | rfl
    · right
      intro d
      obtain ⟨cl, hcl⟩ := Option.isSome_iff_exists.1 hcl
      refine ⟨cl, ?_⟩
      unfold grounds
      rw [hcl]
      rfl
    · left
      refine List.rel_append ?_ (outside_refl _ _)
      refine outside_cons rfl (outside_cons rfl (outside_free (by decide) (outside_cons rfl (outside_cons rfl
        (outside_free (by decide) (outside_free (by decide) (outside_refl _ _)))))))

/-! ### The pipeline -/

theorem same_inputs {ns : List Name} {fields : List Name} {ps : List (Val V W × Val V W)}
    (h : List.Forall₂ (fun n q => Outside ns n q.1 q.2) fields ps) (hf : ∀ n ∈ fields, n ∉ ns) :
    ps.map Prod.snd = ps.map Prod.fst := by
  induction h with
  | nil => rfl
  | @cons n q ns ps hq _ ih =>
    rw [List.map_cons, List.map_cons, hq (hf n List.mem_cons_self), ih fun n hn => hf n (List.mem_cons_of_mem _ hn)]

theorem outside_names {ns l : List Name} (hl : ∀ n ∈ l, n ∈ ns) :
    ∀ {out out' : List (Name × Val V W)}, out.map Prod.fst = l → out'.map Prod.fst = l →
      OutRel (Outside ns) out out' := by
  induction l with
  | nil =>
    intro out out' h h'
    rw [List.map_eq_nil_iff] at h h'
    subst h h'
    exact .nil
  | cons n l ih =>
    intro out out' h h'
    obtain ⟨q, out, rfl, e, h1⟩ := List.map_eq_cons_iff.1 h
    obtain ⟨q', out', rfl, e', h1'⟩ := List.map_eq_cons_iff.1 h'
    exact .cons ⟨e.trans e'.symm, fun hn => absurd (e ▸ hl _ List.mem_cons_self) hn⟩
      (ih (fun n hn => hl n (List.mem_cons_of_mem _ hn)) h1 h1')

/-- Agreement, unless the features were selected by search. -/
def AgreeUnlessSearched (d d' : Dict Name (Val V W)) : Prop := Searched d ∨ DictRel (Outside aboutGood) d d'

theorem searched_override {d : Dict Name (Val V W)} {out : List (Name × Val V W)} (h : Searched d)
    (hn : Name.clust ∉ out.map Prod.fst) : Searched (override d out) := by
  obtain ⟨c, hc⟩ := h
  refine ⟨c, ?_⟩
  unfold override
  rw [List.find?_eq_none.2 fun q hq => by
    simp only [decide_eq_true_eq]
    intro e
    exact hn (e ▸ List.mem_map_of_mem (List.mem_reverse.1 hq))]
  exact hc

theorem applyStage_searched {sched : List (List Stg)} {env : Env V W} {k : Nat} {s : Stg}
    {d e : Dict Name (Val V W)}
    (hr : ∀ vs out, run env k s vs = .ok out → Name.clust ∉ out.map Prod.fst) (hd : Searched d)
    (h : applyStage ⟨sched, fun s => (inputs s).map Prod.fst, run env⟩ k s d = .ok e) : Searched e := by
  unfold applyStage at h
  dsimp only at h
  split at h
  · cases h
  · split at h
    · cases h
    · rename_i out ho
      cases h
      exact searched_override hd (hr _ _ ho)

theorem applyAll_thresholds {env : Env V W} {o' : Prelim.Opts} (ho : SameButThresholds env.prelim o')
    (hden : env.subset.byDensity = false) (hs : OnlySearchSeesVerdicts env)
    (hr : ∀ k s vs out, env.rest k s vs = .ok out → out.map Prod.fst = (outputs s).map Prod.fst)
    (sched : List (List Stg)) (rest : List Stg)
    (hrest : ∀ s ∈ rest, s = .pilot ∨ s = .pythia ∨ s = .cloister ∨ s = .trace)
    (k : Nat) (d : Dict Name (Val V W)) :
    Each AgreeUnlessSearched
      (applyAll ⟨sched, fun s => (inputs s).map Prod.fst, run env⟩ k
        (.preprocessing :: .prelim :: .sifted :: rest) d)
      (applyAll ⟨sched, fun s => (inputs s).map Prod.fst, run { env with prelim := o' }⟩ k
        (.preprocessing :: .prelim :: .sifted :: rest) d) := by
  have hd : DictRel (Outside aboutGood) d d := by
    intro n
    cases d n with
    | none => exact .none
    | some v => exact .some fun _ => rfl
  refine each_cons (J := DictRel (Outside aboutGood)) (each_step (by rfl) hd (fun ps hps out out' e e' => ?_)
    fun _ _ h => h) fun y y' hy => each_cons (J := DictRel (Outside aboutGood))
    (each_step (by rfl) hy (fun ps hps out out' e e' => ?_) fun _ _ h => h) fun y y' hy =>
    each_cons (J := AgreeUnlessSearched) (each_step (by rfl) hy (fun ps hps out out' e e' => ?_)
    fun _ _ h => .inr h) fun y y' hy => each_all rest _ y y' hy fun s hs k d d' hd => ?_
  · left
    dsimp only at e e' hps
    rw [same_inputs hps (by decide)] at e'
    change runPreprocessing env _ = _ at e
    change runPreprocessing env _ = _ at e'
    rw [e] at e'
    cases e'
    exact outside_refl _ _
  · left
    dsimp only at e e' hps
    rw [same_inputs hps (by decide)] at e'
    exact prelim_thresholds ho hden e e'
  · rcases sifted_thresholds o' hs hps e e' with h | h
    · exact .inl h
    · exact .inr fun d d' => .inl (h d)
  · have hrun : ∀ k vs, run env k s vs = env.rest k s vs := by
      rcases hrest s hs with rfl | rfl | rfl | rfl <;> intro _ _ <;> rfl
    have hrun' : ∀ k vs, run { env with prelim := o' } k s vs = env.rest k s vs := by
      rcases hrest s hs with rfl | rfl | rfl | rfl <;> intro _ _ <;> rfl
    rcases hd with hd | hd
    · generalize ha : applyStage ⟨sched, fun s => (inputs s).map Prod.fst, run env⟩ k s d = a
      cases a with
      | error e => trivial
      | ok e =>
        have := applyStage_searched (fun vs out h => by
          rw [hrun] at h
          rw [hr _ _ _ _ h]
          rcases hrest s hs with rfl | rfl | rfl | rfl <;> decide) hd ha
        generalize applyStage ⟨sched, fun s => (inputs s).map Prod.fst, run { env with prelim := o' }⟩ k s d' = b
        cases b with
        | error e => trivial
        | ok e' => exact .inl this
    · refine each_step (by rfl) hd (fun ps hps out out' e e' => .inl ?_) fun _ _ h => .inr h
      dsimp only at e e' hps
      rw [hrun] at e
      rw [hrun'] at e'
      rcases hrest s hs with rfl | rfl | rfl | rfl
      · rw [same_inputs hps (by decide), e] at e'
        cases e'
        exact outside_refl _ _
      · exact outside_names (l := (outputs .pythia).map Prod.fst) (by decide) (hr _ _ _ _ e) (hr _ _ _ _ e')
      · rw [same_inputs hps (by decide), e] at e'
        cases e'
        exact outside_refl _ _
      · exact outside_names (l := (outputs .trace).map Prod.fst) (by decide) (hr _ _ _ _ e) (hr _ _ _ _ e')

end Verif.EndToEnd
