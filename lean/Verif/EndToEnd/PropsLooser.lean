import Verif.EndToEnd.SpecLooser
import Verif.EndToEnd.PropsThreshold
import Verif.EndToEnd.PropsAgain
import Verif.EndToEnd.PropsAbsent
/-!
# C232: a looser threshold only adds verdicts
-/
set_option autoImplicit false
set_option linter.unusedSectionVars false

namespace Verif.EndToEnd

open Verif (Num)
open Verif.Pipeline (Stg Name runner defaultStages buildDefault inputs outputs)
open Verif.Metadata (Meta)
open Verif.Runner (Dict Op exec runAll contents)

private theorem mask_loose {α β : Type} {R : α → β → Prop} {l : List α} {l' : List β} (h : List.Forall₂ R l l') :
    ∀ m, List.Forall₂ R (Prelim.mask l m) (Prelim.mask l' m) := by
  induction h with
  | nil => intro m; exact .nil
  | cons h _ ih =>
    intro m
    cases m with
    | nil => exact .nil
    | cons b m =>
      have := ih m
      unfold Prelim.mask at this ⊢
      cases b
      · exact this
      · exact .cons h this

theorem filter_loose {X Y B N T P L S : Type} {o : Prelim.SubsetOpts} (hden : o.byDensity = false)
    {tests : Filter.Tests (X × Y × B)} {n : Nat} {split : Option (List Nat)} {file : Option (List Int)}
    {a a' : Prelim.Arrays X Y B N T P L S} (hx : a'.x = a.x) {r r'}
    (h : Prelim.filter o tests n split file a = .ok r) (h' : Prelim.filter o tests n split file a' = .ok r') :
    (∀ {R : B → B → Prop}, List.Forall₂ R a.yBin a'.yBin → List.Forall₂ R r.1.yBin r'.1.yBin) ∧
    (∀ {R : N → N → Prop}, List.Forall₂ R a.numGood a'.numGood → List.Forall₂ R r.1.numGood r'.1.numGood) ∧
    ∀ {R : Bool → Bool → Prop}, List.Forall₂ R a.beta a'.beta → List.Forall₂ R r.1.beta r'.1.beta := by
  have hidx : Prelim.subsetIndex o tests n split file a' = Prelim.subsetIndex o tests n split file a := by
    unfold Prelim.subsetIndex
    rw [hx, hden]
    rfl
  unfold Prelim.filter at h h'
  rw [hidx] at h'
  cases e : Prelim.subsetIndex o tests n split file a with
  | error e' => rw [e] at h; cases h
  | ok m =>
    rw [e] at h h'
    dsimp only at h h'
    split at h
    · rename_i hb
      rw [if_pos hb] at h'
      cases h
      cases h'
      exact ⟨fun h => mask_loose h m, fun h => mask_loose h m, fun h => mask_loose h m⟩
    · rename_i hb
      rw [if_neg hb] at h'
      cases h
      cases h'
      exact ⟨id, id, id⟩

private theorem rows_loose {o o' : Prelim.Opts} {R : Prelim.Row → Prelim.Row → Prop} :
    ∀ {m : List (List Num)}, (∀ r ∈ m, ∀ out out', Prelim.rowStep o r = some out →
      Prelim.rowStep o' r = some out' → R out out') →
    ∀ {outs outs' : List Prelim.Row}, Prelim.rows o m = some outs → Prelim.rows o' m = some outs' →
      List.Forall₂ R outs outs' := by
  intro m
  induction m with
  | nil =>
    intro _ outs outs' h h'
    cases h
    cases h'
    exact .nil
  | cons r m ih =>
    intro hR outs outs' h h'
    rw [Prelim.rows_iff] at h h'
    cases outs with
    | nil => cases h
    | cons u us =>
      cases outs' with
      | nil => cases h'
      | cons u' us' =>
        simp only [List.map_cons, List.cons.injEq] at h h'
        rw [← Prelim.rows_iff] at h h'
        exact .cons (hR r List.mem_cons_self _ _ h.1 h'.1)
          (ih (fun r hr => hR r (List.mem_cons_of_mem _ hr)) h.2 h'.2)

theorem map_loose {α β : Type} {R : α → α → Prop} {Q : β → β → Prop} (f : α → β)
    (hf : ∀ a a', R a a' → Q (f a) (f a')) {l l' : List α} (h : List.Forall₂ R l l') :
    List.Forall₂ Q (l.map f) (l'.map f) := by
  induction h with
  | nil => exact .nil
  | cons h _ ih => exact .cons (hf _ _ h) ih

private theorem count_loose {l l' : List Bool} (h : List.Forall₂ (fun g g' => g = true → g' = true) l l') :
    l.count true ≤ l'.count true := by
  induction h with
  | nil => exact Nat.le_refl _
  | @cons a b _ _ h _ ih =>
    cases a <;> cases b <;> simp only [List.count_cons] <;> simp_all
    omega

private theorem verdict_loose {o o' : Prelim.Opts} (same : SameButThresholds o o') (loose : LooserThreshold o o')
    {row : List Num} {out out' : Prelim.Row} (h : Prelim.rowStep o row = some out)
    (h' : Prelim.rowStep o' row = some out') :
    List.Forall₂ (fun g g' => g = true → g' = true) out.yBin out'.yBin := by
  obtain ⟨-, -, -, -, hb, -⟩ := Prelim.rowStep_some h
  obtain ⟨-, -, -, -, hb', -⟩ := Prelim.rowStep_some h'
  rw [List.forall₂_iff_get]
  refine ⟨by rw [hb, hb', List.length_map, List.length_map], fun i h1 h2 hg => ?_⟩
  have := Prelim.C40_monotone o o' same.max same.abs loose row out out' h h' i
    (by unfold Prelim.MarkedGood; rw [List.getElem?_eq_getElem h1]; exact congrArg some hg)
  unfold Prelim.MarkedGood at this
  rw [List.getElem?_eq_getElem h2] at this
  exact Option.some.inj this

private theorem beta_loose {b b' : Num} (hb : Num.le b' b = true) {n g g' : Nat} (hn : 0 < n) (hg : g ≤ g')
    (h : Num.lt (b * .fin n) (.fin g) = true) : Num.lt (b' * .fin n) (.fin g') = true := by
  have hn' : (0 : ℚ) < n := by exact_mod_cast hn
  have hg' : (g : ℚ) ≤ g' := by exact_mod_cast hg
  change Num.lt (Num.mul b (.fin n)) _ = true at h
  change Num.lt (Num.mul b' (.fin n)) _ = true
  have h1 : Num.infSign (n : ℚ) = .pinf := by unfold Num.infSign; rw [if_pos hn']
  have h2 : Num.infSign (-(n : ℚ)) = .ninf := by
    unfold Num.infSign; rw [if_neg (by linarith), if_pos (by linarith)]
  cases b' <;> cases b <;> simp only [Num.le, Num.mul, Num.lt, h1, h2, decide_eq_true_eq, reduceCtorEq] at hb h ⊢
  nlinarith

variable {V W : Type}

/-- **C232.** Two builds from the same metadata whose options differ only in the thresholds, and in that the second
has a looser one, return everything in `beforeVerdicts` alike if both complete; every algorithm that is good on an
instance in the first is good on it in the second, no instance has fewer good algorithms, and, if not more of them
are required for that, every instance that is easy in the first is easy in the second. -/
theorem C232_looser {num : V → Num} {env : Env V W} {o' : Prelim.Opts} {m : Meta V} {l : List V}
    {s : Option (List V)} (hm : Fitting l s m) (same : SameButThresholds env.prelim o')
    (loose : LooserThreshold env.prelim o') (sparse : env.subset.byDensity = false)
    (tuples : ∀ k s vs out, env.rest k s vs = .ok out → out.map Prod.fst = (outputs s).map Prod.fst)
    {order : List Stg} {π : Builder.SetOrder Stg} {sched : List (List Stg)}
    (horder : order.Perm defaultStages) (hs : buildDefault order π = .ok sched)
    (ops ops' : List (Op Stg Name (Val V W))) {d d' : Dict Name (Val V W)}
    (h : contents (runAll (runner order sched (run env)) (exec (runner order sched (run env)) ops).st
      (args env num m)) = .ok d)
    (h' : contents (runAll (runner order sched (run { env with prelim := o' }))
      (exec (runner order sched (run { env with prelim := o' })) ops').st
      (args { env with prelim := o' } num m)) = .ok d') :
    VerdictsGrow d d' ∧ CountsGrow d d' ∧
      (Num.le o'.betaThreshold env.prelim.betaThreshold = true → EasyGrow d d') ∧
      ∀ n ∈ beforeVerdicts, d' n = d n := by
  rw [contents_apply horder hs] at h h'
  have main : ∃ rest, sched.flatten = .preprocessing :: .prelim :: .sifted :: rest ∧
      ∀ s ∈ rest, s = Stg.pilot ∨ s = .pythia ∨ s = .cloister ∨ s = .trace := by
    rcases Pipeline.C10_default_schedule order horder π with h | h <;>
      · rw [hs] at h
        obtain rfl := Except.ok.inj h
        exact ⟨_, rfl, by decide⟩
  obtain ⟨rest, e, hrest⟩ := main
  rw [e] at h h'
  have hkeep : ∀ n ∈ [Name.y_bin, .num_good_algos, .beta] ++ beforeVerdicts, ∀ s ∈ rest, (s = Stg.pilot ∨
      s = .pythia ∨ s = .cloister ∨ s = .trace) ∧ n ∉ (outputs s).map Prod.fst := fun n hn s hs => ⟨hrest s hs, by
    revert n
    rcases hrest s hs with rfl | rfl | rfl | rfl <;> decide⟩
  obtain ⟨o, outs, ys, a, dense, c, q, r1, r2, r3, r4, r5, r6, hlast⟩ := front hm h
  obtain ⟨p, outs', ys', a', dense', c', q', r1', r2', r3', r4', r5', r6', hlast'⟩ := front hm h'
  dsimp only at r1' r2' r3' r4'
  rw [r1] at r1'
  obtain rfl := Except.ok.inj r1'
  obtain ⟨b1, b2, b3, b4⟩ := thresholds_outs same r2 r2'
  have hys : ys' = ys := by
    unfold Prelim.outY at r3 r3'
    rw [r2] at r3
    rw [r2'] at r3'
    simp only [Option.map_some, Option.some.injEq] at r3 r3'
    rw [← r3, ← r3', same.norm, b3, b4]
  subst hys
  have hx : (arrays { env with prelim := o' } o.data.x o.data.y o.data.x o.data.y o.data.s o.data.inst outs' ys').x =
      (arrays env o.data.x o.data.y o.data.x o.data.y o.data.s o.data.inst outs ys').x := by
    simp only [arrays, Prelim.outX, same.bound, same.norm]
  have hraw : (arrays { env with prelim := o' } o.data.x o.data.y o.data.x o.data.y o.data.s o.data.inst outs' ys').yRaw =
      (arrays env o.data.x o.data.y o.data.x o.data.y o.data.s o.data.inst outs ys').yRaw := by
    simp only [arrays, Prelim.yRawOut, Prelim.afterPrelim, same.abs]
  obtain ⟨k1, k2, k3, k4, k5, k6, k7, k8, -⟩ := filter_verdicts sparse _ _ _ _ _ _ hx rfl rfl hraw b1 b2 rfl rfl r4 r4'
  obtain ⟨g1, g2, g3⟩ := filter_loose sparse hx r4 r4'
  have hall : List.Forall₂ (fun u u' : Prelim.Row =>
      List.Forall₂ (fun g g' => g = true → g' = true) u.yBin u'.yBin ∧ u.numGood ≤ u'.numGood ∧
        (Num.le o'.betaThreshold env.prelim.betaThreshold = true → u.beta = true → u'.beta = true)) outs outs' :=
    rows_loose (fun r _ u u' e e' => by
      have hv := verdict_loose same loose e e'
      have hr : 0 < r.length := by
        cases r with
        | nil => cases e
        | cons _ _ => exact Nat.succ_pos _
      obtain ⟨-, -, -, -, -, -, n1, n2, -⟩ := Prelim.rowStep_some e
      obtain ⟨-, -, -, -, -, -, n1', n2', -⟩ := Prelim.rowStep_some e'
      have hc : u.numGood ≤ u'.numGood := by rw [n1, n1']; exact count_loose hv
      refine ⟨hv, hc, fun hb hu => ?_⟩
      rw [n2] at hu
      rw [n2']
      exact beta_loose hb hr hc hu) r2 r2'
  have look : ∀ n ∈ [Name.y_bin, .num_good_algos, .beta] ++ beforeVerdicts, _ := fun n hn =>
    (⟨rest_keeps tuples (hkeep n hn) hlast, rest_keeps (env := { env with prelim := o' }) tuples (hkeep n hn) hlast'⟩ :
      _ ∧ _)
  refine ⟨⟨a.yBin, a'.yBin, ?_, ?_, g1 (map_loose _ (fun u u' h => h.1) hall)⟩,
    ⟨a.numGood, a'.numGood, ?_, ?_, g2 (map_loose _ (fun u u' h => h.2.1) hall)⟩,
    fun hb => ⟨a.beta, a'.beta, ?_, ?_, g3 (map_loose _ (fun u u' h => h.2.2 hb) hall)⟩, ?_⟩
  · exact (look _ (by decide)).1.trans rfl
  · exact (look _ (by decide)).2.trans rfl
  · exact (look _ (by decide)).1.trans rfl
  · exact (look _ (by decide)).2.trans rfl
  · exact (look _ (by decide)).1.trans rfl
  · exact (look _ (by decide)).2.trans rfl
  · intro n hn
    obtain ⟨u, v⟩ := look n (List.mem_append_right _ hn)
    rw [u, v]
    dsimp only at k1 k2 k3 k4 k5 k6 k7 k8
    simp only [beforeVerdicts, List.mem_cons, List.not_mem_nil, or_false] at hn
    rcases hn with rfl | rfl | rfl | rfl | rfl | rfl | rfl | rfl
    · exact congrArg (fun z => some (Val.labels z)) k7
    · rfl
    · exact congrArg (fun z => some (Val.sources z)) k8
    · exact congrArg (fun z => some (Val.table ⟨_, z⟩)) k3
    · exact congrArg (fun z => some (Val.table ⟨_, z⟩)) k4
    · exact congrArg (fun z => some (Val.table ⟨_, z⟩)) k2
    · exact congrArg (fun z => some (Val.numbers z)) k5
    · exact congrArg (fun z => some (Val.counts z)) k6

/-! ### Cases -/

/-- The verdicts, counts and flags in an output. -/
def goodIn {V W E : Type} (r : Except E (Dict Name (Val V W))) :
    Option (List (List Bool) × List Nat × List Bool) :=
  match r with
  | .ok d =>
    match d .y_bin, d .num_good_algos, d .beta with
    | some (.verdicts b), some (.counts n), some (.flags f) => some (b, n, f)
    | _, _, _ => none
  | _ => none

/-- `gapMeta` with performances of which each algorithm has good and bad ones. -/
def rivalMeta : Meta Nat :=
  { gapMeta with algorithms := [[4, 2], [1, 0], [6, 6], [5, 1], [3, 1], [3, 4], [4, 5]] }

theorem rival_fitting : Fitting [10, 11, 16, 12, 13, 14, 15] none rivalMeta where
  labels := rfl
  sources := rfl
  features := by decide
  algorithms := by decide
  rows := rfl
  labelled := rfl
  sourced := by rintro _ ⟨⟩

-- Performances from 4 and from 2 on are good, on a table with an instance and a feature that preprocessing removes:
-- the hypotheses of `C232_looser` hold, both builds complete, and the looser threshold adds verdicts and easy
-- instances.
example : Fitting [10, 11, 16, 12, 13, 14, 15] none rivalMeta ∧ SameButThresholds (goodFrom 4) (goodFrom 2) ∧
    LooserThreshold (goodFrom 4) (goodFrom 2) ∧ (allEnv false).subset.byDensity = false ∧
    (∀ k s vs out, (allEnv false).rest k s vs = .ok out → out.map Prod.fst = (outputs s).map Prod.fst) ∧
    Num.le (goodFrom 2).betaThreshold (goodFrom 4).betaThreshold = true ∧
    goodIn (contents (runAll (runner defaultStages Pipeline.defaultSchedule
      (run { allEnv false with prelim := goodFrom 4 })) Runner.State.init
      (args { allEnv false with prelim := goodFrom 4 } gapNum rivalMeta))) =
        some ([[true, false], [false, false], [true, false], [false, false], [false, true], [true, true]],
          [1, 0, 1, 0, 1, 2], [false, false, false, false, false, true]) ∧
    goodIn (contents (runAll (runner defaultStages Pipeline.defaultSchedule
      (run { allEnv false with prelim := goodFrom 2 })) Runner.State.init
      (args { allEnv false with prelim := goodFrom 2 } gapNum rivalMeta))) =
        some ([[true, true], [false, false], [true, false], [true, false], [true, true], [true, true]],
          [2, 0, 1, 1, 2, 2], [true, false, false, false, true, true]) :=
  ⟨rival_fitting, ⟨rfl, rfl, rfl, rfl⟩, (by unfold LooserThreshold; decide +kernel), rfl,
    (all_complete false).complete.tuples, by decide +kernel, by decide +kernel, by decide +kernel⟩

end Verif.EndToEnd
