import Verif.EndToEnd.SpecImproved
import Verif.EndToEnd.PropsLooser
import Verif.Prelim.PropsMeta
/-!
# C233: improving an algorithm
-/
set_option autoImplicit false
set_option linter.unusedSectionVars false

namespace Verif.EndToEnd

open Verif (Num)
open Verif.Pipeline (Stg Name runner defaultStages buildDefault inputs outputs)
open Verif.Metadata (Meta)
open Verif.Runner (Dict Op exec runAll contents)

private theorem rows_pairs {o : Prelim.Opts} {R : Prelim.Row → Prelim.Row → Prop}
    {Q : List Num → List Num → Prop} (hR : ∀ r r', Q r r' → ∀ out out', Prelim.rowStep o r = some out →
      Prelim.rowStep o r' = some out' → R out out') {m m' : List (List Num)} (hQ : List.Forall₂ Q m m') :
    ∀ {outs outs' : List Prelim.Row}, Prelim.rows o m = some outs → Prelim.rows o m' = some outs' →
      List.Forall₂ R outs outs' := by
  induction hQ with
  | nil =>
    intro outs outs' h h'
    cases h
    cases h'
    exact .nil
  | cons hr _ ih =>
    intro outs outs' h h'
    rw [Prelim.rows_iff] at h h'
    cases outs with
    | nil => cases h
    | cons u us =>
      cases outs' with
      | nil => cases h'
      | cons u' us' =>
        simp only [List.map_cons, List.cons.injEq] at h h'
        rw [← Prelim.rows_iff] at h h'
        exact .cons (hR _ _ hr _ _ h.1 h'.1) (ih h.2 h'.2)

private theorem pairs_mem {α β : Type} {R : α → β → Prop} {l : List α} {l' : List β} (h : List.Forall₂ R l l') :
    List.Forall₂ (fun a b => R a b ∧ a ∈ l ∧ b ∈ l') l l' := by
  induction h with
  | nil => exact .nil
  | cons h _ ih =>
    exact .cons ⟨h, List.mem_cons_self, List.mem_cons_self⟩
      (ih.imp fun _ _ h => ⟨h.1, List.mem_cons_of_mem _ h.2.1, List.mem_cons_of_mem _ h.2.2⟩)

/-- The rows that `_filter` keeps of the labels, sources and raw features do not depend on the performances. -/
private theorem filter_records {X Y B N T P L S : Type} {o : Prelim.SubsetOpts} (hden : o.byDensity = false)
    {tests : Filter.Tests (X × Y × B)} {n : Nat} {split : Option (List Nat)} {file : Option (List Int)}
    {a a' : Prelim.Arrays X Y B N T P L S} (hx : a'.x = a.x) {r r'}
    (h : Prelim.filter o tests n split file a = .ok r) (h' : Prelim.filter o tests n split file a' = .ok r')
    (h1 : a'.inst = a.inst) (h2 : a'.s = a.s) (h3 : a'.xRaw = a.xRaw) :
    r'.1.inst = r.1.inst ∧ r'.1.s = r.1.s ∧ r'.1.xRaw = r.1.xRaw := by
  have hidx : Prelim.subsetIndex o tests n split file a' = Prelim.subsetIndex o tests n split file a := by
    unfold Prelim.subsetIndex
    rw [hx, hden]
    rfl
  unfold Prelim.filter at h h'
  rw [hidx] at h'
  cases e : Prelim.subsetIndex o tests n split file a with
  | error e' => rw [e] at h; cases h
  | ok m =>
    rw [e] at h h'
    dsimp only at h h'
    split at h
    · rename_i hb
      rw [if_pos hb] at h'
      cases h
      cases h'
      exact ⟨by rw [h1], by rw [h2], by rw [h3]⟩
    · rename_i hb
      rw [if_neg hb] at h'
      cases h
      cases h'
      exact ⟨h1, h2, h3⟩

variable {V W : Type}

private theorem full_both {num : V → Num} {m : Meta V} {l : List V} {s : Option (List V)}
    (hv : NothingMissing num m) :
    (received num l s m).x.Full Num.isNan ∧ (received num l s m).y.Full Num.isNan := by
  have key : ∀ {t : List (List V)}, (∀ r ∈ t, ∀ v ∈ r, num v ≠ .nan) →
      ∀ r ∈ t.map (·.map num), ∀ v ∈ r, Num.isNan v = false := by
    intro t ht r hr v hv
    obtain ⟨r', hr', rfl⟩ := List.mem_map.1 hr
    obtain ⟨v', hv', rfl⟩ := List.mem_map.1 hv
    have := ht r' hr' v' hv'
    cases h : num v' <;> simp_all [Num.isNan]
  exact ⟨key hv.1, key hv.2⟩

private theorem mem_right {α β : Type} {R : α → β → Prop} {l : List α} {l' : List β} (h : List.Forall₂ R l l') :
    ∀ b ∈ l', ∃ a ∈ l, R a b := by
  induction h with
  | nil => intro b hb; cases hb
  | @cons a b _ _ h _ ih =>
    intro c hc
    rcases List.mem_cons.1 hc with rfl | hc
    · exact ⟨a, List.mem_cons_self, h⟩
    · obtain ⟨a', ha', h'⟩ := ih c hc
      exact ⟨a', List.mem_cons_of_mem _ ha', h'⟩

private theorem improved_fitting {num : V → Num} {b : Bool} {k : Nat} {m m' : Meta V} {l : List V}
    {s : Option (List V)} (hm : Fitting l s m) (hi : ImprovedAt num b k m m') : Fitting l s m' := by
  obtain ⟨A, rfl, hA⟩ := hi
  refine ⟨hm.labels, hm.sources, hm.features, fun r' hr' => ?_, hA.length_eq ▸ hm.rows, hm.labelled, hm.sourced⟩
  obtain ⟨r, hr, v, v', -, rfl, -⟩ := mem_right hA r' hr'
  rw [List.length_set]
  exact hm.algorithms r hr

private theorem improved_full {num : V → Num} {b : Bool} {k : Nat} {m m' : Meta V} (hm : NothingMissing num m)
    (hi : ImprovedAt num b k m m') : NothingMissing num m' := by
  obtain ⟨A, rfl, hA⟩ := hi
  refine ⟨hm.1, fun r' hr' w hw => ?_⟩
  obtain ⟨r, hr, v, v', -, rfl, h⟩ := mem_right hA r' hr'
  rcases List.mem_or_eq_of_mem_set hw with hw | rfl
  · exact hm.2 r hr w hw
  · exact h.1

/-- What PRELIM finds for each instance, before and after. -/
private theorem run_improved {num : V → Num} {env : Env V W} {m m' : Meta V} {l : List V} {s : Option (List V)}
    (hm : Fitting l s m) (hv : NothingMissing num m) (hden : env.subset.byDensity = false) (halgos : env.algos = none)
    (htup : ∀ k s vs out, env.rest k s vs = .ok out → out.map Prod.fst = (outputs s).map Prod.fst) {k : Nat}
    (hi : ImprovedAt num env.prelim.maxPerf k m m')
    {order : List Stg} {π : Builder.SetOrder Stg} {sched : List (List Stg)}
    (horder : order.Perm defaultStages) (hs : buildDefault order π = .ok sched)
    (ops ops' : List (Op Stg Name (Val V W))) {d d' : Dict Name (Val V W)}
    (h : contents (runAll (runner order sched (run env)) (exec (runner order sched (run env)) ops).st
      (args env num m)) = .ok d)
    (h' : contents (runAll (runner order sched (run env)) (exec (runner order sched (run env)) ops').st
      (args env num m')) = .ok d') {R : List Bool → List Bool → Prop}
    (hR : ∀ r ∈ m.algorithms, ∀ v v', r[k]? = some v → r.set k v' ∈ m'.algorithms →
      Prelim.Improves env.prelim.maxPerf (num v') (num v) →
      ∀ out out', Prelim.rowStep env.prelim (r.map num) = some out →
      Prelim.rowStep env.prelim ((r.map num).set k (num v')) = some out' → R out.yBin out'.yBin) :
    (∃ B B', d .y_bin = some (.verdicts B) ∧ d' .y_bin = some (.verdicts B') ∧ List.Forall₂ R B B') ∧
      SameRecords d d' := by
  rw [contents_apply horder hs] at h h'
  have main : ∃ rest, sched.flatten = .preprocessing :: .prelim :: .sifted :: rest ∧
      ∀ s ∈ rest, s = Stg.pilot ∨ s = .pythia ∨ s = .cloister ∨ s = .trace := by
    rcases Pipeline.C10_default_schedule order horder π with h | h <;>
      · rw [hs] at h
        obtain rfl := Except.ok.inj h
        exact ⟨_, rfl, by decide⟩
  obtain ⟨rest, e, hrest⟩ := main
  rw [e] at h h'
  have hkeep : ∀ n ∈ [Name.y_bin, .instlabels, .algo_labels, .s, .x_raw], ∀ s ∈ rest, (s = Stg.pilot ∨
      s = .pythia ∨ s = .cloister ∨ s = .trace) ∧ n ∉ (outputs s).map Prod.fst := fun n hn s hs => ⟨hrest s hs, by
    revert n
    rcases hrest s hs with rfl | rfl | rfl | rfl <;> decide⟩
  have hm' := improved_fitting hm hi
  have f1 := full_both (l := l) (s := s) hv
  have f1' := full_both (l := l) (s := s) (improved_full hv hi)
  obtain ⟨A, rfl, hA⟩ := hi
  obtain ⟨o, outs, ys, a, dense, c, q, r1, r2, r3, r4, r5, r6, hlast⟩ := front hm h
  obtain ⟨o', outs', ys', a', dense', c', q', r1', r2', r3', r4', r5', r6', hlast'⟩ := front hm' h'
  obtain ⟨x, feat, y, al, e1, e2, rfl, fo⟩ := Preprocessing.run_full (received_fits hm) rfl f1.1 f1.2 r1
  obtain ⟨x', feat', y', al', e1', e2', rfl, fo'⟩ := Preprocessing.run_full (received_fits hm') rfl f1'.1 f1'.2 r1'
  have ex : Preprocessing.select (received num l s m).x (received num l s m).feat env.feats = .ok (x', feat') := e1'
  rw [e1] at ex
  cases ex
  rw [halgos] at e2 e2'
  cases e2
  cases e2'
  dsimp only at r2 r2' r3 r3' r4 r4' hlast hlast'
  have hall : List.Forall₂ (fun u u' : Prelim.Row => R u.yBin u'.yBin) outs outs' :=
    rows_pairs (Q := fun w w' => ∃ r ∈ m.algorithms, ∃ v v', r[k]? = some v ∧ r.set k v' ∈ A ∧
        Prelim.Improves env.prelim.maxPerf (num v') (num v) ∧ w = r.map num ∧ w' = (r.map num).set k (num v'))
      (by
        rintro w w' ⟨r, hr, v, v', g1, g2, g3, rfl, rfl⟩ out out' u u'
        exact hR r hr v v' g1 g2 g3 out out' u u')
      (by
        refine map_loose (fun r : List V => r.map num) ?_ (pairs_mem hA)
        rintro r r' ⟨⟨v, v', g1, rfl, g3⟩, g4, g5⟩
        exact ⟨r, g4, v, v', g1, g5, g3, rfl, List.map_set⟩) r2 r2'
  obtain ⟨g1, -, -⟩ := filter_loose hden (by simp [arrays]) r4 r4'
  have look : ∀ n ∈ [Name.y_bin, .instlabels, .algo_labels, .s, .x_raw], _ := fun n hn =>
    (⟨rest_keeps htup (hkeep n hn) hlast, rest_keeps htup (hkeep n hn) hlast'⟩ : _ ∧ _)
  refine ⟨⟨a.yBin, a'.yBin, ?_, ?_, g1 (map_loose Prelim.Row.yBin (fun u u' h => h) hall)⟩, ?_⟩
  · exact (look _ (by decide)).1.trans rfl
  · exact (look _ (by decide)).2.trans rfl
  · have hsel := filter_records hden (by simp [arrays]) r4 r4'
    obtain ⟨k1, k2, k3⟩ := hsel rfl rfl rfl
    intro n hn
    obtain ⟨u, v⟩ := look n (List.mem_cons_of_mem _ hn)
    rw [u, v]
    simp only [List.mem_cons, List.not_mem_nil, or_false] at hn
    rcases hn with rfl | rfl | rfl | rfl
    · exact congrArg (fun z => some (Val.labels z)) k1
    · rfl
    · exact congrArg (fun z => some (Val.sources z)) k2
    · exact congrArg (fun z => some (Val.table ⟨_, z⟩)) k3

/-- **C233, absolute performances.** Improving an algorithm on some instances, in metadata without missing values, never
costs it a good verdict in the output of the pipeline, and leaves the verdicts on all others alone. -/
theorem C233_absolute_partial {num : V → Num} {env : Env V W} {m m' : Meta V} {l : List V} {s : Option (List V)} {e : ℚ}
    (hm : Fitting l s m) (full : NothingMissing num m) (sparse : env.subset.byDensity = false)
    (all : env.algos = none) (absolute : env.prelim.absPerf = true) (threshold : env.prelim.epsilon = .fin e)
    (tuples : ∀ k s vs out, env.rest k s vs = .ok out → out.map Prod.fst = (outputs s).map Prod.fst) {k : Nat}
    (improved : ImprovedAt num env.prelim.maxPerf k m m')
    {order : List Stg} {π : Builder.SetOrder Stg} {sched : List (List Stg)}
    (horder : order.Perm defaultStages) (hs : buildDefault order π = .ok sched)
    (ops ops' : List (Op Stg Name (Val V W))) {d d' : Dict Name (Val V W)}
    (h : contents (runAll (runner order sched (run env)) (exec (runner order sched (run env)) ops).st
      (args env num m)) = .ok d)
    (h' : contents (runAll (runner order sched (run env)) (exec (runner order sched (run env)) ops').st
      (args env num m')) = .ok d') : GainsNoLess k d d' ∧ OthersKeepVerdicts k d d' ∧ SameRecords d d' := by
  obtain ⟨⟨B, B', b1, b2, b3⟩, hrec⟩ := run_improved hm full sparse all tuples improved horder hs ops ops' h h'
    (R := fun r r' => (r[k]? = some true → r'[k]? = some true) ∧
      ∀ j, j ≠ k → (r'[j]? = some true ↔ r[j]? = some true)) (by
      intro r hr v v' hv _ himp out out' g g'
      exact Prelim.C139_absolute env.prelim e _ out out' k (num v) (num v') absolute threshold
        (by rw [List.getElem?_map, hv]; rfl) himp g g')
  exact ⟨⟨B, B', b1, b2, b3.imp fun _ _ h => ⟨h.1, fun j hj => (h.2 j hj).1⟩⟩,
    ⟨B, B', b1, b2, b3.imp fun _ _ h => h.2⟩, hrec⟩

/-- **C233 (part), relative performances.** With a threshold between 0 and 1 and positive performances, improving an
algorithm on some instances never costs it a good verdict in the output of the pipeline, and no other algorithm
becomes good. Missing: performances that are zero or negative (`C233_refuted`). -/
theorem C233_relative_partial {num : V → Num} {env : Env V W} {m m' : Meta V} {l : List V} {s : Option (List V)} {e : ℚ}
    (hm : Fitting l s m) (positive : PositivePerformances num m) (positive' : PositivePerformances num m')
    (full : NothingMissing num m) (sparse : env.subset.byDensity = false)
    (all : env.algos = none) (relative : env.prelim.absPerf = false) (threshold : env.prelim.epsilon = .fin e)
    (between : 0 ≤ e ∧ e < 1)
    (tuples : ∀ k s vs out, env.rest k s vs = .ok out → out.map Prod.fst = (outputs s).map Prod.fst) {k : Nat}
    (improved : ImprovedAt num env.prelim.maxPerf k m m')
    {order : List Stg} {π : Builder.SetOrder Stg} {sched : List (List Stg)}
    (horder : order.Perm defaultStages) (hs : buildDefault order π = .ok sched)
    (ops ops' : List (Op Stg Name (Val V W))) {d d' : Dict Name (Val V W)}
    (h : contents (runAll (runner order sched (run env)) (exec (runner order sched (run env)) ops).st
      (args env num m)) = .ok d)
    (h' : contents (runAll (runner order sched (run env)) (exec (runner order sched (run env)) ops').st
      (args env num m')) = .ok d') : GainsNoLess k d d' ∧ SameRecords d d' := by
  refine run_improved hm full sparse all tuples improved horder hs ops ops' h h' ?_
  intro r hr v v' hv hset himp out out' g g'
  have hk := (List.getElem?_eq_some_iff.1 hv).1
  obtain ⟨q', hq', hpos'⟩ := positive' _ hset v' (List.mem_set hk v')
  rw [hq'] at himp g'
  obtain ⟨b, hb, hbest, -⟩ := Prelim.rowStep_some g
  have haux : ∀ w ∈ r.map num, Prelim.aux env.prelim.maxPerf w = w := by
    intro w hw
    obtain ⟨w', hw', rfl⟩ := List.mem_map.1 hw
    exact Prelim.aux_eq (full.2 r hr w' hw')
  obtain ⟨w, hw, rfl⟩ := List.mem_map.1 hb
  rw [haux w hw] at hbest
  obtain ⟨w', hw', rfl⟩ := List.mem_map.1 hw
  obtain ⟨q, hq, hpos⟩ := positive r hr w' hw'
  rw [hq] at hbest hw
  exact Prelim.C139_partial env.prelim e _ out out' k (num v) q' q relative threshold between.1 between.2
    (by rw [List.getElem?_map, hv]; rfl) himp
    ⟨hw, by simp, fun c hc _ => haux c hc ▸ hbest c hc⟩ hpos hpos' g g'

/-- The full claim, for all performances and thresholds between 0 and 1. -/
def ImprovingHelpsInModel (V W : Type) : Prop :=
  ∀ (num : V → Num) (env : Env V W) (m m' : Meta V) (l : List V) (s : Option (List V)) (k : Nat) (e : ℚ)
    (d d' : Dict Name (Val V W)),
    Fitting l s m → NothingMissing num m → env.subset.byDensity = false → env.algos = none →
    env.prelim.epsilon = .fin e → 0 ≤ e ∧ e < 1 →
    (∀ k s vs out, env.rest k s vs = .ok out → out.map Prod.fst = (outputs s).map Prod.fst) →
    ImprovedAt num env.prelim.maxPerf k m m' →
    contents (runAll (runner defaultStages Pipeline.defaultSchedule (run env)) Runner.State.init
      (args env num m)) = .ok d →
    contents (runAll (runner defaultStages Pipeline.defaultSchedule (run env)) Runner.State.init
      (args env num m')) = .ok d' → GainsNoLess k d d'

/-! ### Cases -/

/-- A negative number, half of it, and 0. -/
def debtNum (n : Nat) : Num := if n = 0 then 0 else if n = 1 then .fin (-1/2) else .fin (-1)

/-- Two algorithms with negative performances. -/
def debtMeta (n : Nat) : Meta Nat where
  featureNames := ["feature_a", "feature_b"]
  algorithmNames := ["algo_p", "algo_q"]
  labels := .series [10, 11]
  sources := none
  features := [[1, 0], [0, 1]]
  algorithms := [[1, n], [1, 2]]

/-- The small options with performances maximised and compared relatively. -/
def debtEnv : Env Nat Unit :=
  { smallEnv noSubset none with prelim := ⟨true, false, .fin (1 / 20), .fin 1, false, false⟩ }

private theorem verdicts_in {d : Dict Name (Val Nat Unit)} {B b : List (List Bool)} (h : d .y_bin = some (.verdicts B))
    (h' : (goodIn (E := Runner.RunError Name Err) (.ok d)).map (·.1) = some b) : B = b := by
  unfold goodIn at h'
  dsimp only at h'
  rw [h] at h'
  split at h'
  · rename_i e _ _
    cases e
    exact Option.some.inj h'
  · cases h'

/-- **C233, refuted in full.** The algorithm that improves from -1 to 0 on an instance becomes the best there, and stops
being good in the output of the pipeline. -/
theorem C233_refuted : ¬ ImprovingHelpsInModel Nat Unit := by
  intro hall
  have h1 : (goodIn (contents (runAll (runner defaultStages Pipeline.defaultSchedule (run debtEnv))
      Runner.State.init (args debtEnv debtNum (debtMeta 2))))).map (·.1) =
        some [[true, true], [true, true]] := by decide +kernel
  have h2 : (goodIn (contents (runAll (runner defaultStages Pipeline.defaultSchedule (run debtEnv))
      Runner.State.init (args debtEnv debtNum (debtMeta 0))))).map (·.1) =
        some [[false, false], [true, true]] := by decide +kernel
  cases e1 : contents (runAll (runner defaultStages Pipeline.defaultSchedule (run debtEnv))
      Runner.State.init (args debtEnv debtNum (debtMeta 2))) with
  | error e => rw [e1] at h1; cases h1
  | ok d =>
    cases e2 : contents (runAll (runner defaultStages Pipeline.defaultSchedule (run debtEnv))
      Runner.State.init (args debtEnv debtNum (debtMeta 0))) with
    | error e => rw [e2] at h2; cases h2
    | ok d' =>
      obtain ⟨B, B', g1, g2, g3⟩ := hall debtNum debtEnv (debtMeta 2) (debtMeta 0) [10, 11] none 1 (1 / 20) d d'
        ⟨rfl, rfl, by decide, by decide, rfl, rfl, by rintro _ ⟨⟩⟩
        (by constructor <;> intro r _ v _ h <;> unfold debtNum at h <;> split at h <;> try split at h
            all_goals cases h) rfl rfl rfl (by norm_num)
        (by intro k s vs out h; cases h; rw [List.map_map]; rfl)
        ⟨_, rfl, .cons ⟨2, 0, rfl, rfl, by decide, .inr (by change Num.le _ _ = true; decide +kernel)⟩
          (.cons ⟨2, 2, rfl, rfl, by decide, .inr (by change Num.le _ _ = true; decide +kernel)⟩ .nil)⟩ e1 e2
      rw [e1] at h1
      rw [e2] at h2
      have k1 : B = [[true, true], [true, true]] := verdicts_in g1 h1
      have k2 : B' = [[false, false], [true, true]] := verdicts_in g2 h2
      rw [k1, k2] at g3
      cases g3 with
      | cons h _ => exact absurd (h.1 rfl) (by decide)

/-- Six instances with two features and two algorithms, of which the second has the given performances on the second and
third instance. -/
def trainedMeta (a b : Nat) : Meta Nat where
  featureNames := ["feature_a", "feature_b"]
  algorithmNames := ["algo_p", "algo_q"]
  labels := .series [10, 11, 12, 13, 14, 15]
  sources := none
  features := [[1, 1], [2, 5], [3, 2], [1, 4], [2, 1], [5, 3]]
  algorithms := [[4, 2], [2, a], [5, b], [3, 1], [3, 4], [4, 5]]

theorem trained_fitting (a b : Nat) : Fitting [10, 11, 12, 13, 14, 15] none (trainedMeta a b) where
  labels := rfl
  sources := rfl
  features := by simp [trainedMeta]
  algorithms := by simp [trainedMeta]
  rows := rfl
  labelled := rfl
  sourced := by rintro _ ⟨⟩

theorem trained_improved : ImprovedAt lateNum true 1 (trainedMeta 1 1) (trainedMeta 2 5) := by
  refine ⟨_, rfl, ?_⟩
  have same : ∀ v, Prelim.Improves true (lateNum v) (lateNum v) := fun v =>
    ⟨(fun h => by cases h), .inr (by change Num.le (.fin _) (.fin _) = true; simp [Num.le])⟩
  refine .cons ⟨2, 2, rfl, rfl, same 2⟩ (.cons ⟨1, 2, rfl, rfl, ?_, .inr ?_⟩ (.cons ⟨1, 5, rfl, rfl, ?_, .inr ?_⟩
    (.cons ⟨1, 1, rfl, rfl, same 1⟩ (.cons ⟨4, 4, rfl, rfl, same 4⟩ (.cons ⟨5, 5, rfl, rfl, same 5⟩ .nil)))))
  · intro h; cases h
  · change Num.le _ _ = true; decide +kernel
  · intro h; cases h
  · change Num.le _ _ = true; decide +kernel

theorem trained_positive (a b : Nat) (ha : 0 < a) (hb : 0 < b) : PositivePerformances lateNum (trainedMeta a b) := by
  intro r hr v hv
  refine ⟨v, rfl, ?_⟩
  simp only [trainedMeta, List.mem_cons, List.not_mem_nil, or_false] at hr
  have : 0 < v := by
    rcases hr with rfl | rfl | rfl | rfl | rfl | rfl <;>
      (simp only [List.mem_cons, List.not_mem_nil, or_false] at hv; omega)
  exact_mod_cast this

-- The second algorithm improves on two instances, performances from 4 on are good: the hypotheses of
-- `C233_absolute_partial` hold, both builds complete all stages, and the algorithm gains a verdict.
example : NothingMissing lateNum (trainedMeta 1 1) ∧ (allEnv false).subset.byDensity = false ∧
    (allEnv false).algos = none ∧ (goodFrom 4).absPerf = true ∧ (goodFrom 4).epsilon = .fin 4 ∧
    (∀ k s vs out, (allEnv false).rest k s vs = .ok out → out.map Prod.fst = (outputs s).map Prod.fst) ∧
    (goodIn (contents (runAll (runner defaultStages Pipeline.defaultSchedule
      (run { allEnv false with prelim := goodFrom 4 })) Runner.State.init
      (args { allEnv false with prelim := goodFrom 4 } lateNum (trainedMeta 1 1))))).map (·.1) =
        some [[true, false], [false, false], [true, false], [false, false], [false, true], [true, true]] ∧
    (goodIn (contents (runAll (runner defaultStages Pipeline.defaultSchedule
      (run { allEnv false with prelim := goodFrom 4 })) Runner.State.init
      (args { allEnv false with prelim := goodFrom 4 } lateNum (trainedMeta 2 5))))).map (·.1) =
        some [[true, false], [false, false], [true, true], [false, false], [false, true], [true, true]] :=
  ⟨(by constructor <;> intro r _ v _ h <;> cases h), rfl, rfl, rfl, rfl, (all_complete false).complete.tuples,
    by decide +kernel, by decide +kernel⟩

/-- Performances are good within a fifth of the largest. -/
def withinFifth : Prelim.Opts := ⟨true, false, .fin (1 / 5), .fin (1 / 2), false, false⟩

-- The same with performances compared relatively: the hypotheses of `C233_relative_partial` hold, both builds
-- complete all stages, and the algorithm gains two verdicts.
example : NothingMissing lateNum (trainedMeta 1 1) ∧ (allEnv false).subset.byDensity = false ∧
    (allEnv false).algos = none ∧ withinFifth.absPerf = false ∧ withinFifth.epsilon = .fin (1 / 5) ∧
    (0 ≤ (1 / 5 : ℚ) ∧ (1 / 5 : ℚ) < 1) ∧
    (∀ k s vs out, (allEnv false).rest k s vs = .ok out → out.map Prod.fst = (outputs s).map Prod.fst) ∧
    (goodIn (contents (runAll (runner defaultStages Pipeline.defaultSchedule
      (run { allEnv false with prelim := withinFifth })) Runner.State.init
      (args { allEnv false with prelim := withinFifth } lateNum (trainedMeta 1 1))))).map (·.1) =
        some [[true, false], [true, false], [true, false], [true, false], [false, true], [true, true]] ∧
    (goodIn (contents (runAll (runner defaultStages Pipeline.defaultSchedule
      (run { allEnv false with prelim := withinFifth })) Runner.State.init
      (args { allEnv false with prelim := withinFifth } lateNum (trainedMeta 2 5))))).map (·.1) =
        some [[true, false], [true, true], [true, true], [true, false], [false, true], [true, true]] :=
  ⟨(by constructor <;> intro r _ v _ h <;> cases h), rfl, rfl, rfl, rfl, by norm_num,
    (all_complete false).complete.tuples, by decide +kernel, by decide +kernel⟩

end Verif.EndToEnd
