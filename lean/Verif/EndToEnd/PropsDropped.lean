import Verif.EndToEnd.SpecDropped
import Verif.EndToEnd.PropsAgain
/-!
# C229: leaving out an algorithm that is nowhere the best
-/
set_option autoImplicit false
set_option linter.unusedSectionVars false

namespace Verif.EndToEnd

open Verif (Num)
open Verif.Pipeline (Stg Name runner defaultStages buildDefault inputs outputs)
open Verif.Metadata (Meta)
open Verif.Preprocessing (Data Mat)
open Verif.Runner (Dict Op exec runAll contents RunError applyAll)

private theorem mask_rel {α β : Type} {R : α → β → Prop} {l : List α} {l' : List β} (h : List.Forall₂ R l l') :
    ∀ m, List.Forall₂ R (Prelim.mask l m) (Prelim.mask l' m) := by
  induction h with
  | nil => intro m; exact .nil
  | cons h _ ih =>
    intro m
    cases m with
    | nil => exact .nil
    | cons b m =>
      have := ih m
      unfold Prelim.mask at this ⊢
      cases b
      · exact this
      · exact .cons h this

/-- The rows that `_filter` keeps do not depend on the performances. -/
private theorem filter_performances {X Y B N T P L S : Type} {o : Prelim.SubsetOpts} (hden : o.byDensity = false)
    {tests : Filter.Tests (X × Y × B)} {n n' : Nat} {split : Option (List Nat)} {file : Option (List Int)}
    {a a' : Prelim.Arrays X Y B N T P L S} (hx : a'.x.length = a.x.length) {r r'}
    (h : Prelim.filter o tests n split file a = .ok r) (h' : Prelim.filter o tests n' split file a' = .ok r') :
    (∀ {R : B → B → Prop}, List.Forall₂ R a.yBin a'.yBin → List.Forall₂ R r.1.yBin r'.1.yBin) ∧
    (∀ {R : T → T → Prop}, List.Forall₂ R a.yBest a'.yBest → List.Forall₂ R r.1.yBest r'.1.yBest) ∧
    ∀ {R : P → P → Prop}, List.Forall₂ R a.p a'.p → List.Forall₂ R r.1.p r'.1.p := by
  have hidx : Prelim.subsetIndex o tests n' split file a' = Prelim.subsetIndex o tests n split file a := by
    unfold Prelim.subsetIndex
    simp only [hden, hx, List.map_const']
    rfl
  unfold Prelim.filter at h h'
  rw [hidx] at h'
  cases e : Prelim.subsetIndex o tests n split file a with
  | error e' => rw [e] at h; cases h
  | ok m =>
    rw [e] at h h'
    dsimp only at h h'
    split at h
    · rename_i hb
      rw [if_pos hb] at h'
      cases h
      cases h'
      exact ⟨fun h => mask_rel h m, fun h => mask_rel h m, fun h => mask_rel h m⟩
    · rename_i hb
      rw [if_neg hb] at h'
      cases h
      cases h'
      exact ⟨id, id, id⟩

private theorem extra_erase {α : Type} {l : List α} {k : Nat} {v : α} (h : l[k]? = some v) :
    Prelim.WithExtra k v (l.eraseIdx k) l := by
  unfold Prelim.WithExtra
  obtain ⟨hk, rfl⟩ := List.getElem?_eq_some_iff.1 h
  rw [List.eraseIdx_eq_take_drop_succ]
  have h1 : (l.take k).length = k := by simp; omega
  rw [List.take_left' h1, List.drop_left' h1]
  simp

private theorem erase_map {α β : Type} (f : α → β) (l : List α) (k : Nat) :
    (l.map f).eraseIdx k = (l.eraseIdx k).map f := by
  rw [List.eraseIdx_eq_take_drop_succ, List.eraseIdx_eq_take_drop_succ, List.map_append, List.map_take, List.map_drop]

private theorem step_rel' {o : Prelim.Opts} {R : Prelim.Row → Prelim.Row → Prop} {f : List Num → List Num}
    {m : List (List Num)} (hR : ∀ r ∈ m, ∀ out out', Prelim.rowStep o r = some out →
      Prelim.rowStep o (f r) = some out' → R out out') :
    ∀ {outs outs' : List Prelim.Row}, Prelim.rows o m = some outs → Prelim.rows o (m.map f) = some outs' →
      List.Forall₂ R outs outs' := by
  induction m with
  | nil =>
    intro outs outs' h h'
    cases h
    cases h'
    exact .nil
  | cons r m ih =>
    intro outs outs' h h'
    rw [Prelim.rows_iff] at h h'
    cases outs with
    | nil => cases h
    | cons u us =>
      cases outs' with
      | nil => cases h'
      | cons u' us' =>
        simp only [List.map_cons, List.cons.injEq] at h h'
        rw [← Prelim.rows_iff] at h h'
        exact .cons (hR r List.mem_cons_self _ _ h.1 h'.1)
          (ih (fun r hr => hR r (List.mem_cons_of_mem _ hr)) h.2 h'.2)

private theorem forall_map {α β : Type} {R : α → α → Prop} {Q : β → β → Prop} (f : α → β)
    (hf : ∀ a a', R a a' → Q (f a) (f a')) {l l' : List α} (h : List.Forall₂ R l l') :
    List.Forall₂ Q (l.map f) (l'.map f) := by
  induction h with
  | nil => exact .nil
  | cons h _ ih => exact .cons (hf _ _ h) ih

private theorem forall_eq {α : Type} {l l' : List α} (h : List.Forall₂ (· = ·) l l') : l' = l := by
  induction h with
  | nil => rfl
  | cons h _ ih => rw [h, ih]

variable {V W : Type}

private theorem drop_schedule {order : List Stg} {π : Builder.SetOrder Stg} {sched : List (List Stg)}
    (horder : order.Perm defaultStages) (hs : buildDefault order π = .ok sched) :
    ∃ rest, sched.flatten = .preprocessing :: .prelim :: .sifted :: rest ∧
      ∀ s ∈ rest, s = Stg.pilot ∨ s = .pythia ∨ s = .cloister ∨ s = .trace := by
  rcases Pipeline.C10_default_schedule order horder π with h | h <;>
    · rw [hs] at h
      obtain rfl := Except.ok.inj h
      exact ⟨_, rfl, by decide⟩

private theorem dropped_fitting {m : Meta V} {l : List V} {s : Option (List V)} (hm : Fitting l s m) {k : Nat}
    (hk : k < m.algorithmNames.length) : Fitting l s (withoutAlgorithm k m) where
  labels := hm.labels
  sources := hm.sources
  features := hm.features
  algorithms := by
    intro r hr
    obtain ⟨r', hr', rfl⟩ := List.mem_map.1 hr
    have h1 := hm.algorithms r' hr'
    simp only [withoutAlgorithm]
    rw [List.length_eraseIdx_of_lt (by omega), List.length_eraseIdx_of_lt hk, h1]
  rows := by simp only [withoutAlgorithm, List.length_map]; exact hm.rows
  labelled := hm.labelled
  sourced := hm.sourced

private theorem full_received {num : V → Num} {m : Meta V} {l : List V} {s : Option (List V)}
    (hv : NothingMissing num m) :
    (received num l s m).x.Full Num.isNan ∧ (received num l s m).y.Full Num.isNan := by
  have key : ∀ {t : List (List V)}, (∀ r ∈ t, ∀ v ∈ r, num v ≠ .nan) →
      ∀ r ∈ t.map (·.map num), ∀ v ∈ r, Num.isNan v = false := by
    intro t ht r hr v hv
    obtain ⟨r', hr', rfl⟩ := List.mem_map.1 hr
    obtain ⟨v', hv', rfl⟩ := List.mem_map.1 hv
    have := ht r' hr' v' hv'
    cases h : num v' <;> simp_all [Num.isNan]
  exact ⟨key hv.1, key hv.2⟩

private theorem dropped_full {num : V → Num} {m : Meta V} {k : Nat} (hv : NothingMissing num m) :
    NothingMissing num (withoutAlgorithm k m) := by
  refine ⟨hv.1, fun r hr v hv' => ?_⟩
  obtain ⟨r', hr', rfl⟩ := List.mem_map.1 hr
  exact hv.2 r' hr' v (List.mem_of_mem_eraseIdx hv')

/-- What PRELIM finds for each instance, with and without the algorithm. -/
private theorem run_dropped {num : V → Num} {env : Env V W} {m : Meta V} {l : List V} {s : Option (List V)}
    (hm : Fitting l s m) (hv : NothingMissing num m) (hden : env.subset.byDensity = false) (halgos : env.algos = none)
    (htup : ∀ k s vs out, env.rest k s vs = .ok out → out.map Prod.fst = (outputs s).map Prod.fst) {k : Nat}
    (hk : k < m.algorithmNames.length)
    {order : List Stg} {π : Builder.SetOrder Stg} {sched : List (List Stg)}
    (horder : order.Perm defaultStages) (hs : buildDefault order π = .ok sched)
    (ops ops' : List (Op Stg Name (Val V W))) {d d' : Dict Name (Val V W)}
    (h : contents (runAll (runner order sched (run env)) (exec (runner order sched (run env)) ops).st
      (args env num m)) = .ok d)
    (h' : contents (runAll (runner order sched (run env)) (exec (runner order sched (run env)) ops').st
      (args env num (withoutAlgorithm k m))) = .ok d') {R : Prelim.Row → Prelim.Row → Prop}
    (hR : ∀ r ∈ m.algorithms, ∀ v, r[k]? = some v → ∀ out out', Prelim.rowStep env.prelim (r.map num) = some out →
      Prelim.rowStep env.prelim ((r.eraseIdx k).map num) = some out' → R out out') :
    ∃ a a' : Prelim.Arrays (List Num) (List Num) (List Bool) Nat Num Nat V V,
      (∀ {Q : List Bool → List Bool → Prop}, (∀ u u', R u u' → Q u.yBin u'.yBin) →
        List.Forall₂ Q a.yBin a'.yBin) ∧
      (∀ {Q : Num → Num → Prop}, (∀ u u', R u u' → Q u.yBest u'.yBest) → List.Forall₂ Q a.yBest a'.yBest) ∧
      (∀ {Q : Nat → Nat → Prop}, (∀ u u', R u u' → Q u.p u'.p) → List.Forall₂ Q a.p a'.p) ∧
      (d .y_bin = some (.verdicts a.yBin) ∧ d' .y_bin = some (.verdicts a'.yBin)) ∧
      (d .y_best = some (.numbers a.yBest) ∧ d' .y_best = some (.numbers a'.yBest)) ∧
      d .p = some (.counts a.p) ∧ d' .p = some (.counts a'.p) := by
  rw [contents_apply horder hs] at h h'
  obtain ⟨rest, e, hrest⟩ := drop_schedule horder hs
  rw [e] at h h'
  have hkeep : ∀ n ∈ [Name.y_bin, .y_best, .p], ∀ s ∈ rest, (s = Stg.pilot ∨ s = .pythia ∨ s = .cloister ∨
      s = .trace) ∧ n ∉ (outputs s).map Prod.fst := fun n hn s hs => ⟨hrest s hs, by
    simp only [List.mem_cons, List.not_mem_nil, or_false] at hn
    rcases hn with rfl | rfl | rfl <;> rcases hrest s hs with rfl | rfl | rfl | rfl <;> decide⟩
  have hm' := dropped_fitting hm hk
  obtain ⟨o, outs, ys, a, dense, c, q, r1, r2, r3, r4, r5, r6, hlast⟩ := front hm h
  obtain ⟨o', outs', ys', a', dense', c', q', r1', r2', r3', r4', r5', r6', hlast'⟩ := front hm' h'
  have f1 := full_received (l := l) (s := s) hv
  have f1' := full_received (l := l) (s := s) (dropped_full (k := k) hv)
  obtain ⟨x, feat, y, al, e1, e2, rfl, fo⟩ := Preprocessing.run_full (received_fits hm) rfl f1.1 f1.2 r1
  obtain ⟨x', feat', y', al', e1', e2', rfl, fo'⟩ := Preprocessing.run_full (received_fits hm') rfl f1'.1 f1'.2 r1'
  have ex : Preprocessing.select (received num l s m).x (received num l s m).feat env.feats = .ok (x', feat') := e1'
  rw [e1] at ex
  cases ex
  rw [halgos] at e2 e2'
  cases e2
  cases e2'
  dsimp only at r2 r2' r3 r3' r4 r4' hlast hlast'
  have hrows : (received num l s (withoutAlgorithm k m)).y.rows =
      (received num l s m).y.rows.map (·.eraseIdx k) := by
    simp only [received, withoutAlgorithm, List.map_map]
    apply List.map_congr_left
    intro r _
    simp [Function.comp, erase_map]
  rw [hrows] at r2'
  have hall : List.Forall₂ R outs outs' := step_rel' (fun r hr out out' g g' => by
    obtain ⟨r0, hr0, rfl⟩ := List.mem_map.1 hr
    have hl : k < r0.length := by rw [hm.algorithms r0 hr0]; exact hk
    refine hR r0 hr0 _ (List.getElem?_eq_getElem hl) out out' g ?_
    rw [← erase_map]
    exact g') r2 r2'
  obtain ⟨g1, g2, g3⟩ := filter_performances hden (by simp [arrays]) r4 r4'
  refine ⟨a, a', fun hQ => g1 (forall_map _ hQ hall), fun hQ => g2 (forall_map _ hQ hall),
    fun hQ => g3 (forall_map _ hQ hall), ⟨?_, ?_⟩, ⟨?_, ?_⟩, ?_, ?_⟩
  · exact (rest_keeps htup (hkeep _ (by decide)) hlast).trans rfl
  · exact (rest_keeps htup (hkeep _ (by decide)) hlast').trans rfl
  · exact (rest_keeps htup (hkeep _ (by decide)) hlast).trans rfl
  · exact (rest_keeps htup (hkeep _ (by decide)) hlast').trans rfl
  · exact (rest_keeps htup (hkeep _ (by decide)) hlast).trans rfl
  · exact (rest_keeps htup (hkeep _ (by decide)) hlast').trans rfl

/-- **C229, the verdicts.** If no value is missing, all algorithms are used and the density option is off, leaving out
the algorithm at position `k`, to which on every instance some other algorithm is at least as good, leaves the
verdicts on all others and the best performances in the output of the pipeline alone. -/
theorem C229_verdicts_partial {num : V → Num} {env : Env V W} {m : Meta V} {l : List V} {s : Option (List V)}
    (hm : Fitting l s m) (full : NothingMissing num m) (sparse : env.subset.byDensity = false)
    (all : env.algos = none)
    (tuples : ∀ k s vs out, env.rest k s vs = .ok out → out.map Prod.fst = (outputs s).map Prod.fst) {k : Nat}
    (hk : k < m.algorithmNames.length) (dominated : NowhereBetter num env.prelim.maxPerf m k)
    {order : List Stg} {π : Builder.SetOrder Stg} {sched : List (List Stg)}
    (horder : order.Perm defaultStages) (hs : buildDefault order π = .ok sched)
    (ops ops' : List (Op Stg Name (Val V W))) {d d' : Dict Name (Val V W)}
    (h : contents (runAll (runner order sched (run env)) (exec (runner order sched (run env)) ops).st
      (args env num m)) = .ok d)
    (h' : contents (runAll (runner order sched (run env)) (exec (runner order sched (run env)) ops').st
      (args env num (withoutAlgorithm k m))) = .ok d') : SameVerdicts k d d' := by
  obtain ⟨a, a', g1, g2, -, ⟨b1, b2⟩, ⟨c1, c2⟩, -⟩ := run_dropped hm full sparse all tuples hk horder hs ops ops' h h'
    (R := fun u u' => (∃ g, Prelim.WithExtra k g u'.yBin u.yBin) ∧ u.yBest = u'.yBest) (by
      intro r hr v hv out out' e e'
      have hl := (List.getElem?_eq_some_iff.1 hv).1
      have hx : Prelim.WithExtra k (num v) ((r.eraseIdx k).map num) (r.map num) := by
        rw [← erase_map]
        exact extra_erase (by rw [List.getElem?_map, hv]; rfl)
      obtain ⟨b, hb, hbv⟩ := dominated r hr v hv
      obtain ⟨g, w, q1, -, q2, -⟩ := Prelim.C150_verdicts env.prelim _ _ k (num v) out' out
        (by rw [List.length_map, List.length_eraseIdx_of_lt hl]; omega) hx
        (.inr ⟨num b, List.mem_map_of_mem hb, hbv⟩) e' e
      exact ⟨⟨g, q1⟩, q2⟩)
  refine ⟨⟨_, _, b1, b2, g1 fun u u' h => h.1⟩, _, c1, ?_⟩
  rw [c2, forall_eq (g2 (Q := (· = ·)) fun u u' h => h.2)]

/-- **C229 (part), the best algorithm.** If on every instance the best of the others is better than the algorithm at
position `k`, and performances are maximised or compared absolutely or no best performance is 0, leaving it out
also leaves the best algorithm of every instance alone. Missing: best performances 0 minimised relatively
(`C229_refuted`). -/
theorem C229_best_partial {num : V → Num} {env : Env V W} {m : Meta V} {l : List V} {s : Option (List V)}
    (hm : Fitting l s m) (full : NothingMissing num m) (sparse : env.subset.byDensity = false)
    (all : env.algos = none)
    (tuples : ∀ k s vs out, env.rest k s vs = .ok out → out.map Prod.fst = (outputs s).map Prod.fst) {k : Nat}
    (hk : k < m.algorithmNames.length) (beaten : NowhereBest num env.prelim.maxPerf m k)
    (exact_best : env.prelim.maxPerf = true ∨ env.prelim.absPerf = true ∨
      ∀ r ∈ m.algorithms, ¬ Prelim.IsBest env.prelim.maxPerf ((r.eraseIdx k).map num) 0)
    {order : List Stg} {π : Builder.SetOrder Stg} {sched : List (List Stg)}
    (horder : order.Perm defaultStages) (hs : buildDefault order π = .ok sched)
    (ops ops' : List (Op Stg Name (Val V W))) {d d' : Dict Name (Val V W)}
    (h : contents (runAll (runner order sched (run env)) (exec (runner order sched (run env)) ops).st
      (args env num m)) = .ok d)
    (h' : contents (runAll (runner order sched (run env)) (exec (runner order sched (run env)) ops').st
      (args env num (withoutAlgorithm k m))) = .ok d') : BestUnmoved k d d' := by
  obtain ⟨a, a', -, -, g3, -, -, b1, b2⟩ := run_dropped hm full sparse all tuples hk horder hs ops ops' h h'
    (R := fun u u' => u.p = Prelim.shifted k u'.p) (by
      intro r hr v hv out out' e e'
      have hl := (List.getElem?_eq_some_iff.1 hv).1
      have hx : Prelim.WithExtra k (num v) ((r.eraseIdx k).map num) (r.map num) := by
        rw [← erase_map]
        exact extra_erase (by rw [List.getElem?_map, hv]; rfl)
      obtain ⟨b, hb, hw, hne, hbv⟩ := beaten r hr v hv
      refine Prelim.C150_partial env.prelim _ _ k (num v) b out' out
        (by rw [List.length_map, List.length_eraseIdx_of_lt hl]; omega) hx hb hw (.inr ⟨hne, hbv⟩) ?_ e' e
      rcases exact_best with h | h | h
      · exact .inl h
      · exact .inr (.inl h)
      · exact .inr (.inr (.inl fun h0 => h r hr (h0 ▸ hb))))
  refine ⟨a'.p, b2, ?_⟩
  rw [b1]
  have := g3 (Q := fun u u' => u = Prelim.shifted k u') fun u u' h => h
  have key : ∀ {u u' : List Nat}, List.Forall₂ (fun u u' => u = Prelim.shifted k u') u u' →
      u = u'.map (Prelim.shifted k) := by
    intro u u' h
    induction h with
    | nil => rfl
    | cons h _ ih => rw [h, ih, List.map_cons]
  rw [key this]

/-- The full claim for the best algorithm, without conditions on the options. -/
def DroppedIsIrrelevant (V W : Type) : Prop :=
  ∀ (num : V → Num) (env : Env V W) (m : Meta V) (l : List V) (s : Option (List V)) (k : Nat)
    (d d' : Dict Name (Val V W)),
    Fitting l s m → NothingMissing num m → env.subset.byDensity = false → env.algos = none →
    (∀ k s vs out, env.rest k s vs = .ok out → out.map Prod.fst = (outputs s).map Prod.fst) →
    k < m.algorithmNames.length → NowhereBest num env.prelim.maxPerf m k →
    contents (runAll (runner defaultStages Pipeline.defaultSchedule (run env)) Runner.State.init
      (args env num m)) = .ok d →
    contents (runAll (runner defaultStages Pipeline.defaultSchedule (run env)) Runner.State.init
      (args env num (withoutAlgorithm k m))) = .ok d' → BestUnmoved k d d'

/-! ### Cases -/

/-- Six instances with two features and three algorithms, of which the second is nowhere the best. -/
def threeMeta : Meta Nat where
  featureNames := ["feature_a", "feature_b"]
  algorithmNames := ["algo_p", "algo_r", "algo_q"]
  labels := .series [10, 11, 12, 13, 14, 15]
  sources := none
  features := [[1, 1], [2, 5], [3, 2], [1, 4], [2, 1], [5, 3]]
  algorithms := [[4, 2, 2], [1, 0, 0], [5, 2, 1], [3, 1, 1], [3, 2, 2], [4, 1, 1]]

theorem three_fitting : Fitting [10, 11, 12, 13, 14, 15] none threeMeta where
  labels := rfl
  sources := rfl
  features := by decide
  algorithms := by decide
  rows := rfl
  labelled := rfl
  sourced := by rintro _ ⟨⟩

private theorem best_of {row : List Num} {b : ℚ} (hb : Num.fin b ∈ row)
    (h : row.all (fun c => c.le (.fin b)) = true) : Prelim.IsBest true row (.fin b) :=
  ⟨hb, by simp, fun c hc _ => by
    have := List.all_eq_true.1 h c hc
    simpa [Prelim.AtLeastAsGood] using this⟩

theorem three_beaten : NowhereBest lateNum true threeMeta 1 := by
  intro r hr v hv
  simp only [threeMeta, List.mem_cons, List.not_mem_nil, or_false] at hr
  rcases hr with rfl | rfl | rfl | rfl | rfl | rfl <;> cases hv
  · exact ⟨.fin 4, best_of (by decide +kernel) (by decide +kernel), by decide, by decide +kernel, by
      change Num.le _ _ = true; decide +kernel⟩
  · exact ⟨.fin 1, best_of (by decide +kernel) (by decide +kernel), by decide, by decide +kernel, by
      change Num.le _ _ = true; decide +kernel⟩
  · exact ⟨.fin 5, best_of (by decide +kernel) (by decide +kernel), by decide, by decide +kernel, by
      change Num.le _ _ = true; decide +kernel⟩
  · exact ⟨.fin 3, best_of (by decide +kernel) (by decide +kernel), by decide, by decide +kernel, by
      change Num.le _ _ = true; decide +kernel⟩
  · exact ⟨.fin 3, best_of (by decide +kernel) (by decide +kernel), by decide, by decide +kernel, by
      change Num.le _ _ = true; decide +kernel⟩
  · exact ⟨.fin 4, best_of (by decide +kernel) (by decide +kernel), by decide, by decide +kernel, by
      change Num.le _ _ = true; decide +kernel⟩

-- The hypotheses of `C229_verdicts_partial` and `C229_best_partial` hold, and both runs complete all stages.
example : Fitting [10, 11, 12, 13, 14, 15] none threeMeta ∧ NothingMissing lateNum threeMeta ∧
    (allEnv false).subset.byDensity = false ∧ (allEnv false).algos = none ∧
    (∀ k s vs out, (allEnv false).rest k s vs = .ok out → out.map Prod.fst = (outputs s).map Prod.fst) ∧
    NowhereBest lateNum (allEnv false).prelim.maxPerf threeMeta 1 ∧
    NowhereBetter lateNum (allEnv false).prelim.maxPerf threeMeta 1 ∧ (allEnv false).prelim.maxPerf = true ∧
    raisedIn (contents (runAll (runner defaultStages Pipeline.defaultSchedule (run (allEnv false))) Runner.State.init
      (args (allEnv false) lateNum threeMeta))) = 0 ∧
    raisedIn (contents (runAll (runner defaultStages Pipeline.defaultSchedule (run (allEnv false))) Runner.State.init
      (args (allEnv false) lateNum (withoutAlgorithm 1 threeMeta)))) = 0 :=
  ⟨three_fitting, (by constructor <;> intro r _ v _ h <;> cases h), rfl, rfl, (all_complete false).complete.tuples,
    three_beaten, (fun r hr v hv => by
      obtain ⟨b, hb, -, -, h⟩ := three_beaten r hr v hv
      obtain ⟨c, hc, rfl⟩ := List.mem_map.1 hb.mem
      exact ⟨c, hc, h⟩), rfl, by decide +kernel, by decide +kernel⟩

/-- The number 0 and the machine epsilon. -/
def tinyNum (n : Nat) : Num := if n = 0 then 0 else .fin Num.eps

/-- Three algorithms; the first takes no time, the others the machine epsilon. -/
def tinyMeta : Meta Nat where
  featureNames := ["feature_a", "feature_b"]
  algorithmNames := ["algo_p", "algo_q", "algo_r"]
  labels := .series [10, 11]
  sources := none
  features := [[1, 0], [0, 1]]
  algorithms := [[0, 1, 1], [0, 1, 1]]

/-- The small options with performances minimised and compared relatively. -/
def tinyEnv : Env Nat Unit :=
  { smallEnv noSubset none with prelim := ⟨false, false, .fin (1 / 20), .fin 1, false, false⟩ }

/-- The best algorithms in an output. -/
def bestIn (r : Except (RunError Name Err) (Dict Name (Val Nat Unit))) : Option (List Nat) :=
  match r with
  | .ok d =>
    match d .p with
    | some (.counts l) => some l
    | _ => none
  | _ => none

/-- **C229, refuted in full.** Best performances 0 that are minimised relatively become the machine epsilon before the
ties are looked for, so leaving out one of two algorithms with this performance changes which algorithm is named as
the best. -/
theorem C229_refuted : ¬ DroppedIsIrrelevant Nat Unit := by
  intro hall
  have h1 : bestIn (contents (runAll (runner defaultStages Pipeline.defaultSchedule (run tinyEnv))
      Runner.State.init (args tinyEnv tinyNum tinyMeta))) = some [2, 2] := by decide +kernel
  have h2 : bestIn (contents (runAll (runner defaultStages Pipeline.defaultSchedule (run tinyEnv))
      Runner.State.init (args tinyEnv tinyNum (withoutAlgorithm 2 tinyMeta)))) = some [1, 1] := by decide +kernel
  cases e1 : contents (runAll (runner defaultStages Pipeline.defaultSchedule (run tinyEnv))
      Runner.State.init (args tinyEnv tinyNum tinyMeta)) with
  | error e => rw [e1] at h1; cases h1
  | ok d =>
    cases e2 : contents (runAll (runner defaultStages Pipeline.defaultSchedule (run tinyEnv))
      Runner.State.init (args tinyEnv tinyNum (withoutAlgorithm 2 tinyMeta))) with
    | error e => rw [e2] at h2; cases h2
    | ok d' =>
      obtain ⟨p, g1, g2⟩ := hall tinyNum tinyEnv tinyMeta [10, 11] none 2 d d'
        ⟨rfl, rfl, by decide, by decide, rfl, rfl, by rintro _ ⟨⟩⟩
        (by constructor <;> intro r _ v _ h <;> unfold tinyNum at h <;> split at h <;> cases h) rfl rfl
        (by intro k s vs out h; cases h; rw [List.map_map]; rfl) (by decide) (by
          intro r hr v hv
          simp only [tinyMeta, List.mem_cons, List.not_mem_nil, or_false] at hr
          rcases hr with rfl | rfl <;> cases hv <;>
            exact ⟨0, ⟨by decide +kernel, by decide, by
              intro c hc _
              simp only [List.eraseIdx, List.map_cons, List.map_nil, List.mem_cons, List.not_mem_nil, or_false] at hc
              rcases hc with rfl | rfl <;> (change Num.le _ _ = true; decide +kernel)⟩, by decide, by decide +kernel,
              by change Num.le _ _ = true; decide +kernel⟩) e1 e2
      rw [e1] at h1
      rw [e2] at h2
      unfold bestIn at h1 h2
      dsimp only at h1 h2
      rw [g2] at h1
      rw [g1] at h2
      dsimp only at h1 h2
      rw [Option.some.inj h2] at h1
      revert h1
      decide

end Verif.EndToEnd
