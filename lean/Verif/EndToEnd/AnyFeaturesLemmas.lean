import Verif.EndToEnd.SpecAnyFeatures
import Verif.EndToEnd.LabelLemmas
import Verif.EndToEnd.LateLemmas
import Verif.EndToEnd.RecomputeLemmas
import Verif.EndToEnd.CleanLemmas
import Verif.EndToEnd.PropsSample
import Verif.Pythia.Lemmas
/-! A completed build has finite features, whatever the last stages do with others. -/
set_option autoImplicit false
set_option linter.unusedSectionVars false

namespace Verif.EndToEnd

open Verif (Num)
open Verif.Pipeline (Stg Name)
open Verif.Preprocessing (Mat)

variable {V W : Type}

/-! ### `run_all` as stages applied one after the other -/

open Verif.Pipeline (inputs outputs runner)
open Verif.Metadata (Table Squeezed fromDataFrame)
open Verif.Runner (Dict applyAll applyStage applyStage_ok applyAll_frame override override_of_mem
  override_of_not_mem)

variable {lower : String → String} {numeric : Squeezed V → Bool} {str : V → V}
  {num : V → Num} {env env' : Env V W} {t : Table V} {d : Dict Name (Val V W)}

theorem init_index {sched : List (List Stg)}
    (h : sched = [[.preprocessing], [.prelim], [.sifted], [.pilot], [.pythia, .cloister], [.trace]] ∨
      sched = [[.preprocessing], [.prelim], [.sifted], [.pilot], [.cloister, .pythia], [.trace]]) :
    Runner.indexOf sched .preprocessing = some 0 := by
  rcases h with rfl | rfl <;> decide +kernel

/-- Values of no use: Preprocessing raises. -/
def uselessArgs (env : Env V W) : List (Name × Val V W) :=
  ((inputs .preprocessing).map Prod.fst).map fun n => (n, .other (env.fill n))

theorem useless_collect (env : Env V W) (d0 : Dict Name (Val V W)) :
    Runner.collect (d0.putAll (uselessArgs env)) ((inputs .preprocessing).map Prod.fst) =
      .ok (((inputs .preprocessing).map Prod.fst).map fun n => .other (env.fill n)) := by
  rfl

/-- Failing calls only make the log of calls longer. -/
theorem useless_calls (env : Env V W) {order : List Stg} {sched : List (List Stg)}
    (horder : order.Perm Pipeline.defaultStages)
    (h : Runner.indexOf sched .preprocessing = some 0) (k : Nat) :
    (Runner.exec (runner order sched (run env))
      (List.replicate k (.runStage .preprocessing (uselessArgs env)))).st.calls.length = k ∧
    (Runner.exec (runner order sched (run env))
      (List.replicate k (.runStage .preprocessing (uselessArgs env)))).st.cur = 0 := by
  induction k with
  | zero => exact ⟨rfl, rfl⟩
  | succ k ih =>
    have e : Runner.exec (runner order sched (run env))
        (List.replicate (k + 1) (.runStage .preprocessing (uselessArgs env))) =
        Runner.step (runner order sched (run env)) (Runner.exec (runner order sched (run env))
          (List.replicate k (.runStage .preprocessing (uselessArgs env))))
          (.runStage .preprocessing (uselessArgs env)) := by
      rw [List.replicate_succ', Runner.exec, List.foldl_append]
      rfl
    rw [e]
    generalize Runner.exec (runner order sched (run env))
      (List.replicate k (.runStage .preprocessing (uselessArgs env))) = w at ih
    obtain ⟨ih1, ih2⟩ := ih
    rw [Pipeline.runner_eq order horder]
    simp only [Runner.step, Runner.runStage, h, ih2, Nat.lt_irrefl, if_false, ne_eq, not_true_eq_false,
      Runner.execute, useless_collect]
    constructor
    · change (w.st.calls ++ [_]).length = _
      simp [ih1]
    · rfl

theorem succeeds_iff : Succeeds lower numeric str num env t d ↔
    ∃ (order : List Stg) (π : Builder.SetOrder Stg) (sched : List (List Stg)) (k : Nat),
      order.Perm Pipeline.defaultStages ∧ Pipeline.buildDefault order π = .ok sched ∧
      applyAll ⟨sched, fun s => (inputs s).map Prod.fst, run env⟩ k sched.flatten
        (args env num (fromDataFrame lower numeric str t)) = .ok d := by
  constructor
  · rintro ⟨order, π, sched, ops, h1, h2, h3⟩
    rw [contents_apply h1 h2] at h3
    exact ⟨order, π, sched, _, h1, h2, h3⟩
  · rintro ⟨order, π, sched, k, h1, h2, h3⟩
    refine ⟨order, π, sched, List.replicate k (.runStage .preprocessing (uselessArgs env)), h1, h2, ?_⟩
    rw [contents_apply h1 h2]
    have hs : Runner.indexOf sched .preprocessing = some 0 := by
      apply init_index
      rcases Pipeline.C10_default_schedule order h1 π with h | h <;> rw [h] at h2 <;> cases h2
      · exact .inl rfl
      · exact .inr rfl
    rw [(useless_calls env h1 hs k).1]
    exact h3

/-- No stage of the list returns, at or after its turn, what one of the last four stages receives. -/
def Settled : List Stg → Prop
  | [] => True
  | s :: l => (s ∈ [Stg.pilot, .pythia, .cloister, .trace] → ∀ t ∈ s :: l, t ∈ [Stg.pilot, .pythia, .cloister, .trace] ∧
      ∀ n ∈ (inputs s).map Prod.fst, n ∉ (outputs t).map Prod.fst) ∧ Settled l

instance : DecidablePred Settled := fun l => by
  induction l with
  | nil => exact isTrue trivial
  | cons s l ih => unfold Settled; infer_instance

theorem rest_run (env : Env V W) {s : Stg} (hs : s ∈ [Stg.pilot, .pythia, .cloister, .trace]) (k : Nat)
    (vs : List (Val V W)) : run env k s vs = env.rest k s vs := by
  simp only [List.mem_cons, List.not_mem_nil, or_false] at hs
  rcases hs with rfl | rfl | rfl | rfl <;> rfl

/-- Two pipelines whose stages agree on what is left behind leave the same behind. -/
theorem applyAll_settled {run' : Nat → Stg → List (Val V W) → Except Err (List (Name × Val V W))}
    (htup : ∀ k s vs out, env.rest k s vs = .ok out → out.map Prod.fst = (outputs s).map Prod.fst)
    (hfirst : ∀ k s vs, s ∉ [Stg.pilot, .pythia, .cloister, .trace] → run' k s vs = run env k s vs)
    (hlate : ∀ k s vs out, s ∈ [Stg.pilot, .pythia, .cloister, .trace] → env.rest k s vs = .ok out →
      ((inputs s).map Prod.fst).map d = vs.map some → run' k s vs = .ok out) (sched : List (List Stg)) :
    ∀ (l : List Stg) (k : Nat) (d1 : Dict Name (Val V W)), Settled l →
      applyAll ⟨sched, fun s => (inputs s).map Prod.fst, run env⟩ k l d1 = .ok d →
      applyAll ⟨sched, fun s => (inputs s).map Prod.fst, run'⟩ k l d1 = .ok d
  | [], k, d1, _, h => h
  | s :: l, k, d1, hl, h => by
    unfold applyAll at h ⊢
    cases hst : applyStage ⟨sched, fun s => (inputs s).map Prod.fst, run env⟩ k s d1 with
    | error e => rw [hst] at h; cases h
    | ok d2 =>
    rw [hst] at h
    dsimp only at h
    have ih := applyAll_settled htup hfirst hlate sched l (k + 1) d2 hl.2 h
    have same : run' k s (((inputs s).map Prod.fst).filterMap d1) =
        run env k s (((inputs s).map Prod.fst).filterMap d1) := by
      by_cases hs : s ∈ [Stg.pilot, .pythia, .cloister, .trace]
      swap
      · exact hfirst _ _ _ hs
      obtain ⟨p1, out, r1, rfl⟩ := applyStage_ok hst
      have r1' : env.rest k s (((inputs s).map Prod.fst).filterMap d1) = .ok out := by
        rw [← rest_run env hs]; exact r1
      rw [rest_run env hs, r1']
      refine hlate _ _ _ _ hs r1' ?_
      rw [← filterMap_some p1 rfl]
      refine List.map_congr_left fun n hn => ?_
      have : d n = override d1 out n := by
        refine applyAll_frame ?_ h
        rintro t ht ⟨j, vs, o, h1, h2⟩
        obtain ⟨g1, g2⟩ := hl.1 hs t (List.mem_cons_of_mem _ ht)
        change run env j t vs = .ok o at h1
        rw [rest_run env g1] at h1
        exact g2 n hn (htup _ _ _ _ h1 ▸ h2)
      rw [this]
      exact override_of_not_mem (by
        rw [htup _ _ _ _ r1']; exact (hl.1 hs s (List.mem_cons_self ..)).2 n hn)
    have hst' : applyStage ⟨sched, fun s => (inputs s).map Prod.fst, run'⟩ k s d1 = .ok d2 := by
      rw [← hst]
      unfold applyStage
      dsimp only
      rw [same]
    rw [hst']
    exact ih

/-- If the last stages of another pipeline return the same on what is left behind, it leaves the same behind. -/
theorem succeeds_other {rest : Nat → Stg → List (Val V W) → Except Err (List (Name × Val V W))}
    (htup : ∀ k s vs out, env.rest k s vs = .ok out → out.map Prod.fst = (outputs s).map Prod.fst)
    (hlate : ∀ k s vs out, s ∈ [Stg.pilot, .pythia, .cloister, .trace] → env.rest k s vs = .ok out →
      ((inputs s).map Prod.fst).map d = vs.map some → rest k s vs = .ok out)
    (h : Succeeds lower numeric str num env t d) :
    Succeeds lower numeric str num { env with rest := rest } t d := by
  rw [succeeds_iff] at h ⊢
  obtain ⟨order, π, sched, k, h1, h2, h3⟩ := h
  refine ⟨order, π, sched, k, h1, h2, ?_⟩
  refine applyAll_settled (env := env) htup (fun k s vs hs => ?_) (fun k s vs out hs he hd => ?_) sched _ _ _ ?_ h3
  · cases s <;> first | rfl | exact absurd (by decide) hs
  · rw [rest_run _ hs]
    exact hlate k s vs out hs he hd
  · rcases Pipeline.C10_default_schedule order h1 π with h | h <;> rw [h] at h2 <;> cases h2 <;> decide +kernel

/-! ### Numbers that are not finite -/

theorem add_finite {a b : Num} {q : ℚ} (h : a + b = .fin q) : (∃ q, a = .fin q) ∧ ∃ q, b = .fin q := by
  cases a <;> cases b <;> first | exact ⟨⟨_, rfl⟩, _, rfl⟩ | cases h

theorem infSign_infinite {a q : ℚ} : Num.infSign a ≠ .fin q := by
  unfold Num.infSign
  intro h
  split at h
  · cases h
  · split at h <;> cases h

theorem mul_finite {a b : Num} {q : ℚ} (h : a * b = .fin q) : (∃ q, a = .fin q) ∧ ∃ q, b = .fin q := by
  cases a <;> cases b <;> first
    | exact ⟨⟨_, rfl⟩, _, rfl⟩
    | exact absurd h infSign_infinite
    | cases h

theorem sum_finite : ∀ {l : List Num} {q : ℚ}, l.foldr (· + ·) 0 = .fin q → ∀ v ∈ l, ∃ q, v = .fin q
  | [], q, _ => by simp
  | a :: l, q, h => by
    obtain ⟨h1, q', h2⟩ := add_finite (a := a) h
    intro v hv
    rcases List.mem_cons.1 hv with rfl | hv
    · exact h1
    · exact sum_finite h2 v hv

theorem weigh_finite {n : Nat} {r : List Num} {a : Fin n → Num} {q : ℚ} (h : weigh r a = .fin q) : FinCol n r := by
  unfold weigh at h
  split at h
  swap
  · cases h
  rename_i hl
  rw [finCol_iff]
  refine ⟨hl, fun v hv => ?_⟩
  obtain ⟨j, hj, rfl⟩ := List.mem_iff_getElem.1 hv
  have := sum_finite h (r[j] * a ⟨j, hl ▸ hj⟩) (by
    rw [List.mem_ofFn]
    exact ⟨⟨j, hl ▸ hj⟩, by simp [List.getD_eq_getElem?_getD, hj]⟩)
  obtain ⟨q', hq⟩ := this
  exact (mul_finite hq).1

/-- If all coordinates are finite, so are all features. -/
theorem projected_finite {x : Mat Num} {a : Fin 2 → Fin x.ncols → Num} (h : isFinite (projected x a) = true) :
    isFinite x = true := by
  rw [isFinite_iff] at h ⊢
  intro r hr
  have := h _ (List.mem_map_of_mem (f := fun r => [weigh r (a 0), weigh r (a 1)]) hr)
  obtain ⟨q, hq⟩ := (finCol_iff.1 this).2 (weigh r (a 0)) (by simp)
  exact weigh_finite hq

/-! ### The last stages -/

variable {le : Nat → Late V W} {bl : Nat → Beyond V W}

theorem fullPilot_ok {le : Late V W} {bl : Beyond V W} {vs : List (Val V W)} {out : List (Name × Val V W)}
    (h : fullPilot le bl vs = .ok out) : ∃ x y feat opts, vs = [.table x, .table y, .names feat, opts] ∧
      ((isFinite x = true ∧ runPilot le vs = .ok out) ∨ ∃ a, (.z, .table (projected x a)) ∈ out) ∧
      out.map Prod.fst = (outputs .pilot).map Prod.fst := by
  unfold fullPilot at h
  split at h
  swap
  · cases h
  rename_i x y feat opts
  refine ⟨x, y, feat, opts, rfl, ?_⟩
  split at h
  · rename_i hx
    refine ⟨.inl ⟨hx, h⟩, ?_⟩
    obtain ⟨_, _, _, _, _, _, _, _, _, _, rfl⟩ := runPilot_ok h
    rfl
  · split at h
    · cases h
    · rename_i a other _
      cases h
      exact ⟨.inr ⟨a, by simp⟩, rfl⟩

theorem fullCloister_ok {le : Late V W} {bl : Beyond V W} {vs : List (Val V W)} {out : List (Name × Val V W)}
    (h : fullCloister le bl vs = .ok out) : ∃ x a opts, vs = [.table x, .table a, opts] ∧
      (isFinite x = true → runCloister le vs = .ok out) ∧
      out.map Prod.fst = (outputs .cloister).map Prod.fst := by
  unfold fullCloister at h
  split at h
  swap
  · cases h
  rename_i x a opts
  refine ⟨x, a, opts, rfl, ?_⟩
  split at h
  · refine ⟨fun _ => h, ?_⟩
    obtain ⟨_, _, _, _, _, _, _, _, _, _, _, rfl⟩ := runCloister_ok h
    rfl
  · rename_i hx
    split at h
    · cases h
    · cases h
      exact ⟨fun h => absurd h hx, rfl⟩

theorem fullPythia_ok {le : Late V W} {vs : List (Val V W)} {out : List (Name × Val V W)}
    (h : fullPythia le vs = .ok out) : (∃ z l, vs = .table z :: l ∧ isFinite z = true) ∧
      runPythia le vs = .ok out ∧ out.map Prod.fst = (outputs .pythia).map Prod.fst := by
  obtain ⟨z, y, yBin, yBest, algo, o1, o2, w, o, rfl, hw, hp, rfl⟩ := runPythia_ok h
  obtain ⟨ht, hn, -⟩ := Pythia.pythia_ok hp
  obtain ⟨res, hres, -⟩ := (Pythia.train_isOk _ _).1 ⟨_, ht⟩ 0 (List.mem_range.2 (by omega))
  have hz : isFinite z = true := by
    dsimp only at hres
    split at hres
    · assumption
    · cases hres
  refine ⟨⟨z, _, rfl, hz⟩, ?_, rfl⟩
  unfold runPythia
  dsimp only
  dsimp only at hw hp
  rw [hw]
  dsimp only
  simp only [hz, if_true] at hp
  rw [hp]
  rfl

theorem AnyFeatures.tuples (hc : AnyFeatures env le bl) (k : Nat) (s : Stg) (vs : List (Val V W))
    (out : List (Name × Val V W)) (h : env.rest k s vs = .ok out) :
    out.map Prod.fst = (outputs s).map Prod.fst := by
  rw [hc.stages] at h
  cases s with
  | pilot =>
    obtain ⟨_, _, _, _, _, _, h⟩ := fullPilot_ok h
    exact h
  | pythia => exact (fullPythia_ok h).2.2
  | cloister =>
    obtain ⟨_, _, _, _, _, h⟩ := fullCloister_ok h
    exact h
  | trace => exact hc.trace k vs out h
  | preprocessing => cases h
  | prelim => cases h
  | sifted => cases h

/-- The features of a completed build are finite. -/
theorem features_finite (hc : AnyFeatures env le bl) (h : Succeeds lower numeric str num env t d) :
    ∃ x, d .x = some (.table x) ∧ isFinite x = true := by
  obtain ⟨k, vs, out, h1, h2, h3⟩ := succeeds_rest hc.tuples h .pilot (by decide)
  rw [hc.stages] at h1
  obtain ⟨x, y, feat, opts, rfl, h4, -⟩ := fullPilot_ok h1
  simp only [inputs, List.map_cons, List.map_nil, List.cons.injEq] at h2
  refine ⟨x, h2.1, ?_⟩
  rcases h4 with h4 | ⟨a, ha⟩
  · exact h4.1
  · have hz := h3 _ _ ha
    obtain ⟨k', vs', out', g1, g2, -⟩ := succeeds_rest hc.tuples h .pythia (by decide)
    rw [hc.stages] at g1
    obtain ⟨⟨z, l, rfl, hf⟩, -⟩ := fullPythia_ok g1
    simp only [inputs, List.map_cons, List.map_nil, List.cons.injEq] at g2
    rw [hz] at g2
    have := g2.1
    simp only [Option.some.injEq, Val.table.injEq] at this
    subst this
    exact projected_finite hf

theorem finite_complete (hc : AnyFeatures env le bl) : Complete (env.finiteFeatures le) le :=
  ⟨fun _ _ _ => rfl, hc.trace⟩

theorem finite_succeeds (hc : AnyFeatures env le bl) (h : Succeeds lower numeric str num env t d) :
    Succeeds lower numeric str num (env.finiteFeatures le) t d := by
  obtain ⟨x, hx, hf⟩ := features_finite hc h
  refine succeeds_other hc.tuples (fun k s vs out hs he hd => ?_) h
  rw [hc.stages] at he
  cases s with
  | pilot =>
    obtain ⟨x', y, feat, opts, rfl, h4, -⟩ := fullPilot_ok he
    simp only [inputs, List.map_cons, List.map_nil, List.cons.injEq] at hd
    have hx' := hd.1
    rw [hx] at hx'
    simp only [Option.some.injEq, Val.table.injEq] at hx'
    subst hx'
    unfold fullLate fullPilot at he
    dsimp only at he
    rw [if_pos hf] at he
    exact he
  | pythia => exact (fullPythia_ok he).2.1
  | cloister =>
    obtain ⟨x', a, opts, rfl, h4, -⟩ := fullCloister_ok he
    simp only [inputs, List.map_cons, List.map_nil, List.cons.injEq] at hd
    have hx' := hd.1
    rw [hx] at hx'
    simp only [Option.some.injEq, Val.table.injEq] at hx'
    subst hx'
    exact h4 hf
  | trace => exact he
  | preprocessing => exact absurd hs (by decide)
  | prelim => exact absurd hs (by decide)
  | sifted => exact absurd hs (by decide)

/-! ### Missing feature values in PRELIM -/

theorem wiped_getD {α : Type} (l : List α) (q : Nat) : (l.map fun _ => Num.nan).getD q .nan = .nan := by
  rw [List.getD_eq_getElem?_getD, List.getElem?_map]
  cases l[q]? <;> rfl

theorem feature_wiped (env : Env V W) {col : List Num} (h : .nan ∈ col)
    (ho : env.prelim.bound = true ∨ env.prelim.norm = true) (q : Nat) :
    (featureStep env col).getD q .nan = .nan := by
  unfold featureStep
  have hb : env.prelim.bound = true → Num.nan ∈ Prelim.boundCol env.junk col := by
    intro _
    rw [Prelim.C87_wiped_partial _ _ h]
    exact List.mem_map.2 ⟨_, h, rfl⟩
  cases h1 : env.prelim.bound <;> cases h2 : env.prelim.norm
  · simp [h1, h2] at ho
  · simp only [if_true, Bool.false_eq_true, if_false, id]
    rw [Prelim.C42_x_wiped_partial _ _ h]
    exact wiped_getD _ _
  · simp only [if_true, Bool.false_eq_true, if_false, id]
    rw [Prelim.C87_wiped_partial _ _ h]
    exact wiped_getD _ _
  · simp only [if_true]
    rw [Prelim.C42_x_wiped_partial _ _ (hb h1)]
    exact wiped_getD _ _

theorem feature_gap (env : Env V W) {col : List Num} {q : Nat} (h : col[q]? = some .nan) :
    (featureStep env col).getD q .nan = .nan := by
  by_cases ho : env.prelim.bound = true ∨ env.prelim.norm = true
  · exact feature_wiped env (List.mem_of_getElem? h) ho q
  · rw [not_or, Bool.not_eq_true, Bool.not_eq_true] at ho
    unfold featureStep
    rw [ho.1, ho.2]
    simp [List.getD_eq_getElem?_getD, h]

theorem Route.gap {x : Mat Num} {a : Prelim.Arrays (List Num) (List Num) (List Bool) Nat Num Nat V V}
    {sel : Sifted.Out (List Num)} (h : Route env d x a sel) {k j i : Nat}
    (hs : sel.selvars[j]? = some i) (hn : At a.xRaw k i .nan) :
    At (rowsOf a.x.length sel.x) k j .nan := by
  obtain ⟨r', hr', hi'⟩ := hn
  have hk : k < a.x.length := by
    rw [h.same]
    exact (List.getElem?_eq_some_iff.1 hr').1
  have hi := h.inRange i (List.mem_of_getElem? hs)
  obtain ⟨q, h1, h2⟩ := h.rows k _ (List.getElem?_eq_getElem hk)
  rw [h2] at hr'
  have hq : q < x.rows.length := (List.getElem?_eq_some_iff.1 hr').1
  rw [outX_map, rowsOf, List.getElem?_map, List.getElem?_range hq, Option.map_some, Option.some.injEq] at h1
  refine ⟨sel.x.map fun c => c.getD k .nan, by simp [rowsOf, hk], ?_⟩
  rw [List.getElem?_map, h.picked j i hs]
  simp only [Option.map_some, Option.some.injEq]
  rw [List.getD_eq_getElem?_getD, List.getElem?_map, List.getElem?_eq_getElem hk, Option.map_some,
    Option.getD_some, ← h1, List.getD_eq_getElem?_getD, List.getElem?_map, List.getElem?_map]
  have hcol : (Prelim.columns x.ncols x.rows)[i]? = some (x.rows.map fun r => r.getD i .nan) := by
    simp [Prelim.columns, hi]
  rw [hcol]
  simp only [Option.map_some, Option.getD_some]
  apply feature_gap
  rw [List.getElem?_map, hr', Option.map_some, List.getD_eq_getElem?_getD, hi']
  rfl

end Verif.EndToEnd
