import Verif.EndToEnd.SpecInfluence
import Verif.EndToEnd.ThresholdLemmas
/-!
# Lemmas about what the options of a stage can reach in a build
-/
set_option autoImplicit false
set_option linter.unusedSectionVars false

namespace Verif.EndToEnd

open Verif (Num)
open Verif.Pipeline (Stg Name inputs outputs)
open Verif.Runner (Dict override applyAll applyStage RunError Pipeline)

variable {V W : Type}

/-- The two ways in which a stage keeps agreement. -/
theorem stage_outside {ns : List Name} {s : Stg} {ps : List (Val V W × Val V W)}
    (h : List.Forall₂ (fun n q => Outside ns n q.1 q.2) ((inputs s).map Prod.fst) ps)
    {f f' : List (Val V W) → Except Err (List (Name × Val V W))} {out out' : List (Name × Val V W)}
    (e : f (ps.map Prod.fst) = .ok out) (e' : f' (ps.map Prod.snd) = .ok out')
    (hs : (f' = f ∧ ∀ n ∈ (inputs s).map Prod.fst, n ∉ ns) ∨
      ((∀ n ∈ (outputs s).map Prod.fst, n ∈ ns) ∧ out.map Prod.fst = (outputs s).map Prod.fst ∧
        out'.map Prod.fst = (outputs s).map Prod.fst)) : OutRel (Outside ns) out out' := by
  rcases hs with ⟨rfl, hn⟩ | ⟨hn, h1, h2⟩
  · rw [same_inputs h hn, e] at e'
    cases e'
    exact outside_refl _ _
  · exact outside_names hn h1 h2

theorem dict_refl (ns : List Name) (d : Dict Name (Val V W)) : DictRel (Outside ns) d d := by
  intro n
  cases d n with
  | none => exact .none
  | some v => exact .some fun _ => rfl

theorem late_step {env : Env V W} {rest' : Nat → Stg → List (Val V W) → Except Err (List (Name × Val V W))} {s : Stg}
    (late : s = .pilot ∨ s = .pythia ∨ s = .cloister ∨ s = .trace)
    (hr : ∀ k s vs out, env.rest k s vs = .ok out → out.map Prod.fst = (outputs s).map Prod.fst)
    (hr' : ∀ k s vs out, rest' k s vs = .ok out → out.map Prod.fst = (outputs s).map Prod.fst)
    (same : ∀ k t vs, t ≠ s → rest' k t vs = env.rest k t vs) (t : Stg) (k : Nat) {ps : List (Val V W × Val V W)}
    (h : List.Forall₂ (fun n q => Outside (downstream s) n q.1 q.2) ((inputs t).map Prod.fst) ps)
    {out out' : List (Name × Val V W)} (e : run env k t (ps.map Prod.fst) = .ok out)
    (e' : run { env with rest := rest' } k t (ps.map Prod.snd) = .ok out') :
    OutRel (Outside (downstream s)) out out' := by
  refine stage_outside h e e' ?_
  have hsame : ∀ t, t ≠ s → rest' k t = env.rest k t := fun t ht => funext fun vs => same k t vs ht
  cases t with
  | preprocessing => exact .inl ⟨rfl, by rcases late with rfl | rfl | rfl | rfl <;> decide⟩
  | prelim => exact .inl ⟨rfl, by rcases late with rfl | rfl | rfl | rfl <;> decide⟩
  | sifted => exact .inl ⟨rfl, by rcases late with rfl | rfl | rfl | rfl <;> decide⟩
  | pilot =>
    rcases late with rfl | rfl | rfl | rfl
    · exact .inr ⟨by decide, hr _ _ _ _ e, hr' _ _ _ _ e'⟩
    · exact .inl ⟨hsame _ (by decide), by decide⟩
    · exact .inl ⟨hsame _ (by decide), by decide⟩
    · exact .inl ⟨hsame _ (by decide), by decide⟩
  | pythia =>
    rcases late with rfl | rfl | rfl | rfl
    · exact .inr ⟨by decide, hr _ _ _ _ e, hr' _ _ _ _ e'⟩
    · exact .inr ⟨by decide, hr _ _ _ _ e, hr' _ _ _ _ e'⟩
    · exact .inl ⟨hsame _ (by decide), by decide⟩
    · exact .inl ⟨hsame _ (by decide), by decide⟩
  | cloister =>
    rcases late with rfl | rfl | rfl | rfl
    · exact .inr ⟨by decide, hr _ _ _ _ e, hr' _ _ _ _ e'⟩
    · exact .inl ⟨hsame _ (by decide), by decide⟩
    · exact .inr ⟨by decide, hr _ _ _ _ e, hr' _ _ _ _ e'⟩
    · exact .inl ⟨hsame _ (by decide), by decide⟩
  | trace =>
    rcases late with rfl | rfl | rfl | rfl
    · exact .inr ⟨by decide, hr _ _ _ _ e, hr' _ _ _ _ e'⟩
    · exact .inr ⟨by decide, hr _ _ _ _ e, hr' _ _ _ _ e'⟩
    · exact .inl ⟨hsame _ (by decide), by decide⟩
    · exact .inr ⟨by decide, hr _ _ _ _ e, hr' _ _ _ _ e'⟩

/-- Agreement is kept by all stages if it is kept by each. -/
theorem all_outside {ns : List Name} {env env' : Env V W} (sched : List (List Stg)) (ss : List Stg)
    (step : ∀ t ∈ ss, ∀ k (ps : List (Val V W × Val V W)),
      List.Forall₂ (fun n q => Outside ns n q.1 q.2) ((inputs t).map Prod.fst) ps →
      ∀ out out', run env k t (ps.map Prod.fst) = .ok out → run env' k t (ps.map Prod.snd) = .ok out' →
        OutRel (Outside ns) out out') (k : Nat) {d d' : Dict Name (Val V W)} (hd : DictRel (Outside ns) d d') :
    Each (DictRel (Outside ns)) (applyAll ⟨sched, fun s => (inputs s).map Prod.fst, run env⟩ k ss d)
      (applyAll ⟨sched, fun s => (inputs s).map Prod.fst, run env'⟩ k ss d') :=
  each_all ss k d d' hd fun t ht k d d' hd => each_step (by rfl) hd
    (fun ps hps out out' e e' => .inl (step t ht k ps hps out out' e e')) fun _ _ h => h

theorem trace_given {G : Type} {te : TraceEnv G} (h0 : te.useSim = false)
    {z sel sel' p beta algo hat hat' bin u u' v v' : Val V (Kept G)} {out out' : List (Name × Val V (Kept G))}
    (e : runTrace te [z, sel, p, beta, algo, hat, bin, u, v] = .ok out)
    (e' : runTrace te [z, sel', p, beta, algo, hat', bin, u', v'] = .ok out') : out' = out := by
  unfold runTrace at e e'
  rw [h0] at e e'
  split at e
  · rename_i h
    simp only [List.cons.injEq, and_true] at h
    obtain ⟨rfl, rfl, rfl, rfl, rfl, rfl, rfl, rfl, rfl⟩ := h
    split at e'
    · rename_i h
      simp only [List.cons.injEq, and_true, Val.table.injEq, Val.counts.injEq, Val.flags.injEq, Val.names.injEq,
        Val.verdicts.injEq] at h
      obtain ⟨rfl, rfl, rfl, rfl, rfl, rfl, rfl, rfl, rfl⟩ := h
      simp only [Bool.false_eq_true, if_false] at e e'
      rw [e] at e'
      exact (Except.ok.inj e').symm
    · cases e'
  · cases e

/-- Nothing of what TRACE returns depends on PYTHIA when it works on the given performances. -/
theorem trace_actual {G : Type} {te : TraceEnv G} (h0 : te.useSim = false) {ns : List Name}
    (hns : ∀ n ∈ [Name.z, .p, .beta, .algo_labels, .y_bin], n ∉ ns) {ps : List (Val V (Kept G) × Val V (Kept G))}
    (h : List.Forall₂ (fun n q => Outside ns n q.1 q.2) ((inputs .trace).map Prod.fst) ps)
    {out out' : List (Name × Val V (Kept G))} (e : runTrace te (ps.map Prod.fst) = .ok out)
    (e' : runTrace te (ps.map Prod.snd) = .ok out') : out' = out := by
  simp only [inputs, List.map_cons, List.map_nil] at h
  cases h with | cons h1 h => cases h with | cons h2 h => cases h with | cons h3 h => cases h with
  | cons h4 h => cases h with | cons h5 h => cases h with | cons h6 h => cases h with
  | cons h7 h => cases h with | cons h8 h => cases h with | cons h9 h => cases h with
  | nil =>
    simp only [List.map_cons, List.map_nil] at e e'
    rw [← h1 (hns _ (by decide)), ← h3 (hns _ (by decide)), ← h4 (hns _ (by decide)), ← h5 (hns _ (by decide)),
      ← h7 (hns _ (by decide))] at e'
    exact trace_given h0 e e'

theorem sifted_options {env : Env V W} {lib' pearson' thr' clusters'} {ps : List (Val V W × Val V W)}
    (h : List.Forall₂ (fun n q => Outside [] n q.1 q.2) ((inputs .sifted).map Prod.fst) ps)
    {out out' : List (Name × Val V W)} (e : runSifted env (ps.map Prod.fst) = .ok out)
    (e' : runSifted { env with lib := lib', pearson := pearson', thr := thr', clusters := clusters' }
      (ps.map Prod.snd) = .ok out') : OutRel (Outside bySelection) out out' := by
  rw [same_inputs h (by simp)] at e'
  obtain ⟨x, y, yb, xRaw, yRaw, beta, ng, best, p, inst, feat, s, z, z', b, z'', c, o, i1, g1, g2, rfl⟩ :=
    sifted_ok e
  obtain ⟨x', y', yb', xRaw', yRaw', beta', ng', best', p', inst', feat', s', w, w', b', w'', c', o'', i2, k1, k2,
    rfl⟩ := sifted_ok e'
  rw [i1] at i2
  simp only [List.cons.injEq, Val.table.injEq, Val.verdicts.injEq, Val.names.injEq, Val.dense.injEq, and_true] at i2
  obtain ⟨rfl, rfl, rfl, rfl, rfl, rfl, rfl, rfl, rfl, rfl, rfl, rfl, rfl, rfl, rfl, rfl⟩ := i2
  refine List.rel_append ?_ (outside_names (l := [.rho, .pval, .silhouette_scores, .clust]) (by decide) rfl rfl)
  exact outside_free (by decide) (outside_cons rfl (outside_cons rfl (outside_cons rfl (outside_cons rfl
    (outside_cons rfl (outside_cons rfl (outside_cons rfl (outside_cons rfl (outside_cons rfl (outside_cons rfl
    (outside_names (l := [.feat_labels, .selvars, .idx]) (by decide) rfl rfl)))))))))))

theorem sifted_reach {env : Env V W} {lib' pearson' thr' clusters'} (sched : List (List Stg)) {k : Nat}
    {d d' : Dict Name (Val V W)} (hd : DictRel (Outside []) d d') :
    Each (DictRel (Outside bySelection))
      (applyStage ⟨sched, fun s => (inputs s).map Prod.fst, run env⟩ k .sifted d)
      (applyStage ⟨sched, fun s => (inputs s).map Prod.fst,
        run { env with lib := lib', pearson := pearson', thr := thr', clusters := clusters' }⟩ k .sifted d') := by
  have hd' : DictRel (Outside bySelection) d d' := fun n => by
    have := hd n
    revert this
    generalize d n = u
    generalize d' n = u'
    rintro (hv | _)
    · exact .some fun _ => hv (by simp)
    · exact .none
  obtain ⟨h1, h2⟩ := inputs_rel ((inputs .sifted).map Prod.fst) fun n _ => hd n
  unfold applyStage
  dsimp only
  rw [← h1]
  cases e : ((inputs .sifted).map Prod.fst).find? (fun n => (d n).isNone) with
  | some n => trivial
  | none =>
    obtain ⟨ps, p1, p2, p3⟩ := h2 e
    dsimp only
    rw [p1, p2]
    cases r : run env k .sifted (ps.map Prod.fst) with
    | error e => trivial
    | ok out =>
      cases r' : run { env with lib := lib', pearson := pearson', thr := thr', clusters := clusters' } k .sifted
          (ps.map Prod.snd) with
      | error e' => trivial
      | ok out' => exact override_rel (sifted_options p3 r r') fun n _ => hd' n

end Verif.EndToEnd
