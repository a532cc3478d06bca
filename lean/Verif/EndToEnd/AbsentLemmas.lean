import Verif.EndToEnd.SpecAbsent
import Verif.EndToEnd.SimLemmas
import Verif.EndToEnd.LabelLemmas
/-!
# Runs that agree from the end of preprocessing on
-/
set_option autoImplicit false
set_option linter.unusedSectionVars false

namespace Verif.EndToEnd

open Verif (Num)
open Verif.Pipeline (Stg Name inputs)
open Verif.Metadata (Meta)
open Verif.Runner (Dict RunError applyAll applyStage override)

variable {V W : Type}

/-- The initial inputs only preprocessing reads. -/
def rawNames : List Name :=
  [.feature_names, .algorithm_names, .instance_labels, .instance_sources, .features, .algorithms]

theorem raw_unread (s : Stg) (hs : s ≠ .preprocessing) : ∀ n ∈ (inputs s).map Prod.fst, n ∉ rawNames := by
  cases s
  · exact absurd rfl hs
  all_goals decide

theorem both_refl {ε α : Type} {R : α → α → Prop} (hR : ∀ a, R a a) (x : Except ε α) : Both R x x := by
  cases x with
  | error => exact rfl
  | ok a => exact hR a

theorem from_preprocessing (env : Env V W) (raw : List Name) (hraw : ∀ n ∈ raw, n ∈ rawNames)
    (sched : List (List Stg)) (rest : List Stg) (hrest : ∀ s ∈ rest, s ≠ .preprocessing)
    (k : Nat) (d d' : Dict Name (Val V W)) (hd : ∀ n, n ∉ raw → d n = d' n)
    (hboth : ∀ n ∈ raw, (d n).isSome = true ∧ (d' n).isSome = true)
    (hpre : ∀ vs vs' : List (Val V W), ((inputs .preprocessing).map Prod.fst).map d = vs.map some →
      ((inputs .preprocessing).map Prod.fst).map d' = vs'.map some →
      runPreprocessing env vs = runPreprocessing env vs') :
    SameExcept raw
      (applyAll ⟨sched, fun s => (inputs s).map Prod.fst, run env⟩ k (.preprocessing :: rest) d)
      (applyAll ⟨sched, fun s => (inputs s).map Prod.fst, run env⟩ k (.preprocessing :: rest) d') := by
  have h : Both (DictRel fun n v v' => n ∈ raw ∨ v = v')
      (applyAll ⟨sched, fun s => (inputs s).map Prod.fst, run env⟩ k (.preprocessing :: rest) d)
      (applyAll ⟨sched, fun s => (inputs s).map Prod.fst, run env⟩ k (.preprocessing :: rest) d') := by
    have hdd : DictRel (fun n v v' => d n = some v ∧ d' n = some v') d d' := by
      intro n
      by_cases hn : n ∈ raw
      · obtain ⟨h1, h2⟩ := hboth n hn
        obtain ⟨v, hv⟩ := Option.isSome_iff_exists.1 h1
        obtain ⟨v', hv'⟩ := Option.isSome_iff_exists.1 h2
        rw [hv, hv']
        exact .some ⟨hv, hv'⟩
      · have e := hd n hn
        rw [e]
        cases e' : d' n with
        | none => exact .none
        | some v => exact .some ⟨e.trans e', e'⟩
    refine cons_rel (R := fun n v v' => n ∈ raw ∨ v = v') (step_rel hdd fun ps hps => ?_) fun y y' hy => ?_
    · have e1 : ∀ {ns : List Name} {ps : List (Val V W × Val V W)},
          List.Forall₂ (fun n p => d n = some p.1 ∧ d' n = some p.2) ns ps →
          ns.map d = (ps.map Prod.fst).map some ∧ ns.map d' = (ps.map Prod.snd).map some := by
        intro ns ps h
        induction h with
        | nil => exact ⟨rfl, rfl⟩
        | cons h _ ih => simp only [List.map_cons, h.1, h.2, ih.1, ih.2, and_self]
      obtain ⟨g1, g2⟩ := e1 hps
      have e := hpre _ _ g1 g2
      show Both _ (runPreprocessing env _) (runPreprocessing env _)
      rw [e]
      refine both_refl (fun out => ⟨?_, ?_⟩) _
      · unfold OutRel
        induction out with
        | nil => exact .nil
        | cons p out ih => exact .cons ⟨rfl, .inr rfl⟩ ih
      · rintro n - v v' ⟨h1, h2⟩
        by_cases hn : n ∈ raw
        · exact .inl hn
        · rw [hd n hn, h2] at h1
          exact .inr (Option.some.inj h1).symm
    · refine all_rel rest _ y y' hy fun s hs k d d' hd => step_rel hd fun ps hps => ?_
      have e : ∀ {ns : List Name} {ps : List (Val V W × Val V W)}, (∀ n ∈ ns, n ∉ raw) →
          List.Forall₂ (fun n p => n ∈ raw ∨ p.1 = p.2) ns ps → ps.map Prod.fst = ps.map Prod.snd := by
        intro ns ps hn h
        induction h with
        | nil => rfl
        | @cons n p ns ps h _ ih =>
          rw [List.map_cons, List.map_cons, ih fun m hm => hn m (List.mem_cons_of_mem _ hm),
            h.resolve_left (hn n List.mem_cons_self)]
      have e := e (fun n hn h => raw_unread s (hrest s hs) n hn (hraw n h)) hps
      rw [e]
      refine both_refl (fun out => ⟨?_, fun n _ v v' h => h⟩) _
      unfold OutRel
      induction out with
      | nil => exact .nil
      | cons p out ih => exact .cons ⟨rfl, .inr rfl⟩ ih
  revert h
  generalize applyAll ⟨sched, fun s => (inputs s).map Prod.fst, run env⟩ k (.preprocessing :: rest) d = a
  generalize applyAll ⟨sched, fun s => (inputs s).map Prod.fst, run env⟩ k (.preprocessing :: rest) d' = b
  intro h
  cases a <;> cases b
  · exact h
  · exact h
  · exact h
  · intro n hn
    rename_i e e'
    have := h n
    revert this
    generalize e n = u
    generalize e' n = u'
    rintro (hv | _)
    · rw [hv.resolve_left hn]
    · rfl

/-- What preprocessing receives. -/
theorem args_inputs {env : Env V W} {num : V → Num} {m : Meta V} {l : List V} {s : Option (List V)}
    (hl : m.labels = .series l) (hs : m.sources = s.map .series) {vs : List (Val V W)}
    (h : ((inputs .preprocessing).map Prod.fst).map (args env num m) = vs.map some) :
    ∃ o, vs = [.names m.featureNames, .names m.algorithmNames, .labels l, .sources s,
      .table ⟨m.featureNames.length, m.features.map (·.map num)⟩,
      .table ⟨m.algorithmNames.length, m.algorithms.map (·.map num)⟩, o] := by
  have hsrc : (args env num m .instance_sources : Option (Val V W)) = some (.sources s) := by
    unfold args
    rw [hs]
    cases s <;> rfl
  have hlab : (args env num m .instance_labels : Option (Val V W)) = some (.labels l) := by
    unfold args
    rw [hl]
  simp only [inputs, List.map_cons, List.map_nil, hsrc, hlab] at h
  match vs with
  | [] => simp at h
  | [_] => simp at h
  | [_, _] => simp at h
  | [_, _, _] => simp at h
  | [_, _, _, _] => simp at h
  | [_, _, _, _, _] => simp at h
  | [_, _, _, _, _, _] => simp at h
  | [a, b, c, e, f, g, o] =>
    simp only [List.map_cons, List.map_nil, List.cons.injEq, Option.some.injEq, and_true, args] at h
    obtain ⟨rfl, rfl, rfl, rfl, rfl, rfl, -⟩ := h
    exact ⟨o, rfl⟩
  | _ :: _ :: _ :: _ :: _ :: _ :: _ :: _ :: _ => simp at h

theorem runPreprocessing_received {env : Env V W} {num : V → Num} {m : Meta V} {l : List V}
    {s : Option (List V)} {o : Val V W} :
    runPreprocessing env [.names m.featureNames, .names m.algorithmNames, .labels l, .sources s,
      .table ⟨m.featureNames.length, m.features.map (·.map num)⟩,
      .table ⟨m.algorithmNames.length, m.algorithms.map (·.map num)⟩, o] =
    match Preprocessing.run Num.isNan (received num l s m) m.algorithmNames env.feats env.algos with
    | .error e => .error (.preprocessing e)
    | .ok o => .ok [(.inst_labels, .labels o.data.inst), (.feat_labels, .names o.data.feat),
        (.algo_labels, .names o.algo), (.x, .table o.data.x), (.y, .table o.data.y),
        (.s, .sources o.data.s), (.x_raw, .table o.data.x), (.y_raw, .table o.data.y)] := rfl

theorem received_fits {num : V → Num} {m : Meta V} {l : List V} {s : Option (List V)} (h : Fitting l s m) :
    (received num l s m).Fits where
  rectX row hr := by
    obtain ⟨r, hr', rfl⟩ := List.mem_map.1 hr
    rw [List.length_map]
    exact h.features r hr'
  rectY row hr := by
    obtain ⟨r, hr', rfl⟩ := List.mem_map.1 hr
    rw [List.length_map]
    exact h.algorithms r hr'
  feat := rfl
  y := by simpa [received] using h.rows
  inst := by simpa [received] using h.labelled
  s s' hs := by simpa [received] using h.sourced s' hs

end Verif.EndToEnd
