import Verif.EndToEnd.ShiftLemmas
import Verif.EndToEnd.PropsLabels
/-!
# C197: the zero points of the features, for the whole pipeline
-/
set_option autoImplicit false
set_option linter.unusedSectionVars false

namespace Verif.EndToEnd

open Verif (Num)
open Verif.Pipeline (Stg Name runner defaultStages buildDefault outputs)
open Verif.Metadata (Table Squeezed Begins fromDataFrame)
open Verif.Runner (Dict Op exec runAll contents RunError)

variable {V W : Type}

/-- **C197 (part).** With the features normalised, on two tables that differ only by a constant added to each
feature, `run_all` (the same stages, the same earlier calls) raises the same exception, or gives the same
output except for the raw features and what PRELIM records of their location: the same features selected, the
same projection, models, boundary and footprints. With bounding switched on no feature has an infinite value.
Missing: a feature multiplied by a positive number (`C197_refuted`). -/
theorem C197_run_partial {lower : String → String} {numeric : Squeezed V → Bool} {str : V → V} {num : V → Num}
    {env : Env V W} {zero : String → ℚ} {t t' : Table V}
    (tuples : ∀ k s vs out, env.rest k s vs = .ok out → out.map Prod.fst = (outputs s).map Prod.fst)
    (normalised : env.prelim.norm = true) (ht : Rezeroed lower num zero t t')
    (finite : env.prelim.bound = true → ∀ c ∈ t.cols, Begins lower "feature_" c.1 →
      ∀ v ∈ c.2, num v ≠ .pinf ∧ num v ≠ .ninf)
    {order : List Stg} {π : Builder.SetOrder Stg} {sched : List (List Stg)}
    (horder : order.Perm defaultStages) (hs : buildDefault order π = .ok sched)
    (ops : List (Op Stg Name (Val V W))) :
    SameButLocation
      (contents (runAll (runner order sched (run env)) (exec (runner order sched (run env)) ops).st
        (args env num (fromDataFrame lower numeric str t))))
      (contents (runAll (runner order sched (run env)) (exec (runner order sched (run env)) ops).st
        (args env num (fromDataFrame lower numeric str t')))) := by
  rw [contents_apply horder hs, contents_apply horder hs]
  generalize (exec (runner order sched (run env)) ops).st.calls.length = k
  have hd := args_moved (numeric := numeric) (str := str) (env := env) ht finite
  have main : ∃ rest, sched.flatten = .preprocessing :: .prelim :: rest ∧
      ∀ s ∈ rest, s = Stg.sifted ∨ s = .pilot ∨ s = .pythia ∨ s = .cloister ∨ s = .trace := by
    rcases Pipeline.C10_default_schedule order horder π with h | h <;>
      · rw [hs] at h
        obtain rfl := Except.ok.inj h
        exact ⟨_, rfl, by decide⟩
  obtain ⟨rest, e, hrest⟩ := main
  rw [e]
  have h := applyAll_moved env normalised tuples sched rest hrest k _ _ hd
  revert h
  generalize Runner.applyAll ⟨sched, fun s => (Pipeline.inputs s).map Prod.fst, run env⟩ k
    (.preprocessing :: .prelim :: rest) (args env num (fromDataFrame lower numeric str t)) = a
  generalize Runner.applyAll ⟨sched, fun s => (Pipeline.inputs s).map Prod.fst, run env⟩ k
    (.preprocessing :: .prelim :: rest) (args env num (fromDataFrame lower numeric str t')) = b
  intro h
  cases a <;> cases b
  · exact h
  · exact h
  · exact h
  · rename_i d d'
    refine ⟨fun n hn => ?_, ?_⟩
    · have h1 : n ∉ [Name.features, .x_raw] ++ sites := fun h => hn (by
        simp only [sites, aboutLocation, List.cons_append, List.nil_append, List.mem_cons, List.not_mem_nil,
          or_false] at h ⊢
        tauto)
      have := h n
      revert this
      generalize d n = u
      generalize d' n = u'
      rintro (hv | _)
      · rw [(rel_eq h1).1 hv]
      · rfl
    · have := h .x_raw
      revert this
      generalize d .x_raw = u
      generalize d' .x_raw = u'
      rintro (h | _)
      · obtain ⟨m, m', rfl, rfl, z, hz⟩ := (rel_moved (by decide)).1 h
        exact .inr ⟨m, m', z, rfl, rfl, hz.width, hz.width', hz.rows⟩
      · exact .inl ⟨rfl, rfl⟩

/-- The table of the example, with the first feature measured from another zero point. -/
def warmTable : Table Nat :=
  ⟨6, [("instances", [10, 11, 12, 13, 14, 15]), ("feature_a", [274, 275, 276, 274, 275, 278]),
    ("feature_b", [1, 5, 2, 4, 1, 3]), ("algo_p", [4, 1, 5, 3, 3, 4]), ("algo_q", [2, 0, 1, 1, 2, 1])]⟩

/-- The environment of the example, with the features normalised. -/
def normEnv : Env Nat (Kept (List (ℚ × ℚ))) :=
  { allEnv false with prelim := { (allEnv false).prelim with norm := true } }

theorem norm_complete : CompleteTrace normEnv (allLate false) (exTrace false) where
  stages _ _ _ := rfl
  trace _ := rfl
  laws _ := dots_laws
  order _ _ := List.reverse_perm _

example :
    (∀ k s vs out, normEnv.rest k s vs = .ok out → out.map Prod.fst = (outputs s).map Prod.fst) ∧
    normEnv.prelim.norm = true ∧
    Rezeroed id lateNum (fun s => if s = "feature_a" then 273 else 0)
      (cleanTable [4, 1, 5, 3, 3, 4] [2, 0, 1, 1, 2, 1]) warmTable ∧
    raisedIn (cleanRun normEnv (cleanTable [4, 1, 5, 3, 3, 4] [2, 0, 1, 1, 2, 1])) = 0 := by
  refine ⟨norm_complete.complete.tuples, rfl, ⟨rfl, cleanTable_rect rfl rfl, ?_, ?_⟩, by decide +kernel⟩
  · intro c hc
    simp only [warmTable, List.mem_cons, List.not_mem_nil, or_false] at hc
    rcases hc with rfl | rfl | rfl | rfl | rfl <;> rfl
  · unfold cleanTable warmTable
    refine .cons ?_ (.cons ?_ (.cons ?_ (.cons ?_ (.cons ?_ .nil)))) <;>
      refine ⟨rfl, fun h => ?_, fun h => ?_⟩
    all_goals
      first
      | rfl
      | exact absurd ((begins_iff _ _).1 h) (by decide)
      | exact absurd ((begins_iff _ _).2 (by decide)) h
      | (simp [lateNum]; done)
      | (norm_num [lateNum]; done)

end Verif.EndToEnd
