import Verif.InstanceSpace.Model
import Verif.Runner.Lemmas3
import Verif.Pipeline.Lemmas
import Mathlib.Data.List.Induction
/-! Helper lemmas for `InstanceSpace`. -/
set_option autoImplicit false
set_option linter.unusedSectionVars false

namespace Verif.InstanceSpace

open Verif.Runner

variable {S N V E : Type} [DecidableEq S] [DecidableEq N]

theorem history_snoc (P : Pipeline S N V E) (keys : List N) (args : Dict N V)
    (calls : List (Call S N V)) (c : Call S N V) :
    history P keys args (calls ++ [c]) = stepCall P keys args (history P keys args calls) c := by
  simp [history]

/-- Reading the model changes neither the runner nor the final output. -/
theorem readModel_frame (keys : List N) (sp : Space S N V E) :
    (readModel keys sp).2.world = sp.world ∧ (readModel keys sp).2.final = sp.final := by
  unfold readModel
  split
  · exact ⟨rfl, rfl⟩
  · split
    · exact ⟨rfl, rfl⟩
    · split <;> exact ⟨rfl, rfl⟩

/-- The calls of a history as calls of the runner. -/
def ops (args : Dict N V) : List (Call S N V) → List (Op S N V)
  | [] => []
  | .build :: cs => .runAll args :: ops args cs
  | .model :: cs => ops args cs
  | .runStage s kw :: cs => .runStage s kw :: ops args cs
  | .runUntil s :: cs => .runUntil s args :: ops args cs
  | .newIter :: cs => .newIter args :: ops args cs
  | .next k :: cs => .next k :: ops args cs

/-- The runner does not notice the other calls. -/
theorem stepCall_world (P : Pipeline S N V E) (keys : List N) (args : Dict N V)
    (sp : Space S N V E) (c : Call S N V) :
    (stepCall P keys args sp c).world = (ops args [c]).foldl (step P) sp.world := by
  cases c with
  | build =>
    simp only [stepCall, build, ops, List.foldl_cons, List.foldl_nil, step]
    split
    · rfl
    · rw [(readModel_frame _ _).1]
  | model => simp [stepCall, ops, (readModel_frame _ _).1]
  | runStage s kw => rfl
  | runUntil s => rfl
  | newIter => rfl
  | next k => rfl

theorem ops_append (args : Dict N V) (l₁ l₂ : List (Call S N V)) :
    ops args (l₁ ++ l₂) = ops args l₁ ++ ops args l₂ := by
  induction l₁ with
  | nil => rfl
  | cons c cs ih => cases c <;> simp [ops, ih]

theorem history_world (P : Pipeline S N V E) (keys : List N) (args : Dict N V)
    (calls : List (Call S N V)) :
    (history P keys args calls).world = exec P (ops args calls) := by
  induction calls using List.reverseRecOn with
  | nil => rfl
  | append_singleton cs c ih =>
    rw [history_snoc, stepCall_world, ih, ops_append]
    simp [exec]

/-- The final output after a call. -/
theorem stepCall_final (P : Pipeline S N V E) (keys : List N) (args : Dict N V)
    (sp : Space S N V E) (c : Call S N V) :
    (stepCall P keys args sp c).final =
      match c with
      | .build => (match (runAll P sp.world.st args).1 with
          | .ok ref => some ref
          | .error _ => sp.final)
      | _ => sp.final := by
  cases c with
  | build =>
    simp only [stepCall, build]
    split
    · rename_i h; rw [h]
    · rename_i h; rw [(readModel_frame _ _).2, h]
  | model => simp [stepCall, (readModel_frame _ _).2]
  | runStage s kw => rfl
  | runUntil s => rfl
  | newIter => rfl
  | next k => rfl

/-- A cached model stays. -/
theorem stepCall_model_some (P : Pipeline S N V E) (keys : List N) (args : Dict N V)
    (sp : Space S N V E) (c : Call S N V) (m : List V) (h : sp.model = some m) :
    (stepCall P keys args sp c).model = some m := by
  cases c with
  | build =>
    simp only [stepCall, build]
    split
    · exact h
    · simp [readModel, h]
  | model => simp [stepCall, readModel, h]
  | runStage s kw => exact h
  | runUntil s => exact h
  | newIter => exact h
  | next k => exact h

/-- A model appears only together with a final output. -/
theorem history_model_final (P : Pipeline S N V E) (keys : List N) (args : Dict N V)
    (calls : List (Call S N V)) (h : (history P keys args calls).final = none) :
    (history P keys args calls).model = none := by
  induction calls using List.reverseRecOn with
  | nil => rfl
  | append_singleton cs c ih =>
    rw [history_snoc] at h ⊢
    rw [stepCall_final] at h
    cases c with
    | build =>
      simp only at h
      cases hr : (runAll P (history P keys args cs).world.st args).1 with
      | ok ref => rw [hr] at h; cases h
      | error e =>
        rw [hr] at h
        simp only [stepCall, build, hr]
        exact ih h
    | model =>
      have hm := ih h
      simp only at h
      simp only [stepCall, readModel, hm, h]
    | runStage s kw => exact ih h
    | runUntil s => exact ih h
    | newIter => exact ih h
    | next k => exact ih h

/-- A run in which a stage needs a name that is neither given nor ever written fails. -/
theorem applyAll_needs {P : Pipeline S N V E} {n : N} {s : S} (hn : n ∈ P.fields s) (l : List S) :
    ∀ (k : Nat) (d d' : Dict N V), (∀ t ∈ l, ¬ Writes P t n) → d n = none → s ∈ l →
      applyAll P k l d ≠ .ok d' := by
  induction l with
  | nil => intro k d d' _ _ hs; simp at hs
  | cons t ts ih =>
    intro k d d' hw hd hs h
    unfold applyAll at h
    split at h
    · cases h
    · rename_i d1 h1
      unfold applyStage at h1
      split at h1
      · cases h1
      · rename_i hfind
        rcases List.mem_cons.1 hs with rfl | hs
        · rw [List.find?_eq_none] at hfind
          have := hfind n hn
          rw [hd] at this
          simp at this
        · split at h1
          · cases h1
          · rename_i out hr
            cases h1
            refine ih (k + 1) _ d' (fun u hu => hw u (List.mem_cons_of_mem _ hu)) ?_ hs h
            rw [override_of_not_mem fun hm => hw t List.mem_cons_self ⟨_, _, _, hr, hm⟩]
            exact hd

/-- A `build` that runs all stages and finds the keys returns and caches a model. -/
theorem build_ok (P : Pipeline S N V E) (hP : P.Proper) (keys : List N) (args : Dict N V)
    (hkeys : ∀ k d, applyAll P k P.order.flatten args = .ok d → ∀ n ∈ keys, ∃ v, d n = some v)
    (calls : List (Call S N V)) (ref : Nat)
    (href : (runAll P (history P keys args calls).world.st args).1 = .ok ref) :
    ∃ m, (build P keys args (history P keys args calls)).1 = .ok m ∧
      (build P keys args (history P keys args calls)).2.model = some m := by
  simp only [build, href]
  unfold readModel
  simp only
  cases hm : (history P keys args calls).model with
  | some m => exact ⟨m, rfl, rfl⟩
  | none =>
    simp only
    obtain ⟨hc, -⟩ := runFrom_apply hP
      (history_world P keys args calls ▸ exec_inv hP.once (ops args calls)) args P.order []
      (by simp)
    change contents (runAll P _ args) = _ at hc
    unfold contents at hc
    rw [href] at hc
    simp only at hc
    obtain ⟨m, hm', -⟩ := Verif.Pipeline.collect_present _ keys
      (fun n hn => Option.isSome_iff_exists.2 (hkeys _ _ hc.symm n hn))
    rw [hm']
    exact ⟨m, rfl, rfl⟩

end Verif.InstanceSpace
