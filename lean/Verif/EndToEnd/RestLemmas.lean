import Verif.EndToEnd.Lemmas
/-! The last four stages in a successful run: what they received and returned. -/
set_option autoImplicit false
set_option linter.unusedSectionVars false

namespace Verif.EndToEnd

open Verif (Num)
open Verif.Pipeline (Stg Name inputs outputs runner)
open Verif.Metadata (Table Squeezed fromDataFrame)
open Verif.Runner (Dict applyAll applyStage applyStage_ok applyAll_frame override runFrom_apply
  exec_inv exec contents applyAll_append override_of_mem override_of_not_mem)

variable {V W : Type}

/-- In both orders, after each of the last four stages no stage returns its inputs or outputs, and it
does not return its own inputs. -/
theorem late_table : ∀ flat ∈ [[Stg.preprocessing, .prelim, .sifted, .pilot, .pythia, .cloister, .trace],
      [.preprocessing, .prelim, .sifted, .pilot, .cloister, .pythia, .trace]],
    ∀ s ∈ [Stg.pilot, .pythia, .cloister, .trace],
      let pre := flat.takeWhile (· ≠ s)
      let post := (flat.dropWhile (· ≠ s)).tail
      flat = pre ++ s :: post ∧ (∀ t ∈ post, t ∈ [Stg.pilot, .pythia, .cloister, .trace]) ∧
      (∀ t ∈ s :: post, ∀ n ∈ (inputs s).map Prod.fst, n ∉ (outputs t).map Prod.fst) ∧
      (∀ t ∈ post, ∀ n ∈ (outputs s).map Prod.fst, n ∉ (outputs t).map Prod.fst) := by
  decide +kernel

theorem outputs_nodup (s : Stg) : ((outputs s).map Prod.fst).Nodup := by
  cases s <;> decide +kernel

theorem override_get {N X : Type} [DecidableEq N] {d : Dict N X} {out : List (N × X)} {n : N} {v : X}
    (hn : (out.map Prod.fst).Nodup) (h : (n, v) ∈ out) : override d out n = some v := by
  unfold override
  have : out.reverse.find? (fun p => decide (p.1 = n)) = some (n, v) := by
    have hn' : (out.reverse.map Prod.fst).Nodup := by
      rw [List.map_reverse]; exact (List.reverse_perm _).nodup_iff.2 hn
    have hm : (n, v) ∈ out.reverse := by simpa using h
    generalize out.reverse = l at hn' hm
    induction l with
    | nil => cases hm
    | cons p l ih =>
      rw [List.map_cons, List.nodup_cons] at hn'
      rw [List.find?_cons]
      rcases List.mem_cons.1 hm with rfl | hm
      · simp
      · have : p.1 ≠ n := fun e => hn'.1 (e ▸ List.mem_map_of_mem (f := Prod.fst) hm)
        simp only [decide_eq_false this]
        exact ih hn'.2 hm
  simp_all

/-- Each of the last four stages received the values that are left behind under the names of its inputs,
and what it returned is left behind under the names of its outputs. -/
theorem succeeds_rest {lower : String → String} {numeric : Squeezed V → Bool} {str : V → V}
    {num : V → Num} {env : Env V W} {t : Table V} {d : Dict Name (Val V W)}
    (htup : ∀ k s vs out, env.rest k s vs = .ok out → out.map Prod.fst = (outputs s).map Prod.fst)
    (h : Succeeds lower numeric str num env t d) (s : Stg)
    (hs : s ∈ [Stg.pilot, .pythia, .cloister, .trace]) :
    ∃ k vs out, env.rest k s vs = .ok out ∧ ((inputs s).map Prod.fst).map d = vs.map some ∧
      ∀ n v, (n, v) ∈ out → d n = some v := by
  obtain ⟨order, π, sched, ops, horder, hb, hd⟩ := h
  have hB := (Pipeline.builderOf_tables order horder).1
  have hP : (runner order sched (run env)).Proper := Runner.built_proper hB hb _
  obtain ⟨g1, -⟩ := runFrom_apply hP (exec_inv hP.once ops)
    (args env num (fromDataFrame lower numeric str t)) sched [] (by simp [Runner.pipelineOf])
  change contents (Runner.runFrom _ _ _ sched.flatten) = .ok d at hd
  rw [g1] at hd
  generalize (exec (runner order sched (run env)) ops).st.calls.length = k at hd
  generalize args env num (fromDataFrame lower numeric str t) = d0 at hd
  have hflat : sched.flatten ∈ [[Stg.preprocessing, .prelim, .sifted, .pilot, .pythia, .cloister, .trace],
      [.preprocessing, .prelim, .sifted, .pilot, .cloister, .pythia, .trace]] := by
    rcases Pipeline.C10_default_schedule order horder π with h | h <;> rw [h] at hb <;> cases hb
    · exact List.mem_cons_self ..
    · exact List.mem_cons_of_mem _ (List.mem_cons_self ..)
  obtain ⟨e1, e2, e3, e4⟩ := late_table _ hflat s hs
  rw [e1, Pipeline.runner_eq order horder, applyAll_append] at hd
  generalize sched.flatten.takeWhile (· ≠ s) = pre at hd
  generalize (sched.flatten.dropWhile (· ≠ s)).tail = post at hd e2 e3 e4
  split at hd
  · cases hd
  rename_i d1 _
  unfold applyAll at hd
  cases hst : applyStage ⟨sched, fun s => (inputs s).map Prod.fst, run env⟩ (k + pre.length) s d1 with
  | error e => rw [hst] at hd; cases hd
  | ok d2 =>
  rw [hst] at hd
  dsimp only at hd
  obtain ⟨p1, out, r1, rfl⟩ := applyStage_ok hst
  have hrest : ∀ (t : Stg), t ∈ [Stg.pilot, .pythia, .cloister, .trace] → ∀ k vs,
      run env k t vs = env.rest k t vs := by
    intro t ht k vs
    simp only [List.mem_cons, List.not_mem_nil, or_false] at ht
    rcases ht with rfl | rfl | rfl | rfl <;> rfl
  have r1' : env.rest (k + pre.length) s (((inputs s).map Prod.fst).filterMap d1) = .ok out := by
    rw [← hrest s hs]; exact r1
  have hout := htup _ _ _ _ r1'
  have hpost : ∀ n, (∀ t ∈ post, n ∉ (outputs t).map Prod.fst) → d n = override d1 out n := by
    intro n hn
    refine applyAll_frame ?_ hd
    rintro t ht ⟨j, vs, o, h1, h2⟩
    change run env j t vs = .ok o at h1
    rw [hrest t (e2 t ht)] at h1
    exact hn t ht (htup _ _ _ _ h1 ▸ h2)
  refine ⟨_, _, out, r1', ?_, ?_⟩
  · have := filterMap_some p1 rfl
    rw [← this]
    refine List.map_congr_left fun n hn => ?_
    rw [hpost n fun t ht => e3 t (List.mem_cons_of_mem _ ht) n hn]
    exact override_of_not_mem (by rw [hout]; exact e3 s (List.mem_cons_self ..) n hn)
  · intro n v hnv
    have hn : n ∈ (outputs s).map Prod.fst := by
      rw [← hout]; exact List.mem_map_of_mem (f := Prod.fst) hnv
    rw [hpost n fun t ht => e4 t ht n hn]
    exact override_get (by rw [hout]; exact outputs_nodup s) hnv

end Verif.EndToEnd
