import Verif.EndToEnd.PropsInfluence
import Verif.EndToEnd.PropsTrace
import Verif.Cloister.PropsStricter
import Verif.EndToEnd.SpecCorrelated
/-!
# C149 for whole builds: stricter correlation options of CLOISTER
-/
set_option autoImplicit false
set_option linter.unusedSectionVars false

namespace Verif.EndToEnd

open Verif (Num)
open Verif.Pipeline (Stg Name runner defaultStages buildDefault outputs)
open Verif.Metadata (Table Squeezed fromDataFrame)
open Verif.Runner (Dict Op exec runAll contents RunError)

variable {V W : Type}

/-- **C149 (part), whole builds.** Two builds from the same table whose options differ only in the correlation options
of CLOISTER agree, if both complete, in everything but `z_ecorr`; and the correlated boundary of the build with the
stricter options encloses that of the other, unless the latter is the plain boundary. -/
theorem C149_build_partial {lower : String → String} {numeric : Squeezed V → Bool} {str : V → V} {num : V → Num}
    {env : Env V W} {le le' : Nat → Late V W} {t : Table V}
    {rest' : Nat → Stg → List (Val V W) → Except Err (List (Name × Val V W))}
    (complete : Complete env le) (complete' : Complete { env with rest := rest' } le')
    (same : ∀ k u vs, u ≠ .cloister → rest' k u vs = env.rest k u vs)
    {pThr cThr pThr' cThr' : Num} (stricter : Cloister.Stricter pThr cThr pThr' cThr')
    (lib : ∀ k k', (le' k').qhull = (le k).qhull ∧ (∀ {m : Nat} rows,
      @Late.pearson _ _ (le' k') m rows = (le k).pearson rows))
    (options : ∀ k, (le k).pThr = pThr ∧ (le k).cThr = cThr)
    (options' : ∀ k, (le' k).pThr = pThr' ∧ (le' k).cThr = cThr') (hq : ∀ k, Cloister.HullCorrect (le k).qhull)
    {order : List Stg} {π : Builder.SetOrder Stg} {sched : List (List Stg)}
    (horder : order.Perm defaultStages) (hs : buildDefault order π = .ok sched)
    (ops ops' : List (Op Stg Name (Val V W)))
    (calls : (exec (runner order sched (run { env with rest := rest' })) ops').st.calls.length =
      (exec (runner order sched (run env)) ops).st.calls.length) {d d' : Dict Name (Val V W)}
    (h : contents (runAll (runner order sched (run env)) (exec (runner order sched (run env)) ops).st
      (args env num (fromDataFrame lower numeric str t))) = .ok d)
    (h' : contents (runAll (runner order sched (run { env with rest := rest' }))
      (exec (runner order sched (run { env with rest := rest' })) ops').st
      (args { env with rest := rest' } num (fromDataFrame lower numeric str t))) = .ok d') :
    (∀ n, n ≠ .z_ecorr → d' n = d n) ∧
    ∃ e c c', HoldsPoints d .z_edge e ∧ HoldsPoints d .z_ecorr c ∧ HoldsPoints d' .z_ecorr c' ∧
      (e ≠ [] → c ≠ e → convexHull ℚ (Cloister.pointSet c) ⊆ convexHull ℚ (Cloister.pointSet c')) := by
  have hsame : ∀ n, n ∉ (outputs .cloister).map Prod.fst → d' n = d n :=
    C225_late (s := .cloister) (by simp) complete complete' same horder hs ops ops' calls h h'
  obtain ⟨k, x, a, r, l, b1, b2, b3, b4, b5⟩ := cloister_values complete ⟨order, π, sched, ops, horder, hs, h⟩
  obtain ⟨k', x', a', r', l', c1, c2, c3, c4, c5⟩ := cloister_values complete' ⟨order, π, sched, ops', horder, hs, h'⟩
  rw [hsame _ (by decide), b1] at c1
  rw [hsame _ (by decide), b2] at c2
  cases c1
  cases c2
  rw [b3] at c3
  cases c3
  obtain ⟨l1, l2⟩ := lib k k'
  obtain ⟨o1, o2⟩ := options k
  obtain ⟨p1, p2⟩ := options' k'
  rw [o1, o2] at b4 b5
  rw [p1, p2, l1, l2] at c4 c5
  refine ⟨fun n hn => ?_, _, _, _, ⟨_, b4, rfl⟩, ⟨_, b5, rfl⟩, ⟨_, c5, rfl⟩, fun plain own => ?_⟩
  · by_cases he : n = .z_edge
    · rw [he, b4, c4]
      rfl
    · refine hsame n fun hmem => ?_
      simp only [outputs, List.map_cons, List.map_nil, List.mem_cons, List.not_mem_nil, or_false] at hmem
      rcases hmem with hmem | hmem
      · exact he hmem
      · exact hn hmem
  · exact (Cloister.C149_both_partial _ (hq k) _ stricter _ _ _ plain own).2

/-! ### Cases -/

/-- The stages of `exLate` with two features that are strongly correlated, and the given threshold. -/
def corrLate (c : ℚ) (k : Nat) : Late Nat Unit :=
  { exLate k with pearson := fun _ _ _ => (.fin (4 / 5), .fin (1 / 100)), cThr := .fin c }

/-- The options of `lateEnv` with these stages. -/
def corrEnv (c : ℚ) : Env Nat Unit := { lateEnv with rest := fun k s vs => runLate (corrLate c k) s vs }

/-- Numbers are read with three subtracted. -/
def corrNum (n : Nat) : Num := .fin ((n : ℚ) - 3)

/-- The six instances of `traceTable` with larger performances. -/
def corrTable : Table Nat :=
  ⟨6, [("instances", [10, 11, 12, 13, 14, 15]), ("feature_a", [1, 2, 3, 1, 2, 5]),
    ("feature_b", [1, 5, 2, 4, 1, 3]), ("algo_p", [7, 4, 6, 4, 6, 7]), ("algo_q", [4, 8, 4, 4, 5, 4])]⟩

theorem corr_complete (c : ℚ) : Complete (corrEnv c) (corrLate c) where
  stages _ _ _ := rfl
  trace _ _ out h := by
    cases h
    rfl

/-- The numbers of corners of the two boundaries. -/
def cornerCounts {E : Type} (r : Except E (Dict Name (Val Nat Unit))) : Option (Nat × Nat) :=
  match r with
  | .ok d =>
    match d .z_edge, d .z_ecorr with
    | some (.table e), some (.table c) => some (e.rows.length, c.rows.length)
    | _, _ => none
  | _ => none

-- With the threshold 7/10 two of the four corners contradict the correlation, with 9/10 none.
example : Complete (corrEnv (7 / 10)) (corrLate (7 / 10)) ∧
    Complete { corrEnv (7 / 10) with rest := (corrEnv (9 / 10)).rest } (corrLate (9 / 10)) ∧
    (∀ k u vs, u ≠ .cloister → (corrEnv (9 / 10)).rest k u vs = (corrEnv (7 / 10)).rest k u vs) ∧
    Cloister.Stricter (.fin (1 / 20)) (.fin (7 / 10)) (.fin (1 / 20)) (.fin (9 / 10)) ∧
    (∀ k, Cloister.HullCorrect (corrLate (7 / 10) k).qhull) ∧
    cornerCounts (contents (runAll (runner defaultStages Pipeline.defaultSchedule (run (corrEnv (7 / 10))))
      Runner.State.init (args (corrEnv (7 / 10)) corrNum (fromDataFrame id (fun _ => false) id corrTable)))) =
      some (4, 2) ∧
    cornerCounts (contents (runAll (runner defaultStages Pipeline.defaultSchedule
      (run { corrEnv (7 / 10) with rest := (corrEnv (9 / 10)).rest })) Runner.State.init
      (args { corrEnv (7 / 10) with rest := (corrEnv (9 / 10)).rest } corrNum
        (fromDataFrame id (fun _ => false) id corrTable)))) = some (4, 4) := by
  refine ⟨corr_complete _, corr_complete _, ?_, ⟨by decide +kernel, by decide +kernel, by decide +kernel⟩, ?_, ?_, ?_⟩
  · intro k u vs hu
    cases u <;> first | exact absurd rfl hu | rfl
  · exact late_hull
  · decide +kernel
  · decide +kernel

end Verif.EndToEnd
