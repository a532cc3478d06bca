import Verif.EndToEnd.PropsInfluence
import Verif.EndToEnd.PropsTries
/-!
# C196 for whole builds: more tries
-/
set_option autoImplicit false
set_option linter.unusedSectionVars false

namespace Verif.EndToEnd

open Verif (Num)
open Verif.Pipeline (Stg Name runner defaultStages buildDefault outputs)
open Verif.Metadata (Table Squeezed fromDataFrame)
open Verif.Runner (Dict Op exec runAll contents RunError)

variable {V W : Type}

/-- **C196 (part), whole builds.** Two builds from the same table in numerical mode with the same given starting points,
of which the second makes more tries, agree, if both complete, in everything that is not computed from the projection;
the tries of the first are the first tries of the second, and its best try is not better than the best of the second. -/
theorem C196_build_partial {lower : String → String} {numeric : Squeezed V → Bool} {str : V → V} {num : V → Num}
    {env : Env V W} {le le' : Nat → Late V W} {t : Table V}
    {rest' : Nat → Stg → List (Val V W) → Except Err (List (Name × Val V W))}
    (complete : Complete env le) (complete' : Complete { env with rest := rest' } le')
    (same : ∀ k u vs, u ≠ .pilot → rest' k u vs = env.rest k u vs)
    (lib : ∀ k k' (p n q : Nat) (x : Matrix (Fin p) (Fin n) ℚ), (le' k').pilotLib (q := q) x = (le k).pilotLib x)
    {opts : (n q : Nat) → Pilot.Options ℚ n q} {more : Nat}
    (options : ∀ k n q, (le k).pilotOpts n q = opts n q)
    (options' : ∀ k n q, (le' k).pilotOpts n q = { opts n q with nTries := more })
    (numerical : ∀ n q, (opts n q).analytic = false ∧ (opts n q).x0 ≠ none ∧ (opts n q).nTries ≤ more)
    {order : List Stg} {π : Builder.SetOrder Stg} {sched : List (List Stg)}
    (horder : order.Perm defaultStages) (hs : buildDefault order π = .ok sched)
    (ops ops' : List (Op Stg Name (Val V W)))
    (calls : (exec (runner order sched (run { env with rest := rest' })) ops').st.calls.length =
      (exec (runner order sched (run env)) ops).st.calls.length) {d d' : Dict Name (Val V W)}
    (h : contents (runAll (runner order sched (run env)) (exec (runner order sched (run env)) ops).st
      (args env num (fromDataFrame lower numeric str t))) = .ok d)
    (h' : contents (runAll (runner order sched (run { env with rest := rest' }))
      (exec (runner order sched (run { env with rest := rest' })) ops').st
      (args { env with rest := rest' } num (fromDataFrame lower numeric str t))) = .ok d') :
    (∀ n, n ∉ downstream .pilot → d' n = d n) ∧
    ∃ perf perf' i i', d .perf = some (.numbers perf) ∧ d' .perf = some (.numbers perf') ∧
      perf <+: perf' ∧ perf'.length = more ∧ BestTry perf i ∧ BestTry perf' i' ∧
      ((∀ v ∈ perf', v ≠ .nan) → ∃ best best' : ℚ, perf[i]? = some (.fin best) ∧ perf'[i']? = some (.fin best') ∧
        best ≤ best') := by
  have hsame : ∀ n, n ∉ downstream .pilot → d' n = d n :=
    C225_late (s := .pilot) (by simp) complete complete' same horder hs ops ops' calls h h'
  refine ⟨hsame, ?_⟩
  obtain ⟨k, x, y, feat, o, hx, hy, f1, f2, f3, hp, hall⟩ := pilot_all complete ⟨order, π, sched, ops, horder, hs, h⟩
  obtain ⟨k', x', y', feat', o', hx', hy', g1, g2, g3, hp', hall'⟩ :=
    pilot_all complete' ⟨order, π, sched, ops', horder, hs, h'⟩
  rw [hsame _ (by decide), hx] at hx'
  rw [hsame _ (by decide), hy] at hy'
  cases hx'
  cases hy'
  replace hp := (Pilot.pilotGaps_ok hp).1
  replace hp' := (Pilot.pilotGaps_ok hp').1
  rw [options] at hp
  rw [options', lib k k'] at hp'
  obtain ⟨n1, n2, n3⟩ := numerical x.ncols y.ncols
  obtain ⟨x0, idx, -, -, e1, e2, e3, -, -, -, e4, e5, -⟩ := Pilot.numerical_ok n1 hp
  obtain ⟨x0', idx', -, -, e1', e2', e3', -, -, -, e4', e5', -⟩ := Pilot.numerical_ok (by exact n1) hp'
  have hxx : x0' = x0 := by
    obtain ⟨s, hs⟩ := Option.ne_none_iff_exists'.1 n2
    rw [e1, e1']
    simp [hs]
  subst hxx
  dsimp only at e2' e3' e4' e5'
  generalize hqu : (fun g => Pilot.Lib.quality _ _) = qu at e4 e5 e4' e5'
  have l1 : ((x0'.take (opts x.ncols y.ncols).nTries).map qu).length = (opts x.ncols y.ncols).nTries := by
    simp only [List.length_map, List.length_take]; omega
  have l2 : ((x0'.take more).map qu).length = more := by
    simp only [List.length_map, List.length_take]; omega
  have hpre : ((x0'.take (opts x.ncols y.ncols).nTries).map qu).map orNan <+: ((x0'.take more).map qu).map orNan := by
    refine List.IsPrefix.map _ (List.IsPrefix.map _ ?_)
    rw [← Nat.min_eq_left n3, ← List.take_take]
    exact List.take_prefix _ _
  have b1 := bestTry (by omega) e5
  have b2 := bestTry (by omega) e5'
  refine ⟨_, _, idx, idx', hall .perf _ (by simp only [pilotOut, e4]; simp), hall' .perf _ (by simp only [pilotOut, e4']; simp),
    hpre, by rw [List.length_map, l2], b1, b2, fun hn => ?_⟩
  obtain ⟨v, v1, -⟩ := b1.2 fun w hw => hn w (hpre.subset hw)
  obtain ⟨v', v1', v2'⟩ := b2.2 hn
  exact ⟨v, v', v1, v1', v2' v (hpre.subset (List.mem_of_getElem? v1))⟩

/-! ### Cases -/

/-- The stages of `exLate` with two given starting points, a number of tries, and the sum of the first coordinates as
the performance of a try. -/
def triesLate (tries : Nat) (k : Nat) : Late Nat Unit :=
  { exLate k with
    pilotLib := fun x => { (exLate k).pilotLib x with quality := fun z => some (∑ i, z i 0) }
    pilotOpts := fun _ _ => ⟨false, tries, none, some
      [fun i => if i.val = 0 ∨ i.val = 3 then 1 else 0, fun i => if i.val = 0 ∨ i.val = 3 then 1 else
        if i.val = 1 then 2 else 0]⟩ }

/-- The options of `lateEnv` with these stages. -/
def triesEnv (tries : Nat) : Env Nat Unit := { lateEnv with rest := fun k s vs => runLate (triesLate tries k) s vs }

theorem tries_complete (tries : Nat) : Complete (triesEnv tries) (triesLate tries) where
  stages _ _ _ := rfl
  trace _ _ out h := by
    cases h
    rfl

/-- The performances of the tries in an output. -/
def triesOf {E : Type} (r : Except E (Dict Name (Val Nat Unit))) : Option (List Num) :=
  match r with
  | .ok d =>
    match d .perf with
    | some (.numbers l) => some l
    | _ => none
  | _ => none

-- The second try, which is the better one, is made by the second build only.
example : Complete (triesEnv 1) (triesLate 1) ∧
    Complete { triesEnv 1 with rest := (triesEnv 2).rest } (triesLate 2) ∧
    (∀ k u vs, u ≠ .pilot → (triesEnv 2).rest k u vs = (triesEnv 1).rest k u vs) ∧
    triesOf (contents (runAll (runner defaultStages Pipeline.defaultSchedule (run (triesEnv 1))) Runner.State.init
      (args (triesEnv 1) lateNum (fromDataFrame id (fun _ => false) id lateTable)))) = some [.fin 7] ∧
    triesOf (contents (runAll (runner defaultStages Pipeline.defaultSchedule
      (run { triesEnv 1 with rest := (triesEnv 2).rest })) Runner.State.init
      (args { triesEnv 1 with rest := (triesEnv 2).rest } lateNum
        (fromDataFrame id (fun _ => false) id lateTable)))) = some [.fin 7, .fin 31] := by
  refine ⟨tries_complete _, tries_complete _, ?_, ?_, ?_⟩
  · intro k u vs hu
    cases u <;> first | exact absurd rfl hu | rfl
  · decide +kernel
  · decide +kernel

end Verif.EndToEnd
