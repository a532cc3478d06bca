import Verif.EndToEnd.PropsWithin
import Verif.EndToEnd.PropsInfluence
import Verif.Trace.PropsPurity
import Verif.EndToEnd.SpecPurer
/-!
# C191 for whole builds: a stricter purity
-/
set_option autoImplicit false
set_option linter.unusedSectionVars false

namespace Verif.EndToEnd

open Verif (Num)
open Verif.Pipeline (Stg Name runner defaultStages buildDefault outputs)
open Verif.Metadata (Table Squeezed fromDataFrame)
open Verif.Runner (Dict Op exec runAll contents RunError)

variable {V G : Type}

/-- **C191 (part), whole builds.** Two builds from the same table whose options differ only in the purity TRACE asks for
agree, if both complete, in everything that TRACE does not return, and the footprints of the build with the stricter
purity are parts of those of the other. -/
theorem C191_build_partial {lower : String → String} {numeric : Squeezed V → Bool} {str : V → V} {num : V → Num}
    {env : Env V (Kept G)} {le le' : Nat → Late V (Kept G)} {te te' : Nat → TraceEnv G} {t : Table V}
    {rest' : Nat → Stg → List (Val V (Kept G)) → Except Err (List (Name × Val V (Kept G)))}
    (complete : CompleteTrace env le te) (complete' : CompleteTrace { env with rest := rest' } le' te')
    (same : ∀ k u vs, u ≠ .trace → rest' k u vs = env.rest k u vs)
    {geo : Trace.Geo G (Fin 2 → ℚ) ℚ} {sub : G → G → Prop} (inc : Trace.Inclusion geo sub) {lax strict : ℚ} {sim : Bool}
    (options : ∀ k, (te k).geo = geo ∧ (te k).purity = lax ∧ (te k).useSim = sim)
    (options' : ∀ k, (te' k).geo = geo ∧ (te' k).purity = strict ∧ (te' k).useSim = sim) (stricter : lax ≤ strict)
    {order : List Stg} {π : Builder.SetOrder Stg} {sched : List (List Stg)}
    (horder : order.Perm defaultStages) (hs : buildDefault order π = .ok sched)
    (ops ops' : List (Op Stg Name (Val V (Kept G))))
    (calls : (exec (runner order sched (run { env with rest := rest' })) ops').st.calls.length =
      (exec (runner order sched (run env)) ops).st.calls.length) {d d' : Dict Name (Val V (Kept G))}
    (h : contents (runAll (runner order sched (run env)) (exec (runner order sched (run env)) ops).st
      (args env num (fromDataFrame lower numeric str t))) = .ok d)
    (h' : contents (runAll (runner order sched (run { env with rest := rest' }))
      (exec (runner order sched (run { env with rest := rest' })) ops').st
      (args { env with rest := rest' } num (fromDataFrame lower numeric str t))) = .ok d') :
    (∀ n, n ∉ (outputs .trace).map Prod.fst → d' n = d n) ∧ FootprintsShrink sub d d' := by
  have hsame : ∀ n, n ∉ (outputs .trace).map Prod.fst → d' n = d n :=
    C225_late (s := .trace) (by simp) complete.complete complete'.complete same horder hs ops ops' calls h h'
  refine ⟨hsame, ?_⟩
  obtain ⟨k, z, y, best, beta, algos, b1, -, -, b2, b3, b4, b5, b6, b7, b8, b9⟩ :=
    footprints_built complete ⟨order, π, sched, ops, horder, hs, h⟩
  obtain ⟨k', z', y', best', beta', algos', c1, -, -, c2, c3, c4, c5, c6, c7, c8, c9⟩ :=
    footprints_built complete' ⟨order, π, sched, ops', horder, hs, h'⟩
  obtain ⟨o1, o2, o3⟩ := options k
  obtain ⟨p1, p2, p3⟩ := options' k'
  rw [o3] at b4 b5
  rw [p3] at c4 c5
  rw [o1, o2] at b6 b7 b8 b9
  rw [p1, p2] at c6 c7 c8 c9
  rw [hsame _ (by decide), b1] at c1
  rw [hsame _ (by decide), b2] at c2
  rw [hsame _ (by decide), b3] at c3
  rw [hsame _ (by cases sim <;> decide), b4] at c4
  rw [hsame _ (by cases sim <;> decide), b5] at c5
  cases c1
  cases c2
  cases c3
  cases c4
  cases c5
  refine ⟨⟨_, b6, ?_⟩, ⟨_, _, b7, c7, Trace.build_smaller geo inc stricter _ _⟩, ⟨_, _, b8, c8, ?_⟩, _, _, b9, c9, ?_⟩
  · rw [c6, Trace.build_true geo strict lax _ _ (by simp)]
  · rw [List.forall₂_map_left_iff, List.forall₂_map_right_iff, List.forall₂_same]
    exact fun i _ => Trace.build_smaller geo inc stricter _ _
  · rw [List.forall₂_map_left_iff, List.forall₂_map_right_iff, List.forall₂_same]
    exact fun i _ => Trace.build_smaller geo inc stricter _ _

/-! ### Cases -/

/-- The six places of the instances of `traceTable`. -/
def sixPlaces : List (ℚ × ℚ) := [(3, 1), (12, 5), (7, 2), (9, 4), (4, 1), (11, 3)]

/-- Geometries are finite sets of points; every outline contains the place of the second instance, and the triangles
are the single places. -/
def spots : Trace.Geo (Finset (ℚ × ℚ)) (Fin 2 → ℚ) ℚ where
  empty := ∅
  isEmpty g := decide (g = ∅)
  contains g p := decide (pair p ∈ g)
  containsMulti g z := z.all fun p => decide (pair p ∈ g)
  area g := g.card
  inter a b := a ∩ b
  diff a b := a \ b
  union a b := a ∪ b
  geoms _ := none
  smooth g := g
  alpha l := insert (12, 5) (l.map pair).toFinset
  triangulate g := (sixPlaces.filter fun p => decide (p ∈ g)).map fun p => {p}
  hull g := g
  unique l := (l.map pair).eraseDups.map fun q => ![q.1, q.2]
  near _ _ _ _ := true

theorem spots_laws : Trace.Laws spots where
  area_nonneg g := by simp [spots]
  area_zero g p h := by
    have : g = ∅ := by simpa [spots] using h
    subst this; simp [spots]
  inter_left a b h := by
    have : a = ∅ := by simpa [spots] using h
    subst this; simp [spots]
  inter_right a b h := by
    have : b = ∅ := by simpa [spots] using h
    subst this; simp [spots]
  diff_contains a b p h := by simpa [spots] using h
  hull_piece _ _ _ _ := rfl
  unique_length := dots_laws.unique_length

theorem spots_inclusion : Trace.Inclusion spots (· ⊆ ·) where
  refl a := Finset.Subset.refl a
  trans _ _ _ := Finset.Subset.trans
  diff_sub _ _ := Finset.sdiff_subset
  diff_mono _ _ _ h := Finset.sdiff_subset_sdiff h (Finset.Subset.refl _)
  union_mono _ _ _ _ := Finset.union_subset_union
  union_left _ _ := Finset.subset_union_left
  union_right _ _ := Finset.subset_union_right
  empty_sub := Finset.empty_subset
  isEmpty_mono a b h hb := by
    have : b = ∅ := by simpa [spots] using hb
    subst this
    simpa [spots] using h
  smooth_mono _ _ h := h
  contains_mono a b p h hp := by
    have : pair p ∈ a := by simpa [spots] using hp
    simpa [spots] using h this
  area_mono a b h := by
    have := Finset.card_le_card h
    simpa [spots] using this

/-- TRACE on these geometries with the given purity. -/
def spotTrace (purity : ℚ) (_ : Nat) : TraceEnv (Finset (ℚ × ℚ)) :=
  ⟨spots, purity, false, fun n => (List.range n).reverse⟩

/-- The stages of `exLate` with this TRACE. -/
def spotLate (purity : ℚ) (k : Nat) : Late Nat (Kept (Finset (ℚ × ℚ))) where
  pilotLib := (exLate k).pilotLib
  pilotOpts := (exLate k).pilotOpts
  pearson := (exLate k).pearson
  qhull := (exLate k).qhull
  pThr := (exLate k).pThr
  cThr := (exLate k).cThr
  pythiaLib := (exLate k).pythiaLib
  useWeights := (exLate k).useWeights
  fitted := (exLate k).fitted
  fill _ := .nothing
  trace := runTrace (spotTrace purity k)

/-- The options of `allEnv` with these stages. -/
def spotEnv (purity : ℚ) : Env Nat (Kept (Finset (ℚ × ℚ))) where
  feats := none
  algos := none
  prelim := lateEnv.prelim
  junk := lateEnv.junk
  tr := id
  mid := (.nan, .nan)
  fit := fun _ => (0, 0, 0)
  subset := noSubset
  tests := lateEnv.tests
  split := none
  file := none
  lib := lateEnv.lib
  pearson := lateEnv.pearson
  thr := 0
  clusters := 2
  fill _ := .nothing
  rest k s vs := runLate (spotLate purity k) s vs

theorem spot_complete (purity : ℚ) : CompleteTrace (spotEnv purity) (spotLate purity) (spotTrace purity) where
  stages _ _ _ := rfl
  trace _ := rfl
  laws _ := spots_laws
  order _ _ := List.reverse_perm _

/-- The areas of the footprints where the algorithms are good in an output. -/
def goodAreas {E : Type} (r : Except E (Dict Name (Val Nat (Kept (Finset (ℚ × ℚ)))))) : Option (List ℚ) :=
  match r with
  | .ok d =>
    match d .good with
    | some (.other (.footprints l)) => some (l.map (·.area))
    | _ => none
  | _ => none

-- The outline of the first algorithm contains an instance on which it is not good; with the stricter purity its place
-- is cut out.  The hypotheses of `C191_build_partial` hold, and both builds complete.
example : CompleteTrace (spotEnv 0) (spotLate 0) (spotTrace 0) ∧
    CompleteTrace { spotEnv 0 with rest := (spotEnv (1 / 2)).rest } (spotLate (1 / 2)) (spotTrace (1 / 2)) ∧
    (∀ k u vs, u ≠ .trace → (spotEnv (1 / 2)).rest k u vs = (spotEnv 0).rest k u vs) ∧
    Trace.Inclusion spots (· ⊆ ·) ∧
    goodAreas (contents (runAll (runner defaultStages Pipeline.defaultSchedule (run (spotEnv 0))) Runner.State.init
      (args (spotEnv 0) lateNum (fromDataFrame id (fun _ => false) id traceTable)))) = some [5, 0] ∧
    goodAreas (contents (runAll (runner defaultStages Pipeline.defaultSchedule
      (run { spotEnv 0 with rest := (spotEnv (1 / 2)).rest })) Runner.State.init
      (args { spotEnv 0 with rest := (spotEnv (1 / 2)).rest } lateNum
        (fromDataFrame id (fun _ => false) id traceTable)))) = some [4, 0] :=
  ⟨spot_complete 0, ⟨fun _ _ _ => rfl, fun _ => rfl, fun _ => spots_laws, fun _ _ => List.reverse_perm _⟩,
    (fun k u vs hu => by cases u <;> first | exact absurd rfl hu | rfl), spots_inclusion, by decide +kernel,
    by decide +kernel⟩

end Verif.EndToEnd
