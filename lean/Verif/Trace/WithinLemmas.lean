import Verif.Trace.SpecWithin
import Verif.Trace.Lemmas
/-!
# Lemmas on where footprints lie
-/
set_option autoImplicit false
set_option linter.unusedSectionVars false

namespace Verif.Trace

variable {G P K : Type} [AddCommGroup P] [Module ℚ P] [Field K] [LinearOrder K]
  {geo : Geo G P K} {region : G → Set P}

theorem prune_within (h : Regions geo region) (purity : K) (z : List P) (y : List Bool) :
    ∀ (l : List G) (g : G), region (l.foldl (prune geo purity z y) g) ⊆ region g
  | [], g => subset_rfl
  | t :: l, g => by
    refine (prune_within h purity z y l _).trans ?_
    unfold prune
    dsimp only
    split
    · exact h.diff _ _
    · exact subset_rfl

theorem fitPoly_within (h : Regions geo region) {purity : K} {z pts : List P} {y : List Bool} {g : G}
    (hg : fitPoly geo purity z pts y = some g) : region g ⊆ convexHull ℚ {p | p ∈ pts} := by
  unfold fitPoly at hg
  split at hg
  · cases hg
  · dsimp only at hg
    split at hg
    · cases hg
      exact h.alpha _
    · split at hg
      · cases hg
      · cases hg
        exact (prune_within h purity z y _ _).trans (h.alpha _)

theorem body_within (h : Regions geo region) {purity : K} {z pts : List P} {y : List Bool} {labels : List Int}
    {s : Set P} (hs : ∀ i : Int, convexHull ℚ {p | p ∈ labelled pts labels i} ⊆ s) :
    ∀ (is : List Nat) (acc : Option G), (∀ g, acc = some g → region g ⊆ s) →
      ∀ g, body geo purity z y pts labels is acc = some g → region g ⊆ s
  | [], acc, hacc, g, hg => hacc g hg
  | i :: is, acc, hacc, g, hg => by
    unfold body at hg
    split at hg
    · exact body_within h hs is acc hacc g hg
    · rename_i aux haux
      have ha := (fitPoly_within h haux).trans (hs i)
      split at hg
      · exact body_within h hs is acc hacc g hg
      · split at hg
        · exact body_within h hs is _ (fun g' hg' => by cases hg'; exact ha) g hg
        · rename_i b
          refine body_within h hs is _ (fun g' hg' => ?_) g hg
          cases hg'
          exact (h.union _ _).trans (Set.union_subset (hacc b rfl) ha)

/-- A footprint lies between the instances it is built from. -/
theorem build_within (h : Regions geo region) {purity : K} {z : List P} {y : List Bool} {g : G}
    (hg : (build geo purity z y).polygon = some g) : region g ⊆ convexHull ℚ {p | p ∈ masked z y} := by
  unfold build at hg
  dsimp only at hg
  split at hg
  · cases hg
  · simp only [fromPolygon, if_true, Option.some.injEq] at hg
    subst hg
    refine (h.smooth _).trans (convexHull_min ?_ (convex_convexHull ℚ _))
    generalize hl : Dbscan.dbscan _ _ _ = labels
    generalize hb : body geo purity z y _ labels _ none = b
    cases b with
    | none => rw [Option.getD_none, h.empty]; exact Set.empty_subset _
    | some b =>
      refine body_within h (s := convexHull ℚ {p | p ∈ masked z y}) ?_ _ none (by simp) b hb
      intro i
      refine convexHull_mono fun p hp => h.unique _ _ ?_
      exact (masked_sublist _ _).subset hp

end Verif.Trace
