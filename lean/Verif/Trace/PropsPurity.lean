import Verif.Trace.PropsOrder
import Mathlib.Data.Finset.Lattice.Basic
import Mathlib.Data.Finset.Card
import Mathlib.Tactic.NormNum
/-!
# The purity demanded of the footprints: C191
-/
set_option autoImplicit false
set_option linter.unusedSectionVars false

namespace Verif.Trace

variable {G P K : Type} [Field K] [LinearOrder K] [IsStrictOrderedRing K]

/-! ### Specification -/

/-- `sub a b` is read "the geometry `a` is a part of the geometry `b`"; what plane geometry says
about it.  The smoothing (grow by 0.01, then shrink by 0.01) respects it. -/
structure Inclusion (geo : Geo G P K) (sub : G → G → Prop) : Prop where
  refl : ∀ a, sub a a
  trans : ∀ a b c, sub a b → sub b c → sub a c
  diff_sub : ∀ a b, sub (geo.diff a b) a
  diff_mono : ∀ a b c, sub a b → sub (geo.diff a c) (geo.diff b c)
  union_mono : ∀ a b c d, sub a b → sub c d → sub (geo.union a c) (geo.union b d)
  union_left : ∀ a b, sub a (geo.union a b)
  union_right : ∀ a b, sub b (geo.union a b)
  empty_sub : ∀ a, sub geo.empty a
  isEmpty_mono : ∀ a b, sub a b → geo.isEmpty b = true → geo.isEmpty a = true
  smooth_mono : ∀ a b, sub a b → sub (geo.smooth a) (geo.smooth b)
  contains_mono : ∀ a b p, sub a b → geo.contains a p = true → geo.contains b p = true
  area_mono : ∀ a b, sub a b → geo.area a ≤ geo.area b

/-- One footprint is a part of another: both are missing, or the polygon is a part of the polygon;
the area and the numbers of instances are at most as large. -/
structure Smaller (sub : G → G → Prop) (f g : Footprint G K) : Prop where
  missing_iff : f.polygon = none ↔ g.polygon = none
  polygon : ∀ a b, f.polygon = some a → g.polygon = some b → sub a b
  area : f.area ≤ g.area
  elements : f.elements ≤ g.elements
  good : f.good ≤ g.good

/-- What one would expect of a stricter purity: the analysis completes if it does with the laxer
one, the footprints become smaller, and those that still contain instances become purer. -/
def StricterIsPurer : Prop :=
  ∀ (geo : Geo (Finset Nat) Nat ℚ), Laws geo → Inclusion geo (· ⊆ ·) →
    ∀ (lax strict : ℚ), lax ≤ strict → ∀ (n : Nat) (order : List Nat), order.Perm (List.range n) →
    ∀ (l : List (Instance Nat)) (out : Out (Finset Nat) ℚ),
      analyse geo lax n order l = .ok out →
      ∃ out', analyse geo strict n order l = .ok out' ∧
        ∀ (i : Nat) (f f' : Footprint (Finset Nat) ℚ), out.good[i]? = some f → out'.good[i]? = some f' → f'.elements ≠ 0 →
          f.purity ≤ f'.purity

/-! ### Proofs -/

section
variable (geo : Geo G P K) {sub : G → G → Prop} (inc : Inclusion geo sub) {lax strict : K}
  (hp : lax ≤ strict) (z : List P) (y : List Bool)
include inc hp

theorem prune_mono (t a b : G) (h : sub a b) :
    sub (prune geo strict z y a t) (prune geo lax z y b t) := by
  unfold prune
  dsimp only
  split
  · split
    · exact inc.diff_mono _ _ _ h
    · exact inc.trans _ _ _ (inc.diff_sub _ _) h
  · next hs =>
    split
    · next hl => exact absurd ⟨hl.1, lt_of_lt_of_le hl.2 hp⟩ hs
    · exact h

theorem pruneAll_mono : ∀ (ts : List G) (a b : G), sub a b →
    sub (ts.foldl (prune geo strict z y) a) (ts.foldl (prune geo lax z y) b)
  | [], _, _, h => h
  | t :: ts, a, b, h => pruneAll_mono ts _ _ (prune_mono geo inc hp z y t a b h)

/-- `none` is below everything. -/
def OSub (sub : G → G → Prop) : Option G → Option G → Prop
  | none, _ => True
  | some _, none => False
  | some a, some b => sub a b

theorem fitPoly_mono (pts : List P) :
    OSub sub (fitPoly geo strict z pts y) (fitPoly geo lax z pts y) := by
  unfold fitPoly
  split
  · trivial
  · dsimp only
    split
    · exact inc.refl _
    · split
      · trivial
      · exact pruneAll_mono geo inc hp z y _ _ _ (inc.refl _)

theorem body_mono (pts : List P) (labels : List Int) : ∀ (is : List Nat) (a b : Option G),
    OSub sub a b →
    OSub sub (body geo strict z y pts labels is a) (body geo lax z y pts labels is b)
  | [], _, _, h => h
  | i :: is, a, b, h => by
    have hf := fitPoly_mono geo inc hp z y (labelled pts labels i)
    unfold body
    cases hs : fitPoly geo strict z (labelled pts labels i) y with
    | none =>
      cases hl : fitPoly geo lax z (labelled pts labels i) y with
      | none => exact body_mono pts labels is a b h
      | some v =>
        dsimp only
        split
        · exact body_mono pts labels is a b h
        · cases b with
          | none =>
            cases a with
            | none => exact body_mono pts labels is _ _ trivial
            | some _ => exact h.elim
          | some b =>
            cases a with
            | none => exact body_mono pts labels is _ _ trivial
            | some a => exact body_mono pts labels is _ _ (inc.trans _ _ _ h (inc.union_left _ _))
    | some u =>
      cases hl : fitPoly geo lax z (labelled pts labels i) y with
      | none => rw [hs, hl] at hf; exact hf.elim
      | some v =>
        rw [hs, hl] at hf
        have hf : sub u v := hf
        dsimp only
        by_cases hv : geo.isEmpty v = true
        · simp only [hv, inc.isEmpty_mono _ _ hf hv, if_true]
          exact body_mono pts labels is a b h
        · simp only [hv, if_false, Bool.false_eq_true]
          by_cases hu : geo.isEmpty u = true
          · simp only [hu, if_true]
            cases b with
            | none =>
              cases a with
              | none => exact body_mono pts labels is _ _ trivial
              | some _ => exact h.elim
            | some b =>
              cases a with
              | none => exact body_mono pts labels is _ _ trivial
              | some a => exact body_mono pts labels is _ _ (inc.trans _ _ _ h (inc.union_left _ _))
          · simp only [hu, if_false, Bool.false_eq_true]
            cases b with
            | none =>
              cases a with
              | none => exact body_mono pts labels is _ _ hf
              | some _ => exact h.elim
            | some b =>
              cases a with
              | none => exact body_mono pts labels is _ _ (inc.trans _ _ _ hf (inc.union_right _ _))
              | some a => exact body_mono pts labels is _ _ (inc.union_mono _ _ _ _ h hf)

end

theorem count_mono (geo : Geo G P K) {sub : G → G → Prop} (inc : Inclusion geo sub) (l : List P)
    (a b : G) (h : sub a b) : count geo a l ≤ count geo b l := by
  unfold count
  refine List.Sublist.length_le ?_
  exact List.monotone_filter_right l fun p => inc.contains_mono a b p h

theorem build_smaller (geo : Geo G P K) {sub : G → G → Prop} (inc : Inclusion geo sub)
    {lax strict : K} (hp : lax ≤ strict) (z : List P) (y : List Bool) :
    Smaller sub (build geo strict z y) (build geo lax z y) := by
  unfold build
  dsimp only
  split
  · exact ⟨Iff.rfl, fun a b h => by simp [missing] at h, le_refl _, le_refl _, le_refl _⟩
  · generalize Dbscan.dbscan _ _ _ = labels
    have hb := body_mono geo inc hp z y (geo.unique (masked z y)) labels
      ((List.range (labels.foldl max (-1)).toNat).map (· + 1)) none none trivial
    have hs : sub (geo.smooth ((body geo strict z y (geo.unique (masked z y)) labels
          ((List.range (labels.foldl max (-1)).toNat).map (· + 1)) none).getD geo.empty))
        (geo.smooth ((body geo lax z y (geo.unique (masked z y)) labels
          ((List.range (labels.foldl max (-1)).toNat).map (· + 1)) none).getD geo.empty)) := by
      apply inc.smooth_mono
      revert hb
      generalize body geo strict z y _ labels _ none = a
      generalize body geo lax z y _ labels _ none = b
      intro hb
      cases a with
      | none => exact inc.empty_sub _
      | some a =>
        cases b with
        | none => exact hb.elim
        | some b => exact hb
    refine ⟨by simp [fromPolygon], ?_, inc.area_mono _ _ hs, count_mono geo inc z _ _ hs,
      count_mono geo inc _ _ _ hs⟩
    intro a b ha hb
    simp only [fromPolygon, if_true, Option.some.injEq] at ha hb
    subst ha; subst hb
    exact hs

theorem fitPoly_true (geo : Geo G P K) (a b : K) (z pts : List P) (y : List Bool)
    (h : ∀ v ∈ y, v = true) : fitPoly geo a z pts y = fitPoly geo b z pts y := by
  have : y.all id = true := by simpa using h
  simp [fitPoly, this]

theorem body_true (geo : Geo G P K) (a b : K) (z : List P) (y : List Bool) (pts : List P)
    (labels : List Int) (h : ∀ v ∈ y, v = true) : ∀ (is : List Nat) (acc : Option G),
    body geo a z y pts labels is acc = body geo b z y pts labels is acc
  | [], _ => rfl
  | i :: is, acc => by
    unfold body
    rw [fitPoly_true geo a b z _ y h]
    cases fitPoly geo b z (labelled pts labels i) y with
    | none => exact body_true geo a b z y pts labels h is acc
    | some v => simp only [body_true geo a b z y pts labels h is]

theorem build_true (geo : Geo G P K) (a b : K) (z : List P) (y : List Bool)
    (h : ∀ v ∈ y, v = true) : build geo a z y = build geo b z y := by
  unfold build
  simp only [body_true geo a b z y _ _ h]

/-! ### C191: a stricter purity -/

/-- If TRACE completes with two purities, the footprint of the space is the same, and the
footprint of every algorithm, both kinds, and of the hard instances is with the stricter purity a
part of the one with the laxer purity, with no more area and no more instances; the same ones are
missing. -/
theorem C191_smaller_partial (geo : Geo G P K) (laws : Laws geo) (sub : G → G → Prop)
    (inc : Inclusion geo sub) (lax strict : K) (hp : lax ≤ strict) (n : Nat)
    (order order' : List Nat) (ho : order.Perm (List.range n)) (ho' : order'.Perm (List.range n))
    (l : List (Instance P)) (out out' : Out G K) (h : analyse geo lax n order l = .ok out)
    (h' : analyse geo strict n order' l = .ok out') :
    out'.space = out.space ∧ Smaller sub out'.hard out.hard ∧
      List.Forall₂ (Smaller sub) out'.good out.good ∧
      List.Forall₂ (Smaller sub) out'.best out.best := by
  obtain ⟨_, s, d, g, b⟩ := (analyse_spec geo laws lax n order ho l out).1 h
  obtain ⟨_, s', d', g', b'⟩ := (analyse_spec geo laws strict n order' ho' l out').1 h'
  rw [s, d, g, b, s', d', g', b']
  refine ⟨build_true geo _ _ _ _ (by simp), build_smaller geo inc hp _ _, ?_, ?_⟩
  · rw [List.forall₂_map_left_iff, List.forall₂_map_right_iff, List.forall₂_same]
    exact fun i _ => build_smaller geo inc hp _ _
  · rw [List.forall₂_map_left_iff, List.forall₂_map_right_iff, List.forall₂_same]
    exact fun i _ => build_smaller geo inc hp _ _

/-! ### A geometry of finite sets, for the witnesses -/

/-- Geometries are finite sets of cells; the outline of a set of points and the triangles of a
geometry are parameters. -/
def regions (alpha : List Nat → Finset Nat) (tri : Finset Nat → List (Finset Nat)) :
    Geo (Finset Nat) Nat ℚ where
  empty := ∅
  isEmpty g := decide (g = ∅)
  contains g p := decide (p ∈ g)
  containsMulti g z := z.all fun p => decide (p ∈ g)
  area g := g.card
  inter a b := a ∩ b
  diff a b := a \ b
  union a b := a ∪ b
  geoms _ := none
  smooth g := g
  alpha := alpha
  triangulate := tri
  hull g := g
  unique l := l.eraseDups
  near _ _ _ _ := true

theorem regions_laws (alpha : List Nat → Finset Nat) (tri : Finset Nat → List (Finset Nat)) :
    Laws (regions alpha tri) where
  area_nonneg g := by simp [regions]
  area_zero g p h := by
    have : g = ∅ := by simpa [regions] using h
    subst this; simp [regions]
  inter_left a b h := by
    have : a = ∅ := by simpa [regions] using h
    subst this; simp [regions]
  inter_right a b h := by
    have : b = ∅ := by simpa [regions] using h
    subst this; simp [regions]
  diff_contains a b p h := by simpa [regions] using h
  hull_piece _ _ _ _ := rfl
  unique_length := (cells_laws fun _ _ _ _ => true).unique_length

theorem regions_inclusion (alpha : List Nat → Finset Nat) (tri : Finset Nat → List (Finset Nat)) :
    Inclusion (regions alpha tri) (· ⊆ ·) where
  refl a := Finset.Subset.refl a
  trans _ _ _ := Finset.Subset.trans
  diff_sub _ _ := Finset.sdiff_subset
  diff_mono _ _ _ h := Finset.sdiff_subset_sdiff h (Finset.Subset.refl _)
  union_mono _ _ _ _ := Finset.union_subset_union
  union_left _ _ := Finset.subset_union_left
  union_right _ _ := Finset.subset_union_right
  empty_sub := Finset.empty_subset
  isEmpty_mono a b h hb := by
    have : b = ∅ := by simpa [regions] using hb
    subst this
    simpa [regions] using h
  smooth_mono _ _ h := h
  contains_mono a b p h hp := by
    have : p ∈ a := by simpa [regions] using hp
    simpa [regions] using h this
  area_mono a b h := by
    have := Finset.card_le_card h
    simpa [regions] using this

/-- Outlines in a space with eight instances: the outline of the first four contains the fifth,
that of the last four contains the fourth. -/
def outline (l : List Nat) : Finset Nat :=
  if l = [0, 1, 2, 3] then {0, 1, 2, 3, 4}
  else if l = [4, 5, 6, 7] then {3, 4, 5, 6, 7} else l.toFinset

/-- The triangles of these outlines. -/
def pieces (g : Finset Nat) : List (Finset Nat) :=
  if g = {0, 1, 2, 3, 4} then [{0, 1, 2}, {3}, {4}]
  else if g = {3, 4, 5, 6, 7} then [{3, 4, 5}, {6, 7}] else []

/-- Eight instances; the first algorithm is best on four, the second on the other four. -/
def twoGroups : List (Instance Nat) :=
  [⟨0, [true, false], 0, true⟩, ⟨1, [true, false], 0, true⟩, ⟨2, [true, false], 0, true⟩,
   ⟨3, [true, false], 0, true⟩, ⟨4, [false, true], 1, true⟩, ⟨5, [false, true], 1, true⟩,
   ⟨6, [false, true], 1, true⟩, ⟨7, [false, true], 1, true⟩]

/-- The areas of the footprints of a result, for the examples. -/
def areas : Except Err (Out (Finset Nat) ℚ) → Option (List ℚ × List ℚ)
  | .ok o => some (o.good.map (·.area), o.best.map (·.area))
  | .error _ => none

/-- The instances in the footprints of a result, good ones and all. -/
def tallies : Except Err (Out (Finset Nat) ℚ) → Option (List (Nat × Nat))
  | .ok o => some (o.good.map fun f => (f.good, f.elements))
  | .error _ => none

/-- The footprints at three purities: the strictest and the laxest complete, and the areas of the
strictest are smaller. -/
example : areas (analyse (regions outline pieces) 0 2 [0, 1] twoGroups) = some ([5, 5], [5, 5]) ∧
    areas (analyse (regions outline pieces) 1 2 [1, 0] twoGroups) = some ([4, 2], [4, 2]) ∧
    areas (analyse (regions outline pieces) (3 / 5) 2 [0, 1] twoGroups) = none := by
  refine ⟨by decide +kernel, by decide +kernel, by decide +kernel⟩

/-- The expectation fails: with purity 0 the two footprints share one instance of each algorithm,
which is no contradiction; with purity 3/5 one of the two instances is cut out of one footprint
only, the shared region becomes a contradiction, and TRACE raises. -/
theorem C191_refuted : ¬ StricterIsPurer := by
  intro h
  have h0 : ∃ out, analyse (regions outline pieces) 0 2 [0, 1] twoGroups = .ok out := by
    have : areas (analyse (regions outline pieces) 0 2 [0, 1] twoGroups) ≠ none := by
      decide +kernel
    cases ha : analyse (regions outline pieces) 0 2 [0, 1] twoGroups with
    | error e => rw [ha] at this; exact absurd rfl this
    | ok out => exact ⟨out, rfl⟩
  obtain ⟨out, h0⟩ := h0
  obtain ⟨out', h1, -⟩ := h _ (regions_laws outline pieces) (regions_inclusion outline pieces) 0
    (3 / 5) (by norm_num) 2 [0, 1] (by decide) _ out h0
  have : areas (analyse (regions outline pieces) (3 / 5) 2 [0, 1] twoGroups) = none := by
    decide +kernel
  rw [h1] at this
  cases this

/-- Ten instances of one algorithm; two of the four on the triangle are good, and two of the six
on the edges. -/
def edgeInstances : List (Instance Nat) :=
  [⟨0, [true], 0, true⟩, ⟨1, [true], 0, true⟩, ⟨2, [false], 0, true⟩, ⟨3, [false], 0, true⟩,
   ⟨4, [true], 0, true⟩, ⟨5, [true], 0, true⟩, ⟨6, [false], 0, true⟩, ⟨7, [false], 0, true⟩,
   ⟨8, [false], 0, true⟩, ⟨9, [false], 0, true⟩]

/-- Even when both runs complete the purity can fall, since instances on the edges between
triangles lie in none of them and only the triangles are judged: with the purity 0 four of the ten
instances of the footprint are good; with the purity 3/4 the only triangle is cut out and two of
the six instances left are good. -/
theorem C191_purity_refuted :
    let geo := regions (fun _ => Finset.range 10)
      fun g => if g = Finset.range 10 then [{0, 1, 2, 3}] else []
    Laws geo ∧ Inclusion geo (· ⊆ ·) ∧
      tallies (analyse geo 0 1 [0] edgeInstances) = some [(4, 10)] ∧
      tallies (analyse geo (3 / 4) 1 [0] edgeInstances) = some [(2, 6)] :=
  ⟨regions_laws _ _, regions_inclusion _ _, by decide +kernel, by decide +kernel⟩

end Verif.Trace
