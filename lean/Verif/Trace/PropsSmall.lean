import Verif.Trace.Props
import Verif.Dbscan.Props
/-!
# How many instances a footprint needs: C121
-/
set_option autoImplicit false
set_option linter.unusedSectionVars false

namespace Verif.Trace

variable {G P K : Type} [Field K] [LinearOrder K] [IsStrictOrderedRing K]

/-- The full claim: if all instances are selected, at least three of them are distinct (the minimum
the code asks for), all are within the radius of each other and their alpha shape is not empty,
then the footprint comes from a polygon that is not empty. -/
def EnoughInstances : Prop :=
  ∀ (geo : Geo (List Nat) Nat ℚ) (_ : Laws geo) (purity : ℚ) (z : List Nat) (y : List Bool),
    (∀ b ∈ y, b = true) → 3 ≤ (geo.unique (masked z y)).length →
    (∀ pts k i j, geo.near pts k i j = true) →
    geo.isEmpty (geo.alpha (geo.unique (masked z y))) = false →
    ∃ g, (build geo purity z y).polygon = some (geo.smooth g) ∧ geo.isEmpty g = false

/-- **C121** is false: with exactly three distinct instances the polygon is always empty, because a
cluster needs a point with four points around it. -/
theorem C121_refuted : ¬ EnoughInstances := by
  intro h
  obtain ⟨g, h1, h2⟩ := h (cells fun _ _ _ _ => true) (cells_laws _) (1/2) [1, 2, 3]
    [true, true, true] (by simp) (by decide) (fun _ _ _ _ => rfl) (by decide)
  have h3 : (build (cells fun _ _ _ _ => true) (1/2) [1, 2, 3] [true, true, true]).polygon =
    some [] := by decide +kernel
  rw [h3] at h1
  have h4 : (some g : Option (List Nat)) = some [] := h1.symm
  cases h4
  exact absurd h2 (by decide)

theorem point_le {near : Nat → Nat → Bool} {m k : Nat} (hk : m ≤ k) (s : Dbscan.St)
    (hs : ∀ p, s.classes p ≤ 0) (i : Nat) : ∀ p, (Dbscan.point near m k s i).classes p ≤ 0 := by
  have hl : ¬ k + 1 ≤ (Dbscan.neigh near m i).length := by
    have := List.length_filter_le (near i) (List.range m)
    simp only [List.length_range] at this
    unfold Dbscan.neigh
    omega
  intro p
  unfold Dbscan.point
  split
  · simp only [hl, if_false]
    split <;> split <;> (try simp only [Dbscan.upd]) <;> (try split) <;> (try split) <;>
      first | exact hs p | simp
  · exact hs p

/-- With at most `k` points nothing is clustered. -/
theorem dbscan_few {near : Nat → Nat → Bool} {m k : Nat} (hk : m ≤ k) :
    ∀ c ∈ Dbscan.dbscan near m k, c < 0 := by
  have key : ∀ (l : List Nat) (s : Dbscan.St), (∀ p, s.classes p ≤ 0) →
      ∀ p, (l.foldl (Dbscan.point near m k) s).classes p ≤ 0 := by
    intro l
    induction l with
    | nil => intro s h; exact h
    | cons a l ih => intro s h; exact ih _ (point_le hk s h a)
  intro c hc
  obtain ⟨p, -, rfl⟩ := List.mem_map.1 hc
  have := key (List.range m) ⟨fun _ => false, fun _ => 0, 1⟩ (fun _ => le_refl _) p
  simp only
  split
  · decide
  · unfold Dbscan.loop at *
    omega

theorem foldl_max_neg : ∀ (l : List Int) (a : Int), a ≤ 0 → (∀ c ∈ l, c < 0) →
    l.foldl max a ≤ 0 := by
  intro l
  induction l with
  | nil => intro a ha _; exact ha
  | cons c l ih =>
    intro a ha h
    exact ih _ (max_le ha (h c (by simp)).le) fun d hd => h d (by simp [hd])

/-- **C121**, exactly: with at least three but at most `minPoints` distinct instances (three, or one
per twenty selected instances up to fifty, whichever is more) the footprint is the empty
polygon, however close they are. -/
theorem C121_too_few_partial (geo : Geo G P K) (purity : K) (z : List P) (y : List Bool)
    (h3 : 3 ≤ (geo.unique (masked z y)).length)
    (hk : (geo.unique (masked z y)).length ≤ max (min ((y.count true + 19) / 20) 50) 3) :
    build geo purity z y = fromPolygon geo (some geo.empty) z y true := by
  unfold build
  simp only
  rw [if_neg (by omega)]
  have h0 : ((Dbscan.dbscan (geo.near (geo.unique (masked z y)) (minPoints y))
      (geo.unique (masked z y)).length (minPoints y)).foldl max (-1)).toNat = 0 := by
    have := foldl_max_neg _ (-1) (by decide) (dbscan_few
      (near := geo.near (geo.unique (masked z y)) (minPoints y)) hk)
    exact Int.toNat_of_nonpos this
  rw [h0]
  rfl

/-- If all points are near each other and there are more than `k`, all get label 1. -/
theorem dbscan_all {near : Nat → Nat → Bool} {m k : Nat}
    (hn : ∀ i j, i < m → j < m → near i j = true) (hk : k + 1 ≤ m) :
    Dbscan.dbscan near m k = List.replicate m 1 := by
  have hsym : ∀ a b, a < m → b < m → near a b = near b a := fun a b ha hb => by
    rw [hn a b ha hb, hn b a hb ha]
  have hrefl : ∀ a, a < m → near a a = true := fun a ha => hn a a ha ha
  have hlink : ∀ p q, p < m → q < m → Dbscan.Linked near m p q := fun p q hp hq =>
    Relation.ReflTransGen.single ⟨hq, hn p q hp hq⟩
  have hcl : ∀ p, p < m → Dbscan.Clustered near m k p := by
    intro p hp
    refine ⟨p, Relation.ReflTransGen.refl, ?_⟩
    unfold Dbscan.Core
    rw [Finset.filter_true_of_mem fun r hr => hn p r hp (Finset.mem_range.1 hr)]
    simpa using hk
  obtain ⟨hlen, hlab⟩ := Dbscan.C58_clustered (k := k) hsym hrefl
  apply List.ext_getElem?
  intro p
  by_cases hp : p < m
  · obtain ⟨c, hc, h1, -⟩ := hlab p hp
    have hc1 := h1 (hcl p hp)
    obtain ⟨q, hq, hq1⟩ := Dbscan.C58_no_gaps (k := k) hsym hrefl p c 1 hc (by decide) hc1
    obtain ⟨d, -, h2, h3⟩ := (Dbscan.C58_same_label (k := k) hsym hrefl p q hp hq).2
      ⟨hlink p q hp hq, hcl p hp⟩
    rw [h3] at hq1
    rw [h2, hq1, List.getElem?_replicate, if_pos hp]
  · rw [List.getElem?_eq_none (by omega), List.getElem?_eq_none (by simp; omega)]

theorem masked_all_true {α : Type} : ∀ (l : List α) (n : Nat), l.length = n →
    masked l (List.replicate n true) = l := by
  intro l
  induction l with
  | nil => intro n h; cases n <;> simp_all [masked]
  | cons a l ih =>
    intro n h
    cases n with
    | zero => simp at h
    | succ n =>
      simp only [List.length_cons, Nat.add_right_cancel_iff] at h
      simp [List.replicate_succ, masked, ih n h]

/-- **C121**, what holds: with more than `minPoints` distinct instances that are all near each other
the footprint is made from the polygon fitted to all of them (if that is not empty). -/
theorem C121_enough_partial (geo : Geo G P K) (purity : K) (z : List P) (y : List Bool) (g : G)
    (hk : max (min ((y.count true + 19) / 20) 50) 3 < (geo.unique (masked z y)).length)
    (hnear : ∀ i j, geo.near (geo.unique (masked z y)) (minPoints y) i j = true)
    (hfit : fitPoly geo purity z (geo.unique (masked z y)) y = some g)
    (hg : geo.isEmpty g = false) :
    build geo purity z y = fromPolygon geo (some g) z y true := by
  unfold build
  simp only
  rw [if_neg (by omega), dbscan_all (k := minPoints y) (fun i j _ _ => hnear i j) hk]
  have htop : ∀ m : Nat, 0 < m → (List.replicate m (1 : Int)).foldl max (-1) = 1 := by
    intro m
    induction m with
    | zero => intro h; omega
    | succ m ih =>
      intro _
      rw [List.replicate_succ', List.foldl_append]
      cases m with
      | zero => rfl
      | succ m => rw [ih (by omega)]; rfl
  rw [htop _ (by omega)]
  have his : (List.range (1 : Int).toNat).map (· + 1) = [1] := rfl
  rw [his]
  have hl : labelled (geo.unique (masked z y))
      (List.replicate (geo.unique (masked z y)).length 1) (1 : Nat) =
        geo.unique (masked z y) := by
    unfold labelled
    rw [List.map_replicate]
    simpa using masked_all_true (geo.unique (masked z y)) _ rfl
  simp only [body, hl, hfit, hg, Bool.false_eq_true, if_false, Option.getD_some]

/-- Non-vacuity for C121: three instances are too few, four are enough. -/
example : build (cells fun _ _ _ _ => true) (1/2) [7, 8, 9] [true, true, true] =
    fromPolygon (cells fun _ _ _ _ => true) (some []) [7, 8, 9] [true, true, true] true :=
  C121_too_few_partial _ _ _ _ (by decide) (by decide)

example : build (cells fun _ _ _ _ => true) (1/2) [6, 7, 8, 9, 5] [true, true, true, true, false] =
    fromPolygon (cells fun _ _ _ _ => true) (some [6, 7, 8, 9]) [6, 7, 8, 9, 5]
      [true, true, true, true, false] true :=
  C121_enough_partial _ _ _ _ _ (by decide) (fun _ _ => rfl) (by decide +kernel) (by decide)

end Verif.Trace
