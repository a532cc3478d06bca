import Verif.Trace.PropsSmall
import Mathlib.Algebra.Order.Floor.Semiring
import Mathlib.Data.Rat.Floor
/-!
# What a footprint is made of: C124
-/
set_option autoImplicit false
set_option linter.unusedSectionVars false

namespace Verif.Trace

variable {G P K : Type} [Field K] [LinearOrder K] [IsStrictOrderedRing K]

/-- The elements of a list whose entry in a second list has a property. -/
def selected {α β : Type} (l : List α) (m : List β) (good : β → Bool) : List α :=
  ((l.zip m).filter fun q => good q.2).map Prod.fst

/-- The union of a list of geometries. -/
def unionAll (geo : Geo G P K) : List G → G
  | [] => geo.empty
  | g :: gs => gs.foldl geo.union g

/-- A triangle that contains instances, with too few good ones among them. -/
def Impure (geo : Geo G P K) (purity : K) (z : List P) (y : List Bool) (t : G) : Prop :=
  0 < (z.filter (geo.contains (geo.hull t))).length ∧
  (inside geo (geo.hull t) z y : K) < purity * (z.filter (geo.contains (geo.hull t))).length

/-- The number of neighbours asked for: one per twenty selected instances rounded up, at most 50,
at least 3. -/
def Neighbours (y : List Bool) (k : Nat) : Prop :=
  (k : Int) = max 3 (min 50 ⌈((y.filter id).length : ℚ) / 20⌉)

open Classical in
/-- What the polygon of a cluster should be: nothing for fewer than three points; the alpha shape if
all instances are good; else nothing if the alpha shape is empty and otherwise the alpha shape
without its impure triangles. -/
noncomputable def clusterPolygon (geo : Geo G P K) (purity : K) (z : List P) (y : List Bool)
    (pts : List P) : Option G :=
  if 3 ≤ pts.length ∧ ((∀ b ∈ y, b = true) ∨ geo.isEmpty (geo.alpha pts) = false) then
    some (((geo.triangulate (geo.alpha pts)).filter fun t =>
      decide (¬ (∀ b ∈ y, b = true) ∧ Impure geo purity z y t)).foldl geo.diff (geo.alpha pts))
  else none

theorem masked_eq_selected {α : Type} : ∀ (l : List α) (m : List Bool),
    masked l m = selected l m id := by
  intro l
  induction l with
  | nil => intro m; cases m <;> rfl
  | cons a l ih =>
    intro m
    cases m with
    | nil => rfl
    | cons b m =>
      cases b
      · simpa [masked, selected] using ih m
      · simpa [masked, selected] using ih m

theorem labelled_eq_selected (pts : List P) (labels : List Int) (c : Int) :
    labelled pts labels c = selected pts labels (fun l => decide (l = c)) := by
  unfold labelled
  rw [masked_eq_selected]
  unfold selected
  induction pts generalizing labels with
  | nil => rfl
  | cons a pts ih =>
    cases labels with
    | nil => rfl
    | cons l labels =>
      simp only [List.map_cons, List.zip_cons_cons, List.filter_cons]
      by_cases h : l = c
      · simpa [h] using ih labels
      · simpa [h] using ih labels

theorem foldl_prune (geo : Geo G P K) (purity : K) (z : List P) (y : List Bool)
    (d : G → Bool) : ∀ (ts : List G) (g : G), (∀ t ∈ ts, d t = true ↔ Impure geo purity z y t) →
    ts.foldl (prune geo purity z y) g = (ts.filter d).foldl geo.diff g := by
  intro ts
  induction ts with
  | nil => intro g _; rfl
  | cons t ts ih =>
    intro g h
    have hp : (0 < count geo (geo.hull t) z ∧
        (count geo (geo.hull t) (masked z y) : K) / (count geo (geo.hull t) z : K) < purity) ↔
        Impure geo purity z y t := by
      unfold Impure
      rw [inside_eq]
      refine and_congr_right fun hpos => ?_
      have hpos' : (0 : K) < count geo (geo.hull t) z := by exact_mod_cast hpos
      rw [div_lt_iff₀ hpos']
      rfl
    rw [List.foldl_cons, ih _ fun t' ht' => h t' (List.mem_cons_of_mem _ ht')]
    have ht := h t List.mem_cons_self
    rw [List.filter_cons]
    by_cases hi : Impure geo purity z y t
    · rw [if_pos (ht.2 hi), List.foldl_cons]
      congr 1
      unfold prune
      simp only
      rw [if_pos (hp.2 hi)]
    · rw [if_neg (fun h' => hi (ht.1 h'))]
      congr 1
      unfold prune
      simp only
      rw [if_neg (fun h' => hi (hp.1 h'))]

/-- **C124**, one cluster: the polygon fitted to a cluster is the one described by
`clusterPolygon`. -/
theorem C124_cluster (geo : Geo G P K) (purity : K) (z pts : List P) (y : List Bool) :
    fitPoly geo purity z pts y = clusterPolygon geo purity z y pts := by
  classical
  have hall : y.all id = true ↔ ∀ b ∈ y, b = true := by simp
  unfold fitPoly clusterPolygon
  by_cases h3 : pts.length < 3
  · rw [if_pos h3, if_neg (by omega)]
  · rw [if_neg h3]
    simp only
    by_cases hy : ∀ b ∈ y, b = true
    · rw [if_pos (hall.2 hy), if_pos ⟨by omega, .inl hy⟩]
      have hn : ∀ t : G, decide (¬ (∀ b ∈ y, b = true) ∧ Impure geo purity z y t) = false :=
        fun t => decide_eq_false fun h => h.1 hy
      simp only [hn, List.filter_false, List.foldl_nil]
    · rw [if_neg (fun h => hy (hall.1 h))]
      by_cases he : geo.isEmpty (geo.alpha pts) = true
      · rw [if_pos he, if_neg]
        rintro ⟨-, h | h⟩
        · exact hy h
        · rw [he] at h; cases h
      · rw [if_neg he, if_pos ⟨by omega, .inr (by simpa using he)⟩]
        congr 1
        apply foldl_prune
        intro t _
        simp only [hy, not_false_eq_true, true_and, decide_eq_true_eq]

theorem neighbours_minPoints (y : List Bool) : Neighbours y (minPoints y) := by
  unfold Neighbours minPoints
  have hc : y.count true = (y.filter id).length := by
    rw [List.count_eq_countP, List.countP_eq_length_filter]
    congr 1
    exact List.filter_congr fun b _ => by cases b <;> rfl
  rw [hc]
  have h : ⌈((y.filter id).length : ℚ) / 20⌉ = (((y.filter id).length + 19) / 20 : Nat) := by
    rw [Int.ceil_eq_iff]
    generalize (y.filter id).length = n
    have h1 : 20 * ((n + 19) / 20) < n + 20 := by omega
    have h2 : n ≤ 20 * ((n + 19) / 20) := by omega
    have h1' : (20 : ℚ) * (((n + 19) / 20 : Nat) : ℚ) < n + 20 := by exact_mod_cast h1
    have h2' : (n : ℚ) ≤ 20 * (((n + 19) / 20 : Nat) : ℚ) := by exact_mod_cast h2
    generalize (n + 19) / 20 = q at *
    rw [Int.cast_natCast]
    constructor <;> linarith
  rw [h]
  push_cast
  omega

theorem neighbours_unique {y : List Bool} {k : Nat} (h : Neighbours y k) : k = minPoints y := by
  have := neighbours_minPoints y
  unfold Neighbours at *
  omega

theorem body_union (geo : Geo G P K) (purity : K) (z : List P) (y : List Bool) (pts : List P)
    (labels : List Int) : ∀ (is : List Nat) (acc : Option G),
    body geo purity z y pts labels is acc =
      match acc.toList ++ (is.filterMap fun (i : Nat) =>
        fitPoly geo purity z (labelled pts labels i) y).filter (fun g => !geo.isEmpty g) with
      | [] => none
      | g :: gs => some (gs.foldl geo.union g) := by
  intro is
  induction is with
  | nil => intro acc; cases acc <;> rfl
  | cons i is ih =>
    intro acc
    rw [body]
    cases hf : fitPoly geo purity z (labelled pts labels i) y with
    | none => simp only [ih, List.filterMap_cons, hf]
    | some aux =>
      simp only [List.filterMap_cons, hf, List.filter_cons]
      by_cases he : geo.isEmpty aux = true
      · simp [he, ih]
      · have he' : geo.isEmpty aux = false := by simpa using he
        cases acc with
        | none => simp [he', ih]
        | some b => simp [he', ih]

theorem foldl_max_spec : ∀ (l : List Int) (a : Int),
    a ≤ l.foldl max a ∧ (∀ c ∈ l, c ≤ l.foldl max a) ∧ (l.foldl max a = a ∨ l.foldl max a ∈ l) := by
  intro l
  induction l with
  | nil => intro a; simp
  | cons b l ih =>
    intro a
    obtain ⟨h1, h2, h3⟩ := ih (max a b)
    rw [List.foldl_cons]
    refine ⟨le_trans (le_max_left _ _) h1, ?_, ?_⟩
    · intro c hc
      rcases List.mem_cons.1 hc with rfl | hc
      · exact le_trans (le_max_right _ _) h1
      · exact h2 c hc
    · rcases h3 with h3 | h3
      · rcases max_choice a b with h | h
        · exact .inl (h3.trans h)
        · exact .inr (by rw [h3, h]; exact List.mem_cons_self)
      · exact .inr (List.mem_cons_of_mem _ h3)

/-- **C124** A footprint of at least three distinct instances is the smoothed union of the non-empty
polygons of the clusters 1, 2, ... up to the largest label (C58 says what the clusters are),
in that order; noise contributes nothing. -/
theorem C124_union (geo : Geo G P K) (purity : K) (z : List P) (y : List Bool) (pts : List P)
    (hpts : pts = geo.unique (selected z y id)) (h3 : 3 ≤ pts.length) (k : Nat)
    (hk : Neighbours y k) (labels : List Int)
    (hl : labels = Dbscan.dbscan (geo.near pts k) pts.length k) (top : Nat)
    (htop : ∀ n : Nat, top ≤ n ↔ ∀ c ∈ labels, c ≤ n) :
    (build geo purity z y).polygon = some (geo.smooth (unionAll geo
      (((List.range top).filterMap fun (i : Nat) => clusterPolygon geo purity z y
        (selected pts labels fun c => decide (c = i + 1))).filter fun g => !geo.isEmpty g))) := by
  have hk' := neighbours_unique hk
  subst hk'
  rw [← masked_eq_selected] at hpts
  have ht : (labels.foldl max (-1)).toNat = top := by
    obtain ⟨h1, h2, h4⟩ := foldl_max_spec labels (-1)
    apply le_antisymm
    · rcases h4 with h4 | h4
      · rw [h4]; simp
      · have := (htop top).1 (le_refl _) _ h4
        omega
    · rw [htop]
      intro c hc
      have := h2 c hc
      omega
  unfold build
  simp only
  rw [← hpts, ← hl, if_neg (by omega), ht, fromPolygon_smooth, fromPolygon_polygon, body_union]
  congr 2
  simp only [Option.toList_none, List.nil_append, List.filterMap_map]
  have he : ((fun (i : Nat) => fitPoly geo purity z (labelled pts labels (i : Int)) y) ∘
      fun x => x + 1) = fun (i : Nat) => clusterPolygon geo purity z y
        (selected pts labels fun c => decide (c = i + 1)) := by
    funext i
    simp only [Function.comp, C124_cluster, labelled_eq_selected]
    push_cast
    rfl
  rw [he]
  generalize List.filter _ _ = l
  cases l with
  | nil => rfl
  | cons g gs => rfl

/-- Non-vacuity for C124: nine selected instances in two clusters of four and one noise point, and a
bad instance 12 which makes its triangle impure. -/
example : ∃ labels : List Int, labels = [1, 1, 1, 1, 2, 2, 2, 2, -1] ∧
    let geo := cells fun pts _ i j => decide ((pts.getD i 0) / 10 = (pts.getD j 0) / 10)
    let z := [1, 2, 3, 4, 11, 12, 13, 14, 50, 12]
    let y := [true, true, true, true, true, true, true, true, true, false]
    let pts := geo.unique (selected z y id)
    3 ≤ pts.length ∧ Neighbours y 3 ∧ labels = Dbscan.dbscan (geo.near pts 3) pts.length 3 ∧
    (∀ n : Nat, 2 ≤ n ↔ ∀ c ∈ labels, c ≤ n) ∧
    (build geo (2/3) z y).polygon = some [1, 2, 3, 4, 11, 13, 14] := by
  refine ⟨_, rfl, by decide +kernel, ?_, by decide +kernel, ?_, by decide +kernel⟩
  · exact neighbours_minPoints _
  · intro n
    simp only [List.mem_cons, List.not_mem_nil, or_false, forall_eq_or_imp, forall_eq]
    omega

end Verif.Trace
