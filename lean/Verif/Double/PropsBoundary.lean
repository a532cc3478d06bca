import Verif.Double.Boundary
import Verif.Double.PropsDot
import Verif.Cloister.LemmasSpec
import Verif.Cloister.Props
import Mathlib.Algebra.Order.BigOperators.Group.Finset
import Mathlib.Tactic.FinCases
import Mathlib.Tactic.NormNum
import Mathlib.Tactic.Linarith
/-!
# The boundary in double precision: C194
-/
set_option autoImplicit false
set_option linter.unusedSectionVars false

namespace Verif.Double

open Verif (Num)
open Verif.Cloister (edge hullPoints xEdge pointSet place HullCorrect)

variable {m : Nat}

/-! ### Specification -/

/-- `M` bounds the sizes of the features. -/
def Sizes (M : Fin m → ℚ) (rows : List (Fin m → ℚ)) : Prop := ∀ v ∈ rows, ∀ j, |v j| ≤ M j

/-- The largest sum of the sizes of the products that coordinate `k` can have. -/
def reach (A : Fin 2 → Fin m → ℚ) (M : Fin m → ℚ) (k : Fin 2) : ℚ := ∑ j, |A k j| * M j

/-- The error of one coordinate: about sixteen digits of the largest sum of sizes. -/
def slack (A : Fin 2 → Fin m → ℚ) (M : Fin m → ℚ) (k : Fin 2) : ℚ :=
  m / 2 ^ 52 * reach A M k + m / 2 ^ 1073

/-- The numbers are doubles, the features are not too many and the coordinates cannot overflow. -/
structure ModerateRows (A : Fin 2 → Fin m → ℚ) (M : Fin m → ℚ) (rows : List (Fin m → ℚ)) : Prop where
  matrix : ∀ k j, IsDouble (A k j)
  values : ∀ v ∈ rows, ∀ j, IsDouble (v j)
  sizes : Sizes M rows
  few : m ≤ 2 ^ 20
  below : ∀ k, reach A M k ≤ 2 ^ 1000

/-- Every sum adds the `m` products, each once. -/
def Orders (m : Nat) (s : Fin 2 → Sum) : Prop := ∀ k, Adds (s k) m

/-- The computed coordinates are the numbers of `z`. -/
def Reads (p : Fin 2 → Num) (z : Fin 2 → ℚ) : Prop := ∀ k, p k = .fin (z k)

/-- The property: a boundary that was found encloses all the instances. -/
def Encloses : Prop :=
  ∀ (m : Nat) (qhull : List (Fin 2 → ℚ) → Option (List Nat)) (s : Nat → Fin 2 → Sum) (t : Fin 2 → Sum)
    (A : Fin 2 → Fin m → ℚ) (M : Fin m → ℚ) (a : Fin m → ℚ) (l : List (Fin m → ℚ)),
    HullCorrect qhull → ModerateRows A M (a :: l) → (∀ i, Orders m (s i)) → Orders m t →
    boundaryD qhull s A a l ≠ [] → ∀ v ∈ a :: l, ∀ z, Reads (projectD t A v) z →
      z ∈ convexHull ℚ (pointSet (boundaryD qhull s A a l))

/-! ### Helpers -/

theorem sum_spread (f g : Fin m → ℚ) (h : ℚ → ℚ → ℚ) :
    ((List.range m).map fun i => h (spread f i) (spread g i)).sum = ∑ j, h (f j) (g j) := by
  have h1 : ((List.range m).map fun i => h (spread f i) (spread g i)).sum =
    ∑ i ∈ Finset.range m, h (spread f i) (spread g i) := rfl
  rw [h1, Finset.sum_range]
  refine Finset.sum_congr rfl fun j _ => ?_
  simp [spread]

theorem exact_spread (A : Fin 2 → Fin m → ℚ) (v : Fin m → ℚ) (k : Fin 2) :
    exact (spread (A k)) (spread v) m = place A v k := by
  unfold exact
  rw [sum_spread (A k) v fun x y => x * y]
  fin_cases k <;> rfl

theorem mass_spread (A : Fin 2 → Fin m → ℚ) (M v : Fin m → ℚ) (hv : ∀ j, |v j| ≤ M j) (k : Fin 2) :
    mass (spread (A k)) (spread v) m ≤ reach A M k := by
  unfold mass reach
  rw [sum_spread (A k) v fun x y => |x * y|]
  refine Finset.sum_le_sum fun j _ => ?_
  rw [abs_mul]
  exact mul_le_mul_of_nonneg_left (hv j) (abs_nonneg _)

/-- The computed place of a vector is near the exact one. -/
theorem near_place {A : Fin 2 → Fin m → ℚ} {M v : Fin m → ℚ} {s : Fin 2 → Sum} (hs : Orders m s)
    (hm : m ≤ 2 ^ 20) (hb : ∀ k, reach A M k ≤ 2 ^ 1000) (hv : ∀ j, |v j| ≤ M j) :
    ∃ z, Reads (projectD s A v) z ∧ ∀ k, |z k - place A v k| ≤ slack A M k := by
  have h : ∀ k, ∃ r : ℚ, projectD s A v k = .fin r ∧ |r - place A v k| ≤ slack A M k := by
    intro k
    obtain ⟨r, h1, h2⟩ := C186_partial (spread (A k)) (spread v) m (s k) (hs k) hm
      ((mass_spread A M v hv k).trans (hb k))
    refine ⟨r, h1, ?_⟩
    rw [exact_spread] at h2
    refine h2.trans ?_
    unfold dotError slack
    exact add_le_add (mul_le_mul_of_nonneg_left (mass_spread A M v hv k) (by positivity)) le_rfl
  choose z h1 h2 using h
  exact ⟨z, h1, h2⟩

theorem edge_sizes {M : Fin m → ℚ} {a : Fin m → ℚ} {l : List (Fin m → ℚ)} (h : Sizes M (a :: l))
    (i : Nat) (j : Fin m) : |edge a l i j| ≤ M j := by
  have hc := Verif.Cloister.isCorner_edge a l i j
  cases hb : i.testBit j with
  | true =>
    obtain ⟨r, hr, he⟩ := (hc.1 hb).1
    rw [← he]
    exact h r hr j
  | false =>
    obtain ⟨r, hr, he⟩ := (hc.2 hb).1
    rw [← he]
    exact h r hr j

theorem point_reads {p : Fin 2 → Num} {z : Fin 2 → ℚ} (h : Reads p z) : point p = some z := by
  unfold point
  rw [h 0, h 1]
  show some ![z 0, z 1] = some z
  congr 1
  funext k
  fin_cases k <;> rfl

theorem cornersD_eq {s : Nat → Fin 2 → Sum} {A : Fin 2 → Fin m → ℚ} {a : Fin m → ℚ}
    {l : List (Fin m → ℚ)} {zc : Nat → Fin 2 → ℚ}
    (h : ∀ i, Reads (projectD (s i) A (edge a l i)) (zc i)) :
    cornersD s A a l = (List.range (2 ^ m)).map fun i => some (zc i) :=
  List.map_congr_left fun i _ => point_reads (h i)

/-- The hull of a boundary that was found is the hull of the computed corners. -/
theorem boundaryD_hull {qhull : List (Fin 2 → ℚ) → Option (List Nat)} (hq : HullCorrect qhull)
    {s : Nat → Fin 2 → Sum} {A : Fin 2 → Fin m → ℚ} {a : Fin m → ℚ}
    {l : List (Fin m → ℚ)} {zc : Nat → Fin 2 → ℚ}
    (h : ∀ i, Reads (projectD (s i) A (edge a l i)) (zc i)) (hne : boundaryD qhull s A a l ≠ []) :
    convexHull ℚ (pointSet (boundaryD qhull s A a l)) = convexHull ℚ (zc '' {i | i < 2 ^ m}) := by
  have hc := cornersD_eq h
  have hf : (cornersD s A a l).filterMap id = (List.range (2 ^ m)).map zc := by
    rw [hc, List.filterMap_map]
    simp
  have ha : (cornersD s A a l).all Option.isSome = true := by
    rw [hc]; simp
  have hb : boundaryD qhull s A a l = hullPoints qhull ((List.range (2 ^ m)).map zc) := by
    unfold boundaryD
    rw [if_pos ha, hf]
  rw [hb] at hne ⊢
  cases hv : qhull ((List.range (2 ^ m)).map zc) with
  | none =>
    exfalso
    apply hne
    unfold hullPoints
    rw [hv]
  | some vs =>
    rw [Verif.Cloister.hullPoints_convexHull hq _ vs hv]
    congr 1
    ext p
    simp [pointSet]

/-- Points that are near to each other span hulls that are near to each other. -/
theorem hull_close {S : Set Nat} {f g : Nat → Fin 2 → ℚ} {E : Fin 2 → ℚ}
    (h : ∀ i ∈ S, ∀ k, |g i k - f i k| ≤ E k) {p : Fin 2 → ℚ} (hp : p ∈ convexHull ℚ (f '' S)) :
    ∃ q ∈ convexHull ℚ (g '' S), ∀ k, |q k - p k| ≤ E k := by
  have hconv : Convex ℚ {p : Fin 2 → ℚ | ∃ q ∈ convexHull ℚ (g '' S), ∀ k, |q k - p k| ≤ E k} := by
    rintro p ⟨q, hq, hpq⟩ p' ⟨q', hq', hpq'⟩ u w hu hw huw
    refine ⟨u • q + w • q', (convex_convexHull ℚ _) hq hq' hu hw huw, fun k => ?_⟩
    have e : (u • q + w • q') k - (u • p + w • p') k = u * (q k - p k) + w * (q' k - p' k) := by
      simp only [Pi.add_apply, Pi.smul_apply, smul_eq_mul]; ring
    rw [e]
    refine (abs_add_le _ _).trans ?_
    rw [abs_mul, abs_mul, abs_of_nonneg hu, abs_of_nonneg hw]
    calc u * |q k - p k| + w * |q' k - p' k| ≤ u * E k + w * E k :=
          add_le_add (mul_le_mul_of_nonneg_left (hpq k) hu) (mul_le_mul_of_nonneg_left (hpq' k) hw)
      _ = E k := by rw [← add_mul, huw, one_mul]
  refine convexHull_min ?_ hconv hp
  rintro _ ⟨i, hi, rfl⟩
  exact ⟨g i, subset_convexHull ℚ _ ⟨i, hi, rfl⟩, h i hi⟩

theorem corner_image (a : Fin m → ℚ) (l : List (Fin m → ℚ)) :
    {e | e ∈ xEdge a l} = edge a l '' {i | i < 2 ^ m} := by
  ext e
  simp [xEdge]

theorem place_hull (A : Fin 2 → Fin m → ℚ) (a : Fin m → ℚ) (l : List (Fin m → ℚ)) :
    place A '' convexHull ℚ {e | e ∈ xEdge a l} =
      convexHull ℚ ((fun i => place A (edge a l i)) '' {i | i < 2 ^ m}) := by
  have hlin : IsLinearMap ℚ (place A) := by
    rw [← Verif.Cloister.project_place]
    exact Verif.Cloister.project_isLinear A
  rw [hlin.image_convexHull, corner_image, Set.image_image]

theorem frame_convex (rows : List (Fin m → ℚ)) :
    Convex ℚ {v : Fin m → ℚ | ∀ j, (∃ r ∈ rows, r j ≤ v j) ∧ ∃ r ∈ rows, v j ≤ r j} := by
  intro v hv w hw p q hp hq hpq j
  obtain ⟨⟨r1, m1, h1⟩, r2, m2, h2⟩ := hv j
  obtain ⟨⟨r3, m3, h3⟩, r4, m4, h4⟩ := hw j
  have e : (p • v + q • w) j = p * v j + q * w j := by simp
  rw [e]
  constructor
  · have key : ∀ c, c ≤ v j → c ≤ w j → c ≤ p * v j + q * w j := fun c x y => by
      calc c = p * c + q * c := by rw [← add_mul, hpq, one_mul]
        _ ≤ _ := add_le_add (mul_le_mul_of_nonneg_left x hp) (mul_le_mul_of_nonneg_left y hq)
    rcases le_total (r1 j) (r3 j) with h | h
    · exact ⟨r1, m1, key _ h1 (h.trans h3)⟩
    · exact ⟨r3, m3, key _ (h.trans h1) h3⟩
  · have key : ∀ c, v j ≤ c → w j ≤ c → p * v j + q * w j ≤ c := fun c x y => by
      calc _ ≤ p * c + q * c :=
            add_le_add (mul_le_mul_of_nonneg_left x hp) (mul_le_mul_of_nonneg_left y hq)
        _ = c := by rw [← add_mul, hpq, one_mul]
    rcases le_total (r2 j) (r4 j) with h | h
    · exact ⟨r4, m4, key _ (h2.trans h) h4⟩
    · exact ⟨r2, m2, key _ h2 (h4.trans h)⟩

/-- Rounding keeps the order: a sum of smaller products, added in the same order, is not larger. -/
theorem value_mono (a x y : Nat → ℚ) (s : Sum) (hn : s.terms.length ≤ 2 ^ 20)
    (hx : massOf a x s.terms ≤ 2 ^ 1000) (hy : massOf a y s.terms ≤ 2 ^ 1000)
    (h : ∀ i, a i * x i ≤ a i * y i) :
    ∀ r q : ℚ, s.value (held a) (held x) = .fin r → s.value (held a) (held y) = .fin q → r ≤ q := by
  have step : ∀ u w r q : ℚ, u ≤ w → toDouble u = .fin r → toDouble w = .fin q → r ≤ q := by
    intro u w r q huw h1 h2
    rw [(toDouble_fin h1).1, (toDouble_fin h2).1]
    exact toBits_mono huw
  induction s with
  | prod i =>
    intro r q h1 h2
    exact step _ _ r q (h i) h1 h2
  | add s t ihs iht =>
    simp only [Sum.terms, List.length_append, massOf_append] at hn hx hy
    have ns := massOf_nonneg a x s.terms
    have nt := massOf_nonneg a x t.terms
    have ns' := massOf_nonneg a y s.terms
    have nt' := massOf_nonneg a y t.terms
    have xs := (le_add_of_nonneg_right nt).trans hx
    have xt := (le_add_of_nonneg_left ns).trans hx
    have ys := (le_add_of_nonneg_right nt').trans hy
    have yt := (le_add_of_nonneg_left ns').trans hy
    obtain ⟨-, u, hu, -⟩ := value_error a x s (by omega) xs
    obtain ⟨-, w, hw, -⟩ := value_error a x t (by omega) xt
    obtain ⟨-, u', hu', -⟩ := value_error a y s (by omega) ys
    obtain ⟨-, w', hw', -⟩ := value_error a y t (by omega) yt
    intro r q h1 h2
    simp only [Sum.value, add, hu, hw, Num.fin_add, rounded] at h1
    simp only [Sum.value, add, hu', hw', Num.fin_add, rounded] at h2
    exact step _ _ r q (add_le_add (ihs (by omega) xs ys u u' hu hu')
      (iht (by omega) xt yt w w' hw hw')) h1 h2
  | fma s i ihs =>
    simp only [Sum.terms, List.length_append, List.length_singleton, massOf_append] at hn hx hy
    have nt := massOf_nonneg a x [i]
    have nt' := massOf_nonneg a y [i]
    have xs := (le_add_of_nonneg_right nt).trans hx
    have ys := (le_add_of_nonneg_right nt').trans hy
    obtain ⟨-, u, hu, -⟩ := value_error a x s (by omega) xs
    obtain ⟨-, u', hu', -⟩ := value_error a y s (by omega) ys
    intro r q h1 h2
    simp only [Sum.value, hu, held, Num.fin_mul, Num.fin_add, rounded] at h1
    simp only [Sum.value, hu', held, Num.fin_mul, Num.fin_add, rounded] at h2
    exact step _ _ r q (add_le_add (ihs (by omega) xs ys u u' hu hu') (h i)) h1 h2

theorem massOf_le {A : Fin 2 → Fin m → ℚ} {M v : Fin m → ℚ} {s : Sum} (hs : Adds s m)
    (hv : ∀ j, |v j| ≤ M j) (k : Fin 2) : massOf (spread (A k)) (spread v) s.terms ≤ reach A M k := by
  have : massOf (spread (A k)) (spread v) s.terms = mass (spread (A k)) (spread v) m :=
    (hs.map _).sum_eq
  rw [this]
  exact mass_spread A M v hv k

/-- A corner whose products are all at least, or all at most, those of an instance. -/
theorem extreme_corner (A : Fin 2 → Fin m → ℚ) (a : Fin m → ℚ) (l : List (Fin m → ℚ))
    (v : Fin m → ℚ) (hv : v ∈ a :: l) (k : Fin 2) :
    (∃ i, i < 2 ^ m ∧ ∀ n, spread (A k) n * spread (edge a l i) n ≤ spread (A k) n * spread v n) ∧
    ∃ i, i < 2 ^ m ∧ ∀ n, spread (A k) n * spread v n ≤ spread (A k) n * spread (edge a l i) n := by
  have key : ∀ c : Fin m → Bool, ∃ i, i < 2 ^ m ∧ ∀ j,
      (c j = true → v j ≤ edge a l i j) ∧ (c j = false → edge a l i j ≤ v j) := by
    intro c
    obtain ⟨i, hi, hb⟩ := Verif.Cloister.exists_bits c
    refine ⟨i, hi, fun j => ?_⟩
    have hc := Verif.Cloister.isCorner_edge a l i j
    exact ⟨fun h => (hc.1 ((hb j).trans h)).2 ⟨v, hv, rfl⟩,
      fun h => (hc.2 ((hb j).trans h)).2 ⟨v, hv, rfl⟩⟩
  constructor
  · obtain ⟨i, hi, h⟩ := key fun j => decide (A k j < 0)
    refine ⟨i, hi, fun n => ?_⟩
    unfold spread
    split
    · rename_i hn
      rcases lt_or_ge (A k ⟨n, hn⟩) 0 with h0 | h0
      · exact mul_le_mul_of_nonpos_left ((h ⟨n, hn⟩).1 (by simpa using h0)) h0.le
      · exact mul_le_mul_of_nonneg_left ((h ⟨n, hn⟩).2 (by simpa using h0)) h0
    · exact le_refl _
  · obtain ⟨i, hi, h⟩ := key fun j => decide (0 ≤ A k j)
    refine ⟨i, hi, fun n => ?_⟩
    unfold spread
    split
    · rename_i hn
      rcases lt_or_ge (A k ⟨n, hn⟩) 0 with h0 | h0
      · exact mul_le_mul_of_nonpos_left ((h ⟨n, hn⟩).2 (by simpa using h0)) h0.le
      · exact mul_le_mul_of_nonneg_left ((h ⟨n, hn⟩).1 (by simpa using h0)) h0
    · exact le_refl _

/-- Beyond every point of a hull there is one of the points that span it, in both directions of an
axis. -/
theorem hull_beyond {S : Set (Fin 2 → ℚ)} {p : Fin 2 → ℚ} (hp : p ∈ convexHull ℚ S) (k : Fin 2) :
    (∃ q ∈ S, q k ≤ p k) ∧ ∃ q ∈ S, p k ≤ q k := by
  constructor
  · by_contra hn
    push Not at hn
    have hc : Convex ℚ {q : Fin 2 → ℚ | p k < q k} := by
      intro x hx y hy u w hu hw huw
      have hx : p k < x k := hx
      have hy : p k < y k := hy
      show p k < (u • x + w • y) k
      simp only [Pi.add_apply, Pi.smul_apply, smul_eq_mul]
      rcases hu.eq_or_lt with h0 | h0
      · have : w = 1 := by linarith
        rw [← h0, this]; linarith
      · have e : w = 1 - u := by linarith
        have h1 := mul_lt_mul_of_pos_left hx h0
        have h2 := mul_le_mul_of_nonneg_left hy.le hw
        rw [e] at h2 ⊢
        linarith
    exact lt_irrefl (p k) (convexHull_min (fun q hq => hn q hq) hc hp)
  · by_contra hn
    push Not at hn
    have hc : Convex ℚ {q : Fin 2 → ℚ | q k < p k} := by
      intro x hx y hy u w hu hw huw
      have hx : x k < p k := hx
      have hy : y k < p k := hy
      show (u • x + w • y) k < p k
      simp only [Pi.add_apply, Pi.smul_apply, smul_eq_mul]
      rcases hu.eq_or_lt with h0 | h0
      · have : w = 1 := by linarith
        rw [← h0, this]; linarith
      · have e : w = 1 - u := by linarith
        have h1 := mul_lt_mul_of_pos_left hx h0
        have h2 := mul_le_mul_of_nonneg_left hy.le hw
        rw [e] at h2 ⊢
        linarith
    exact lt_irrefl (p k) (convexHull_min (fun q hq => hn q hq) hc hp)

/-! ### C194 -/

/-- **C194, the true part.**  The coordinates of every instance are finite, and the instance lies
within twice the rounding error of the region inside the boundary, in whatever orders the sums are
computed. -/
theorem C194_partial (qhull : List (Fin 2 → ℚ) → Option (List Nat)) (s : Nat → Fin 2 → Sum)
    (t : Fin 2 → Sum) (A : Fin 2 → Fin m → ℚ) (M a : Fin m → ℚ) (l : List (Fin m → ℚ))
    (hq : HullCorrect qhull) (hm : ModerateRows A M (a :: l)) (hs : ∀ i, Orders m (s i))
    (ht : Orders m t) (hne : boundaryD qhull s A a l ≠ []) (v : Fin m → ℚ) (hv : v ∈ a :: l) :
    ∃ z, Reads (projectD t A v) z ∧
      ∃ p ∈ convexHull ℚ (pointSet (boundaryD qhull s A a l)), ∀ k, |z k - p k| ≤ 2 * slack A M k := by
  obtain ⟨z, hz, ez⟩ := near_place ht hm.few hm.below (hm.sizes v hv)
  choose zc hzc ezc using fun i => near_place (hs i) hm.few hm.below (edge_sizes hm.sizes i)
  refine ⟨z, hz, ?_⟩
  have hin : place A v ∈ convexHull ℚ ((fun i => place A (edge a l i)) '' {i | i < 2 ^ m}) := by
    rw [← place_hull]
    exact ⟨v, Verif.Cloister.box_mem_hull a l v hv, rfl⟩
  obtain ⟨p, hp, ep⟩ := hull_close (g := zc) (fun i _ => ezc i) hin
  rw [boundaryD_hull hq hzc hne]
  refine ⟨p, hp, fun k => ?_⟩
  have e : z k - p k = (z k - place A v k) - (p k - place A v k) := by ring
  rw [e]
  exact (abs_sub _ _).trans (by have := ez k; have := ep k; linarith)

/-- **C194, the boundary is not too wide.**  Every point inside the boundary is within the rounding
error of the exact place of features whose values all lie between values that occur. -/
theorem C194_tight_partial (qhull : List (Fin 2 → ℚ) → Option (List Nat)) (s : Nat → Fin 2 → Sum)
    (A : Fin 2 → Fin m → ℚ) (M a : Fin m → ℚ) (l : List (Fin m → ℚ))
    (hq : HullCorrect qhull) (hm : ModerateRows A M (a :: l)) (hs : ∀ i, Orders m (s i))
    (hne : boundaryD qhull s A a l ≠ []) (p : Fin 2 → ℚ)
    (hp : p ∈ convexHull ℚ (pointSet (boundaryD qhull s A a l))) :
    ∃ w : Fin m → ℚ, (∀ j, (∃ r ∈ a :: l, r j ≤ w j) ∧ ∃ r ∈ a :: l, w j ≤ r j) ∧
      ∀ k, |p k - place A w k| ≤ slack A M k := by
  choose zc hzc ezc using fun i => near_place (hs i) hm.few hm.below (edge_sizes hm.sizes i)
  rw [boundaryD_hull hq hzc hne] at hp
  obtain ⟨q, hqm, eq⟩ := hull_close (g := fun i => place A (edge a l i)) (E := slack A M)
    (fun i _ k => by rw [abs_sub_comm]; exact ezc i k) hp
  rw [← place_hull] at hqm
  obtain ⟨w, hw, rfl⟩ := hqm
  refine ⟨w, ?_, fun k => by rw [abs_sub_comm]; exact eq k⟩
  refine convexHull_min ?_ (frame_convex (a :: l)) hw
  intro e he
  rw [corner_image] at he
  obtain ⟨i, -, rfl⟩ := he
  intro j
  have hc := Verif.Cloister.isCorner_edge a l i j
  have : ∃ r ∈ a :: l, r j = edge a l i j := by
    cases hb : i.testBit j with
    | true => exact (hc.1 hb).1
    | false => exact (hc.2 hb).1
  obtain ⟨r, hr, h⟩ := this
  exact ⟨⟨r, hr, h.le⟩, r, hr, h.ge⟩

/-- **C194, along the axes.**  If the library adds the products of every row in the same order, then
along each axis every instance lies between two vertices of the boundary, without any error: the frame
of the boundary contains all the instances. -/
theorem C194_axis_partial (qhull : List (Fin 2 → ℚ) → Option (List Nat)) (t : Fin 2 → Sum)
    (A : Fin 2 → Fin m → ℚ) (M a : Fin m → ℚ) (l : List (Fin m → ℚ))
    (hq : HullCorrect qhull) (hm : ModerateRows A M (a :: l)) (ht : Orders m t)
    (hne : boundaryD qhull (fun _ => t) A a l ≠ []) (v : Fin m → ℚ) (hv : v ∈ a :: l)
    (z : Fin 2 → ℚ) (hz : Reads (projectD t A v) z) (k : Fin 2) :
    (∃ p ∈ boundaryD qhull (fun _ => t) A a l, p k ≤ z k) ∧
      ∃ p ∈ boundaryD qhull (fun _ => t) A a l, z k ≤ p k := by
  choose zc hzc _ using fun i => near_place ht hm.few hm.below (edge_sizes hm.sizes i)
  have hh := boundaryD_hull (s := fun _ => t) hq hzc hne
  have hl : (t k).terms.length ≤ 2 ^ 20 := by
    rw [(ht k).length_eq, List.length_range]
    exact hm.few
  have hmv := (massOf_le (A := A) (ht k) (hm.sizes v hv) k).trans (hm.below k)
  have hmc := fun i => (massOf_le (A := A) (ht k) (edge_sizes hm.sizes i) k).trans (hm.below k)
  obtain ⟨⟨i, hi, h1⟩, i', hi', h2⟩ := extreme_corner A a l v hv k
  have hmem : ∀ i, i < 2 ^ m → zc i ∈ convexHull ℚ (pointSet (boundaryD qhull (fun _ => t) A a l)) := by
    intro i hi
    rw [hh]
    exact subset_convexHull ℚ _ ⟨i, hi, rfl⟩
  constructor
  · obtain ⟨p, hp, hle⟩ := (hull_beyond (hmem i hi) k).1
    exact ⟨p, hp, hle.trans (value_mono _ _ _ (t k) hl (hmc i) hmv h1 _ _ (hzc i k) (hz k))⟩
  · obtain ⟨p, hp, hle⟩ := (hull_beyond (hmem i' hi') k).2
    exact ⟨p, hp, (value_mono _ _ _ (t k) hl hmv (hmc i') h2 _ _ (hz k) (hzc i' k)).trans hle⟩

/-! ### The refutation -/

/-- The projection of the witness. -/
def witMatrix : Fin 2 → Fin 2 → ℚ := ![![1, 1 / 2 ^ 53], ![1, -(1 / 2 ^ 53)]]
/-- Three instances with two features. -/
def witRow : Fin 2 → ℚ := ![0, 0]
/-- The other instances of the witness. -/
def witRows : List (Fin 2 → ℚ) := [![1, 1], ![1 / 2, 1]]
/-- The products in their order. -/
def witOrder : Fin 2 → Sum := fun _ => .add (.prod 0) (.prod 1)

theorem wit_orders : Orders 2 witOrder := fun _ => List.Perm.refl _

theorem small_isDouble (k e : ℤ) (hk : |k| ≤ 1) (he : -1074 ≤ e) (he' : e ≤ 0) :
    IsDouble ((k : ℚ) * 2 ^ e) := by
  refine ⟨⟨k, e, rfl, hk.trans (by norm_num), he⟩, ?_⟩
  have h1 : |(k : ℚ)| ≤ 1 := by exact_mod_cast hk
  have h2 : (2 : ℚ) ^ e ≤ 1 := by
    have := two_zpow_mono he'
    simpa using this
  have h3 : |(k : ℚ) * 2 ^ e| ≤ 1 := by
    rw [abs_mul, abs_of_pos (two_zpow_pos e)]
    calc |(k : ℚ)| * 2 ^ e ≤ 1 * 1 := mul_le_mul h1 h2 (two_zpow_pos e).le (by norm_num)
      _ = 1 := one_mul 1
  exact lt_of_le_of_lt h3 (one_lt_pow₀ (by norm_num) (by norm_num))

theorem wit_moderate : ModerateRows witMatrix (fun _ => 1) (witRow :: witRows) := by
  have d0 : IsDouble 0 := by simpa using small_isDouble 0 0 (by norm_num) (by norm_num) le_rfl
  have d1 : IsDouble 1 := isDouble_one
  have d2 : IsDouble (1 / 2) := by
    have := small_isDouble 1 (-1) (by norm_num) (by norm_num) (by norm_num)
    simpa [zpow_neg] using this
  have d3 : IsDouble (1 / 2 ^ 53) := by
    have := small_isDouble 1 (-53) (by norm_num) (by norm_num) (by norm_num)
    have e : ((1 : ℤ) : ℚ) * 2 ^ (-53 : ℤ) = 1 / 2 ^ 53 := by norm_num [zpow_neg]
    rwa [e] at this
  have d4 : IsDouble (-(1 / 2 ^ 53)) := by
    have := small_isDouble (-1) (-53) (by norm_num) (by norm_num) (by norm_num)
    have e : ((-1 : ℤ) : ℚ) * 2 ^ (-53 : ℤ) = -(1 / 2 ^ 53) := by norm_num [zpow_neg]
    rwa [e] at this
  refine ⟨?_, ?_, ?_, by norm_num, ?_⟩
  · intro k j
    fin_cases k <;> fin_cases j <;> first | exact d1 | exact d3 | exact d4
  · intro v hv j
    simp only [witRows, witRow, List.mem_cons, List.not_mem_nil, or_false] at hv
    rcases hv with rfl | rfl | rfl <;> fin_cases j <;> first | exact d0 | exact d1 | exact d2
  · intro v hv j
    simp only [witRows, witRow, List.mem_cons, List.not_mem_nil, or_false] at hv
    rcases hv with rfl | rfl | rfl <;> fin_cases j <;> simp <;> norm_num [abs_of_pos]
  · intro k
    have h : reach witMatrix (fun _ => 1) k ≤ 2 := by
      have : ∀ k, reach witMatrix (fun _ => 1) k ≤ 2 := by decide +kernel
      exact this k
    calc _ ≤ (2 : ℚ) := h
      _ = 2 ^ 1 := by norm_num
      _ ≤ 2 ^ 1000 := pow_le_pow_right₀ (by norm_num) (by norm_num)

theorem wit_boundary : boundaryD Verif.Cloister.exHull (fun _ => witOrder) witMatrix witRow witRows =
    [![0, 0], ![1, 1], ![1 / 2 ^ 53, -(1 / 2 ^ 53)], ![1, 1 - 1 / 2 ^ 53]] := by
  decide +kernel

theorem wit_place : Reads (projectD witOrder witMatrix ![1 / 2, 1])
    ![1 / 2 + 1 / 2 ^ 53, 1 / 2 - 1 / 2 ^ 53] := by
  unfold Reads
  decide +kernel

/-- **C194 is false.**  With coefficients that differ much in size the rounded corners cut off a strip
of the region, and an instance with exact coordinates lies in it. -/
theorem C194_refuted : ¬ Encloses := by
  intro h
  have h1 := h 2 Verif.Cloister.exHull (fun _ => witOrder) witOrder witMatrix (fun _ => 1) witRow witRows
    Verif.Cloister.exHull_correct wit_moderate (fun _ => wit_orders) wit_orders
    (by rw [wit_boundary]; simp) ![1 / 2, 1] (by simp [witRows]) _ wit_place
  rw [wit_boundary] at h1
  have hc : Convex ℚ {p : Fin 2 → ℚ | -(2 / 2 ^ 53) ≤ (1 - 1 / 2 ^ 53) * p 1 - p 0} := by
    intro x hx y hy u w hu hw huw
    have hx : -(2 / 2 ^ 53 : ℚ) ≤ (1 - 1 / 2 ^ 53) * x 1 - x 0 := hx
    have hy : -(2 / 2 ^ 53 : ℚ) ≤ (1 - 1 / 2 ^ 53) * y 1 - y 0 := hy
    show -(2 / 2 ^ 53 : ℚ) ≤ (1 - 1 / 2 ^ 53) * (u • x + w • y) 1 - (u • x + w • y) 0
    simp only [Pi.add_apply, Pi.smul_apply, smul_eq_mul]
    have e1 := mul_le_mul_of_nonneg_left hx hu
    have e2 := mul_le_mul_of_nonneg_left hy hw
    have : w = 1 - u := by linarith
    subst this
    linarith
  have h2 := convexHull_min (fun p hp => by
    simp only [pointSet, List.mem_cons, List.not_mem_nil, or_false, Set.mem_ofPred_eq] at hp
    show -(2 / 2 ^ 53 : ℚ) ≤ (1 - 1 / 2 ^ 53) * p 1 - p 0
    rcases hp with rfl | rfl | rfl | rfl <;> simp <;> norm_num) hc h1
  have h3 : -(2 / 2 ^ 53 : ℚ) ≤ (1 - 1 / 2 ^ 53) * (1 / 2 - 1 / 2 ^ 53) - (1 / 2 + 1 / 2 ^ 53) := h2
  norm_num at h3

/-- Non-vacuity for C194: the witness of the refutation meets the hypotheses of the true parts. -/
example : HullCorrect (Verif.Cloister.exHull (K := ℚ)) ∧
    ModerateRows witMatrix (fun _ => 1) (witRow :: witRows) ∧ Orders 2 witOrder ∧
    Orders 2 (fun _ => Sum.fma (.prod 1) 0) ∧
    boundaryD Verif.Cloister.exHull (fun _ => witOrder) witMatrix witRow witRows ≠ [] ∧
    slack witMatrix (fun _ => 1) 0 < 1 / 2 ^ 50 :=
  ⟨Verif.Cloister.exHull_correct, wit_moderate, wit_orders, fun _ => List.Perm.swap 0 1 [],
    by rw [wit_boundary]; simp, by decide +kernel⟩

end Verif.Double
