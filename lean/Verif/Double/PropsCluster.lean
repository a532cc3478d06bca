import Verif.Double.Cluster
import Verif.Double.DistanceLemmas
import Verif.Dbscan.Props
/-!
# The clustering of TRACE in double precision (C181)
-/
set_option autoImplicit false
set_option linter.unusedSectionVars false

namespace Verif.Double

open Verif (Num)
open Verif.Dbscan (dbscan Linked Clustered Core)

/-! ### Specification -/

/-- The exact distance of two points. -/
noncomputable def gap (pts : Nat → ℚ × ℚ) (a b : Nat) : ℝ :=
  Real.sqrt (((pts b).1 - (pts a).1 : ℝ) ^ 2 + ((pts b).2 - (pts a).2 : ℝ) ^ 2)

/-- A chain of the first `m` points from `p` to `q` with steps of length at most `r`. -/
def Chain (pts : Nat → ℚ × ℚ) (m : Nat) (r : ℝ) : Nat → Nat → Prop :=
  Relation.ReflTransGen fun a b => b < m ∧ gap pts a b ≤ r

/-- At least `k + 1` of the first `m` points (the point itself is one of them) have a distance of at most `r`
from `q`. -/
def Dense (pts : Nat → ℚ × ℚ) (m k : Nat) (r : ℝ) (q : Nat) : Prop :=
  ∃ S : Finset Nat, k + 1 ≤ S.card ∧ ∀ s ∈ S, s < m ∧ gap pts q s ≤ r

/-- The first `m` points have coordinates up to `2 ^ 500`, different ones differ by at least `2 ^ -500`. -/
def ModeratePoints (pts : Nat → ℚ × ℚ) (m : Nat) : Prop :=
  ∀ a < m, ∀ b < m, Apart (pts a).1 (pts b).1 ∧ Apart (pts a).2 (pts b).2

/-- Points `p` and `q` get the same label, and it is not that of noise. -/
def SameCluster (labels : List Int) (p q : Nat) : Prop :=
  ∃ c, 1 ≤ c ∧ labels[p]? = some c ∧ labels[q]? = some c

/-! ### Lemmas -/

variable {pts : Nat → ℚ × ℚ} {m k : Nat}

theorem nearPoints_symm (eps : Num) (a b : Nat) : nearPoints pts eps a b = nearPoints pts eps b a := by
  unfold nearPoints
  rw [dist_symm]

theorem nearPoints_refl {e : ℚ} (he : 0 ≤ e) (a : Nat) : nearPoints pts (.fin e) a a = true := by
  unfold nearPoints
  rw [show dist [.fin (pts a).1, .fin (pts a).2] [.fin (pts a).1, .fin (pts a).2] = .fin 0 from
    dist_self [(pts a).1, (pts a).2]]
  simpa [Num.le] using he

theorem gap_nonneg (a b : Nat) : 0 ≤ gap pts a b := Real.sqrt_nonneg _

theorem nearPoints_within (h : ModeratePoints pts m) {a b : Nat} (ha : a < m) (hb : b < m) (e : ℚ) :
    (nearPoints pts (.fin e) a b = true → (1 - 1 / 2 ^ 53) ^ 6 * gap pts a b ≤ e) ∧
      ((1 + 1 / 2 ^ 53) ^ 6 * gap pts a b ≤ e → nearPoints pts (.fin e) a b = true) := by
  obtain ⟨h1, h2⟩ := h b hb a ha
  obtain ⟨r, hr, r1, r2⟩ := dist_within (.cons h1 (.cons h2 .nil)) (by simp)
  have eg : Filter.euclid (values ([(pts b).1, (pts b).2].map .fin)) (values ([(pts a).1, (pts a).2].map .fin)) =
      gap pts a b := by
    rw [values_fin, values_fin]
    unfold Filter.euclid gap
    simp
  rw [eg] at r1 r2
  unfold unit at r1 r2
  simp only [List.length_cons, List.length_nil] at r1 r2
  push_cast at r1 r2
  simp only [List.map_cons, List.map_nil] at hr
  unfold nearPoints
  rw [hr]
  simp only [Num.le, decide_eq_true_eq]
  constructor
  · intro hle
    exact r1.trans (by exact_mod_cast hle)
  · intro hle
    exact_mod_cast r2.trans hle

/-- **C181.**  With computed distances the labels are those of the groups and core points of the computed relation
"at most `eps` apart", for all finite coordinates: two points get the same label exactly if a chain of such steps
connects them and their group contains a core point. -/
theorem C181_groups {e : ℚ} (he : 0 ≤ e) {p q : Nat} (hp : p < m) (hq : q < m) :
    SameCluster (dbscan (nearPoints pts (.fin e)) m k) p q ↔
      Linked (nearPoints pts (.fin e)) m p q ∧ Clustered (nearPoints pts (.fin e)) m k p :=
  Dbscan.C58_same_label (fun a b _ _ => nearPoints_symm _ a b) (fun a _ => nearPoints_refl he a) p q hp hq

theorem linked_lt {near : Nat → Nat → Bool} {p q : Nat} (hp : p < m) (h : Linked near m p q) : q < m := by
  induction h with
  | refl => exact hp
  | tail _ h _ => exact h.1

/-- **C181**, for points that are not extremely far from or close to each other: points with the same label are
connected by steps that are not longer than `eps`, up to six roundings, and the chain leads to a dense point. -/
theorem C181_partial (h : ModeratePoints pts m) {e : ℚ} (he : 0 ≤ e) {p q : Nat} (hp : p < m) (hq : q < m)
    (hs : SameCluster (dbscan (nearPoints pts (.fin e)) m k) p q) :
    Chain pts m (e / (1 - 1 / 2 ^ 53) ^ 6) p q ∧
      ∃ r, Chain pts m (e / (1 - 1 / 2 ^ 53) ^ 6) p r ∧ Dense pts m k (e / (1 - 1 / 2 ^ 53) ^ 6) r := by
  obtain ⟨hl, r, hr, hc⟩ := (C181_groups he hp hq).1 hs
  have hpos : (0 : ℝ) < (1 - 1 / 2 ^ 53) ^ 6 := by positivity
  have step : ∀ a b, a < m → b < m → nearPoints pts (.fin e) a b = true →
      gap pts a b ≤ e / (1 - 1 / 2 ^ 53) ^ 6 := by
    intro a b ha hb hn
    rw [le_div_iff₀ hpos, mul_comm]
    exact (nearPoints_within h ha hb e).1 hn
  have chain : ∀ q, Linked (nearPoints pts (.fin e)) m p q → Chain pts m (e / (1 - 1 / 2 ^ 53) ^ 6) p q := by
    intro q hl
    induction hl with
    | refl => exact .refl
    | tail h1 h2 ih => exact ih.tail ⟨h2.1, step _ _ (linked_lt hp h1) h2.1 h2.2⟩
  refine ⟨chain q hl, r, chain r hr, _, hc, ?_⟩
  intro s hs
  rw [Finset.mem_filter, Finset.mem_range] at hs
  exact ⟨hs.1, step _ _ (linked_lt hp hr) hs.1 hs.2⟩

/-- **C181**, the converse: points connected by steps that are clearly not longer than `eps` get the same label, if
the chain leads to a point that is clearly dense. -/
theorem C181_converse_partial (h : ModeratePoints pts m) {e : ℚ} (he : 0 ≤ e) {p q r : Nat} (hp : p < m)
    (hq : q < m) (hc : Chain pts m (e / (1 + 1 / 2 ^ 53) ^ 6) p q)
    (hr : Chain pts m (e / (1 + 1 / 2 ^ 53) ^ 6) p r) (hd : Dense pts m k (e / (1 + 1 / 2 ^ 53) ^ 6) r) :
    SameCluster (dbscan (nearPoints pts (.fin e)) m k) p q := by
  have hpos : (0 : ℝ) < (1 + 1 / 2 ^ 53) ^ 6 := by positivity
  have step : ∀ a b, a < m → b < m → gap pts a b ≤ e / (1 + 1 / 2 ^ 53) ^ 6 →
      nearPoints pts (.fin e) a b = true := by
    intro a b ha hb hn
    rw [le_div_iff₀ hpos, mul_comm] at hn
    exact (nearPoints_within h ha hb e).2 hn
  have link : ∀ q, Chain pts m (e / (1 + 1 / 2 ^ 53) ^ 6) p q →
      Linked (nearPoints pts (.fin e)) m p q := by
    intro q hl
    induction hl with
    | refl => exact .refl
    | tail h1 h2 ih => exact ih.tail ⟨h2.1, step _ _ (linked_lt hp ih) h2.1 h2.2⟩
  refine (C181_groups he hp hq).2 ⟨link q hc, r, link r hr, ?_⟩
  obtain ⟨S, hS, hS'⟩ := hd
  refine hS.trans (Finset.card_le_card fun s hs => ?_)
  rw [Finset.mem_filter, Finset.mem_range]
  exact ⟨(hS' s hs).1, step _ _ (linked_lt hp (link r hr)) (hS' s hs).1 (hS' s hs).2⟩

/-- Four points: the last three have a distance from the first that is slightly more than 1. -/
def crossPoints (i : Nat) : ℚ × ℚ :=
  match i with
  | 0 => (0, 0)
  | 1 => (1, 1 / 2 ^ 30)
  | 2 => (-1, 1 / 2 ^ 30)
  | _ => (1 / 2 ^ 30, 1)

/-- The labels follow the exact distances: points with the same label are connected by steps of length at
most `eps`. -/
def ExactClusters (pts : Nat → ℚ × ℚ) (m k : Nat) (e : ℚ) : Prop :=
  ∀ p < m, ∀ q < m, SameCluster (dbscan (nearPoints pts (.fin e)) m k) p q → Chain pts m e p q

/-- **C181 is false** if taken exactly: points that are more than `eps` apart from all others are put into one
cluster. -/
theorem C181_refuted : ¬ ∀ (pts : Nat → ℚ × ℚ) (m k : Nat) (e : ℚ), 0 ≤ e → ExactClusters pts m k e := by
  intro h
  have h1 := h crossPoints 4 3 1 (by norm_num) 0 (by norm_num) 1 (by norm_num)
    ⟨1, by norm_num, by decide +kernel, by decide +kernel⟩
  rcases h1.cases_head with h2 | ⟨b, ⟨hb, hg⟩, h3⟩
  · exact absurd h2 (by norm_num)
  · have big : ∀ b, b < 4 → b ≠ 0 → ¬ gap crossPoints 0 b ≤ ((1 : ℚ) : ℝ) := by
      intro b hb h0
      have : b = 1 ∨ b = 2 ∨ b = 3 := by omega
      rw [not_le]
      unfold gap
      refine Real.lt_sqrt_of_sq_lt ?_
      rcases this with rfl | rfl | rfl <;> simp only [crossPoints] <;> norm_num
    have hb0 : b = 0 := by
      by_contra h0
      exact big b hb h0 hg
    rw [hb0] at h3
    -- a chain that returns to the first point never leaves it
    have stay : ∀ q, Chain crossPoints 4 ((1 : ℚ) : ℝ) 0 q → q = 0 := by
      intro q hq
      induction hq with
      | refl => rfl
      | tail _ h2 ih =>
        by_contra h0
        rw [ih] at h2
        exact big _ h2.1 h0 h2.2
    exact absurd (stay 1 h3) (by norm_num)

/-- Non-vacuity: four points on a line at the distances 1, 1 and 10. -/
def linePoints (i : Nat) : ℚ × ℚ :=
  match i with
  | 0 => (0, 3)
  | 1 => (1, 3)
  | 2 => (2, 3)
  | _ => (12, 3)

example : ModeratePoints linePoints 4 ∧ dbscan (nearPoints linePoints (.fin 2)) 4 2 = [1, 1, 1, -1] := by
  refine ⟨?_, by decide +kernel⟩
  have p500 : (16 : ℚ) ≤ 2 ^ 500 := by
    have : (2 : ℚ) ^ 4 ≤ 2 ^ 500 := pow_le_pow_right₀ (by norm_num) (by norm_num)
    calc (16 : ℚ) = 2 ^ 4 := by norm_num
      _ ≤ 2 ^ 500 := this
  have fi : ∀ k : ℤ, |k| ≤ 16 → Fits 500 k := fun k hk =>
    ⟨isDouble_int (hk.trans (by norm_num)), by
      have : ((|k| : ℤ) : ℚ) ≤ 16 := by exact_mod_cast hk
      rw [Int.cast_abs] at this
      exact this.trans p500⟩
  have ap : ∀ a b : ℤ, |a| ≤ 16 → |b| ≤ 16 → Apart a b := by
    intro a b ha hb
    refine ⟨fi a ha, fi b hb, ?_⟩
    by_cases hab : a = b
    · exact Or.inl (by rw [hab])
    · right
      have h1 : (1 : ℤ) ≤ |a - b| := Int.one_le_abs (by omega)
      have h2 : (1 : ℚ) ≤ |(a : ℚ) - b| := by exact_mod_cast h1
      refine le_trans ?_ h2
      refine (two_zpow_mono (by norm_num : (-500 : ℤ) ≤ 0)).trans ?_
      norm_num
  have co : ∀ a < 4, ∃ x : ℤ, |x| ≤ 16 ∧ linePoints a = ((x : ℚ), ((3 : ℤ) : ℚ)) := by
    intro a ha
    have : a = 0 ∨ a = 1 ∨ a = 2 ∨ a = 3 := by omega
    rcases this with rfl | rfl | rfl | rfl
    · exact ⟨0, by norm_num, by norm_num [linePoints]⟩
    · exact ⟨1, by norm_num, by norm_num [linePoints]⟩
    · exact ⟨2, by norm_num, by norm_num [linePoints]⟩
    · exact ⟨12, by norm_num, by norm_num [linePoints]⟩
  intro a ha b hb
  obtain ⟨x, hx, ex⟩ := co a ha
  obtain ⟨y, hy, ey⟩ := co b hb
  rw [ex, ey]
  exact ⟨ap x y hx hy, ap 3 3 (by norm_num) (by norm_num)⟩

end Verif.Double
