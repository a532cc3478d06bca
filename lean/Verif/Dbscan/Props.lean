import Verif.Dbscan.Lemmas
import Verif.Dbscan.Radius
/-!
# The clustering used by footprints: C58
-/
set_option autoImplicit false
set_option linter.unusedSectionVars false

namespace Verif.Dbscan

variable {near : Nat → Nat → Bool} {m k : Nat}

theorem dbscan_get (p : Nat) (hp : p < m) : (dbscan near m k)[p]? =
    some (if (loop near m k).classes p = 0 then -1 else (loop near m k).classes p) := by
  simp [dbscan, hp]

/-- A point has a positive label exactly when its group contains a core point; every other point
has the label -1. -/
theorem C58_clustered (hsym : ∀ a b, a < m → b < m → near a b = near b a)
    (hrefl : ∀ a, a < m → near a a = true) :
    (dbscan near m k).length = m ∧
    ∀ (p : Nat), p < m → ∃ c, (dbscan near m k)[p]? = some c ∧
      (Clustered near m k p → 1 ≤ c) ∧ (¬ Clustered near m k p → c = -1) := by
  refine ⟨by simp [dbscan], fun p hp => ⟨_, dbscan_get p hp, ?_⟩⟩
  rcases loop_spec (k := k) hsym hrefl p hp with ⟨h1, h2⟩ | ⟨h1, h2⟩
  · refine ⟨fun _ => ?_, fun h => absurd h2 h⟩
    rw [if_neg (by omega)]; omega
  · refine ⟨fun h => absurd h h2, fun _ => ?_⟩
    rcases h1 with h1 | h1 <;> simp [h1]

/-- Two points have the same positive label exactly when they are linked and their group contains
a core point. -/
theorem C58_same_label (hsym : ∀ a b, a < m → b < m → near a b = near b a)
    (hrefl : ∀ a, a < m → near a a = true) (p q : Nat) (hp : p < m) (hq : q < m) :
    (∃ c, 1 ≤ c ∧ (dbscan near m k)[p]? = some c ∧ (dbscan near m k)[q]? = some c) ↔
      Linked near m p q ∧ Clustered near m k p := by
  have hi := loop_inv (k := k) hsym hrefl
  rw [dbscan_get p hp, dbscan_get q hq]
  constructor
  · rintro ⟨c, hc, h1, h2⟩
    rw [Option.some.injEq] at h1 h2
    have hp1 : (loop near m k).classes p = c := by split at h1 <;> omega
    have hq1 : (loop near m k).classes q = c := by split at h2 <;> omega
    refine ⟨(hi.same p q hp hq (by omega)).1 (by omega), ?_⟩
    rcases loop_spec (k := k) hsym hrefl p hp with ⟨-, h⟩ | ⟨h | h, -⟩
    · exact h
    · omega
    · omega
  · rintro ⟨hl, hc⟩
    rcases loop_spec (k := k) hsym hrefl p hp with ⟨h, -⟩ | ⟨-, h⟩
    · have hq1 := (hi.same p q hp hq h).2 hl
      refine ⟨(loop near m k).classes p, h, ?_, ?_⟩
      · rw [if_neg (by omega)]
      · rw [if_neg (by omega), hq1]
    · exact absurd hc h

/-- Positive labels are numbered from 1 without gaps. -/
theorem C58_no_gaps (hsym : ∀ a b, a < m → b < m → near a b = near b a)
    (hrefl : ∀ a, a < m → near a a = true) (p : Nat) (c d : Int)
    (hc : (dbscan near m k)[p]? = some c) (hd : 1 ≤ d) (hdc : d ≤ c) :
    ∃ q : Nat, q < m ∧ (dbscan near m k)[q]? = some d := by
  have hi := loop_inv (k := k) hsym hrefl
  have hp : p < m := by
    have := (List.getElem?_eq_some_iff.1 hc).1
    simpa [dbscan] using this
  rw [dbscan_get p hp, Option.some.injEq] at hc
  have hp1 : (loop near m k).classes p = c := by split at hc <;> omega
  have hlt : c < (loop near m k).no := by
    cases ht : (loop near m k).touched p with
    | false =>
      have := hi.fresh p hp ht
      omega
    | true => rcases hi.done p hp ht with ⟨h, -⟩ | ⟨-, h, -⟩ <;> omega
  obtain ⟨q, hq, hqd⟩ := hi.hit d.toNat (by omega) (by omega)
  refine ⟨q, hq, ?_⟩
  rw [dbscan_get q hq, hqd]
  rw [if_neg (by omega)]
  congr 1
  omega

/-- The whole of C58 for `m` points given by the rows of a real matrix and a nonnegative radius:
two points get the same positive label exactly when they are linked by a chain of steps of length
at most `eps` and their group has a point with at least `k + 1` points within `eps`. -/
theorem C58_real {n : Nat} (x : Nat → Fin n → ℝ) (eps : ℝ) (heps : 0 ≤ eps) (p q : Nat)
    (hp : p < m) (hq : q < m) :
    ((∃ c, 1 ≤ c ∧ (dbscan (nearReal x eps) m k)[p]? = some c ∧
        (dbscan (nearReal x eps) m k)[q]? = some c) ↔
      Relation.ReflTransGen (fun a b => b < m ∧ dist x a b ≤ eps) p q ∧
      ∃ r, Relation.ReflTransGen (fun a b => b < m ∧ dist x a b ≤ eps) p r ∧
        ∃ S : Finset Nat, S.card = k + 1 ∧ ∀ s ∈ S, s < m ∧ dist x r s ≤ eps) := by
  have hsym : ∀ a b, a < m → b < m → nearReal x eps a b = nearReal x eps b a := by
    intro a b _ _
    have : dist x a b = dist x b a := by
      unfold dist
      congr 1
      refine Finset.sum_congr rfl fun c _ => ?_
      ring
    unfold nearReal
    rw [this]
  have hrefl : ∀ a, a < m → nearReal x eps a a = true := by
    intro a _
    simp [nearReal, dist, heps]
  have hrel : Linked (nearReal x eps) m =
      Relation.ReflTransGen (fun a b => b < m ∧ dist x a b ≤ eps) := by
    unfold Linked nearReal
    simp
  rw [C58_same_label hsym hrefl p q hp hq, ← hrel]
  refine and_congr_right fun _ => ?_
  unfold Clustered
  refine exists_congr fun r => and_congr_right fun _ => ?_
  unfold Core
  constructor
  · intro h
    obtain ⟨S, hS, hc⟩ := Finset.exists_subset_card_eq h
    refine ⟨S, hc, fun s hs => ?_⟩
    have := hS hs
    simpa [nearReal] using this
  · rintro ⟨S, hc, hS⟩
    rw [← hc]
    apply Finset.card_le_card
    intro s hs
    have := hS s hs
    simpa [nearReal] using this

/-- Seven points on a line used by the examples: 0 1 2 3, 10, 20 21. -/
def exNear (i j : Nat) : Bool :=
  let x := fun i => [0, 10, 1, 2, 20, 3, 21].getD i (0 : Int)
  decide (x i - x j ≤ 1 ∧ x j - x i ≤ 1)

/-- Non-vacuity for C58: one cluster (with a border point at each end), an isolated point and a
pair without a core point; `exNear` satisfies the hypotheses. -/
example : (∀ a b, a < 7 → b < 7 → exNear a b = exNear b a) ∧ (∀ a, a < 7 → exNear a a = true) ∧
    dbscan exNear 7 2 = [1, -1, 1, 1, -1, 1, -1] := by
  refine ⟨fun a b _ _ => ?_, fun a _ => by simp [exNear], by decide +kernel⟩
  unfold exNear
  exact decide_eq_decide.2 and_comm

/-- With `k = 1` the pair is a cluster as well, and its label is 2. -/
example : dbscan exNear 7 1 = [1, -1, 1, 1, 2, 1, 2] := by decide +kernel

/-- Non-vacuity for the real version: the radius 1 is nonnegative and there are points. -/
example : (0 : ℝ) ≤ 1 ∧ 0 < 7 ∧ 1 < 7 := by norm_num

end Verif.Dbscan
