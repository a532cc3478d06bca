import Verif.Dbscan.Radius
/-!
# Lemmas about the neighbourhood radius
-/
set_option autoImplicit false
set_option linter.unusedSectionVars false

namespace Verif.Dbscan

variable {n : Nat}

/-- The values in column `c`. -/
def column (x : Nat → Fin n → ℝ) (m : Nat) (c : Fin n) : Set ℝ := {v | ∃ i, i < m ∧ x i c = v}

theorem column_range (x : Nat → Fin n → ℝ) (m : Nat) (c : Fin n) :
    Set.range (fun i : Fin m => x i c) = column x m c := by
  ext v
  constructor
  · rintro ⟨i, rfl⟩
    exact ⟨i, i.2, rfl⟩
  · rintro ⟨i, hi, rfl⟩
    exact ⟨⟨i, hi⟩, rfl⟩

theorem spread_eq {x : Nat → Fin n → ℝ} {m : Nat} {c : Fin n} {lo hi : ℝ}
    (hlo : IsLeast (column x m c) lo) (hhi : IsGreatest (column x m c) hi) :
    spread x m c = hi - lo := by
  unfold spread
  rw [iSup, iInf, column_range, hlo.csInf_eq, hhi.csSup_eq]

theorem exists_bounds (x : Nat → Fin n → ℝ) {m : Nat} (hm : 0 < m) (c : Fin n) :
    ∃ lo hi, IsLeast (column x m c) lo ∧ IsGreatest (column x m c) hi := by
  have : Nonempty (Fin m) := ⟨⟨0, hm⟩⟩
  obtain ⟨i, hi⟩ := Finite.exists_min (fun i : Fin m => x i c)
  obtain ⟨j, hj⟩ := Finite.exists_max (fun i : Fin m => x i c)
  refine ⟨x i c, x j c, ⟨⟨i, i.2, rfl⟩, ?_⟩, ⟨⟨j, j.2, rfl⟩, ?_⟩⟩
  · rintro v ⟨a, ha, rfl⟩
    exact hi ⟨a, ha⟩
  · rintro v ⟨a, ha, rfl⟩
    exact hj ⟨a, ha⟩

theorem spread_nonneg (x : Nat → Fin n → ℝ) {m : Nat} (hm : 0 < m) (c : Fin n) :
    0 ≤ spread x m c := by
  obtain ⟨lo, hi, h1, h2⟩ := exists_bounds x hm c
  rw [spread_eq h1 h2]
  linarith [h2.2 h1.1]

/-- The number inside the root. -/
noncomputable def radicand (x : Nat → Fin n → ℝ) (m k : Nat) : ℝ :=
  (∏ c, spread x m c) * k * Real.Gamma (0.5 * n + 1) / (m * Real.sqrt (Real.pi ^ n))

theorem gamma_pos (n : Nat) : 0 < Real.Gamma (0.5 * n + 1) := by
  apply Real.Gamma_pos_of_pos
  positivity

theorem radicand_nonneg (x : Nat → Fin n → ℝ) {m : Nat} (hm : 0 < m) (k : Nat) :
    0 ≤ radicand x m k := by
  unfold radicand
  have := Finset.prod_nonneg fun c (_ : c ∈ Finset.univ) => spread_nonneg x hm c
  have := (gamma_pos n).le
  positivity

theorem epsilon_nonneg (x : Nat → Fin n → ℝ) {m : Nat} (hm : 0 < m) (k : Nat) :
    0 ≤ epsilon x m k := Real.rpow_nonneg (radicand_nonneg x hm k) _

theorem epsilon_pow (hn : 0 < n) (x : Nat → Fin n → ℝ) {m : Nat} (hm : 0 < m) (k : Nat) :
    epsilon x m k ^ n = radicand x m k := by
  have h1 : epsilon x m k = radicand x m k ^ ((n : ℝ)⁻¹) := by
    unfold epsilon radicand
    norm_num
  rw [h1, Real.rpow_inv_natCast_pow (radicand_nonneg x hm k) hn.ne']

/-- A radius is determined by its power. -/
theorem epsilon_unique (hn : 0 < n) (x : Nat → Fin n → ℝ) {m : Nat} (hm : 0 < m) (k : Nat)
    {r : ℝ} (hr : 0 ≤ r) (h : r ^ n = radicand x m k) : epsilon x m k = r :=
  (pow_left_inj₀ (epsilon_nonneg x hm k) hr hn.ne').1 (by rw [epsilon_pow hn x hm k, h])

theorem dist_comm (x : Nat → Fin n → ℝ) (i j : Nat) : dist x i j = dist x j i := by
  unfold dist
  congr 1
  refine Finset.sum_congr rfl fun c _ => ?_
  ring

theorem nearReal_symm (x : Nat → Fin n → ℝ) (eps : ℝ) (i j : Nat) :
    nearReal x eps i j = nearReal x eps j i := by
  unfold nearReal
  rw [dist_comm]

theorem nearReal_refl (x : Nat → Fin n → ℝ) {eps : ℝ} (h : 0 ≤ eps) (i : Nat) :
    nearReal x eps i i = true := by
  simp [nearReal, dist, h]

theorem spread_const {x : Nat → Fin n → ℝ} {m : Nat} {c : Fin n} (hm : 0 < m) {v : ℝ}
    (h : ∀ i, i < m → x i c = v) : spread x m c = 0 := by
  rw [spread_eq (lo := v) (hi := v) ⟨⟨0, hm, h 0 hm⟩, ?_⟩ ⟨⟨0, hm, h 0 hm⟩, ?_⟩, sub_self]
  · rintro w ⟨i, hi, rfl⟩
    rw [h i hi]
  · rintro w ⟨i, hi, rfl⟩
    rw [h i hi]

/-- With a constant column the radius is zero. -/
theorem epsilon_flat (hn : 0 < n) {x : Nat → Fin n → ℝ} {m : Nat} {c : Fin n} (hm : 0 < m) {v : ℝ}
    (h : ∀ i, i < m → x i c = v) (k : Nat) : epsilon x m k = 0 := by
  apply epsilon_unique hn x hm k (le_refl _)
  unfold radicand
  rw [Finset.prod_eq_zero (Finset.mem_univ c) (spread_const hm h), zero_pow hn.ne']
  simp

theorem dist_eq_zero {x : Nat → Fin n → ℝ} {i j : Nat} (h : dist x i j ≤ 0) : x i = x j := by
  unfold dist at h
  have h0 : Real.sqrt (∑ c, (x j c - x i c) ^ 2) = 0 := le_antisymm h (Real.sqrt_nonneg _)
  rw [Real.sqrt_eq_zero (Finset.sum_nonneg fun c _ => sq_nonneg _),
    Finset.sum_eq_zero_iff_of_nonneg fun c _ => sq_nonneg _] at h0
  funext c
  have := h0 c (Finset.mem_univ c)
  have := pow_eq_zero_iff (two_ne_zero) |>.1 this
  linarith

theorem neigh_congr {near near' : Nat → Nat → Bool} {m : Nat}
    (h : ∀ i j, i < m → j < m → near i j = near' i j) {i : Nat} (hi : i < m) :
    neigh near m i = neigh near' m i := by
  unfold neigh
  apply List.filter_congr
  intro j hj
  exact h i j hi (List.mem_range.1 hj)

theorem neigh_lt {near : Nat → Nat → Bool} {m i j : Nat} (h : j ∈ neigh near m i) : j < m :=
  List.mem_range.1 (List.mem_filter.1 h).1

theorem visit_lt {m : Nat} : ∀ (js list : List Nat) (s : St), (∀ j ∈ js, j < m) →
    (∀ j ∈ list, j < m) → ∀ j ∈ (visit js list s).1, j < m := by
  intro js
  induction js with
  | nil => intro list s _ h; exact h
  | cons a js ih =>
    intro list s h1 h2
    unfold visit
    split
    · apply ih
      · exact fun j hj => h1 j (by simp [hj])
      · intro j hj
        rcases List.mem_append.1 hj with hj | hj
        · exact h2 j hj
        · rw [List.mem_singleton] at hj
          exact hj ▸ h1 a (by simp)
    · exact ih _ _ (fun j hj => h1 j (by simp [hj])) h2

theorem expand_congr {near near' : Nat → Nat → Bool} {m : Nat}
    (h : ∀ i j, i < m → j < m → near i j = near' i j) :
    ∀ (fuel : Nat) (list : List Nat) (s : St), (∀ j ∈ list, j < m) →
      expand near m fuel list s = expand near' m fuel list s := by
  intro fuel
  induction fuel with
  | zero => intro list s _; rfl
  | succ fuel ih =>
    intro list s hl
    cases list with
    | nil => rfl
    | cons c rest =>
      have hc := hl c (by simp)
      have hr : ∀ j ∈ rest, j < m := fun j hj => hl j (by simp [hj])
      simp only [expand, neigh_congr h hc]
      split
      · apply ih
        exact visit_lt _ _ _ (fun j hj => neigh_lt hj) hr
      · exact ih _ _ hr

/-- The clustering looks only at the distances between existing points. -/
theorem dbscan_congr {near near' : Nat → Nat → Bool} {m : Nat}
    (h : ∀ i j, i < m → j < m → near i j = near' i j) (k : Nat) :
    dbscan near m k = dbscan near' m k := by
  have hp : ∀ (s : St) (i : Nat), i < m → point near m k s i = point near' m k s i := by
    intro s i hi
    simp only [point, neigh_congr h hi]
    rw [expand_congr h _ _ _ (fun j hj => neigh_lt hj)]
  have hf : ∀ (l : List Nat) (s : St), (∀ i ∈ l, i < m) →
      l.foldl (point near m k) s = l.foldl (point near' m k) s := by
    intro l
    induction l with
    | nil => intro s _; rfl
    | cons a l ih =>
      intro s hl
      rw [List.foldl_cons, List.foldl_cons, hp s a (hl a (by simp))]
      exact ih _ fun i hi => hl i (by simp [hi])
  unfold dbscan loop
  rw [hf _ _ fun i hi => List.mem_range.1 hi]

end Verif.Dbscan
