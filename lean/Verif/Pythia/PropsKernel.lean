import Mathlib.Tactic.Linarith
import Mathlib.Tactic.NormNum
import Mathlib.Tactic.FieldSimp
import Mathlib.Tactic.Ring
import Verif.Pythia.Kernel
import Verif.Pythia.LemmasWeights
/-!
# PYTHIA does not depend on how the instance space is drawn (C189)
-/
set_option autoImplicit false
set_option linter.unusedSectionVars false

namespace Verif.Pythia

/-! ### Specification -/

/-- The second axis is the first one in another unit, from another origin, possibly mirrored. -/
def SameAxis (c d : List ℝ) : Prop := ∃ a b : ℝ, a ≠ 0 ∧ d = c.map fun v => a * v + b

/-- The same picture with other axes: each axis in its own unit, and the axes in another order. -/
def SamePicture (cols cols' : List (List ℝ)) : Prop :=
  ∃ mid, List.Forall₂ SameAxis cols mid ∧ mid.Perm cols'

/-- The squared distance of two instances. -/
def dist2 (cols : List (List ℝ)) (i j : Nat) : ℝ :=
  (cols.map fun c => (c.getD i 0 - c.getD j 0) ^ 2).sum

/-- The full claim: two instance spaces with the same distances between the instances (one is the other one
turned, mirrored or moved) give the classifiers the same kernels. -/
def DependsOnDistancesOnly : Prop :=
  ∀ (isPoly : Bool) (gamma : ℝ) (cols cols' : List (List ℝ)) (n : Nat),
    cols.length = cols'.length →
    (∀ c ∈ cols, c.length = n) → (∀ c ∈ cols', c.length = n) →
    (∀ i < n, ∀ j < n, dist2 cols i j = dist2 cols' i j) →
    ∀ K K', gram isPoly gamma cols = some K → gram isPoly gamma cols' = some K' →
      ∀ i < n, ∀ j < n, K i j = K' i j

/-! ### Lemmas -/

theorem mean_affine {l : List ℝ} (h : l ≠ []) (a b : ℝ) :
    mean (l.map fun v => a * v + b) = a * mean l + b := by
  have hlen : (l.length : ℝ) ≠ 0 := by
    simpa using h
  have hs : (l.map fun v => a * v + b).sum = a * l.sum + l.length * b := by
    clear h hlen
    induction l with
    | nil => simp
    | cons x l ih => simp only [List.map_cons, List.sum_cons, ih, List.length_cons]; push_cast; ring
  unfold mean
  rw [hs, List.length_map]
  field_simp

theorem std_affine (l : List ℝ) (a b : ℝ) :
    std (l.map fun v => a * v + b) = |a| * std l := by
  rcases eq_or_ne l [] with rfl | h
  · simp [std]
  unfold std
  rw [mean_affine h, List.map_map, List.length_map]
  have : (l.map ((fun v => (v - (a * mean l + b)) ^ 2) ∘ fun v => a * v + b)) =
      l.map fun v => a ^ 2 * (v - mean l) ^ 2 := by
    apply List.map_congr_left
    intro v _
    simp only [Function.comp]
    ring
  rw [this, List.sum_map_mul_left, mul_div_assoc, Real.sqrt_mul (sq_nonneg a), Real.sqrt_sq_eq_abs]

/-- Normalising forgets unit and origin of an axis; a mirrored axis is mirrored. -/
theorem zscore_affine (l : List ℝ) {a : ℝ} (b : ℝ) (ha : a ≠ 0) :
    zscore (l.map fun v => a * v + b) = (zscore l).map fun z => z.map fun v => (a / |a|) * v := by
  have hab : |a| ≠ 0 := abs_ne_zero.2 ha
  unfold zscore
  rw [std_affine]
  by_cases h : std l = 0
  · simp [h]
  · rw [if_neg h, if_neg (mul_ne_zero hab h), Option.map_some, List.map_map, List.map_map]
    congr 1
    apply List.map_congr_left
    intro v _
    simp only [Function.comp]
    rw [mean_affine (std_ne_zero_ne_nil h)]
    field_simp
    ring

theorem sign_sq {a : ℝ} (ha : a ≠ 0) : (a / |a|) ^ 2 = 1 := by
  rw [div_pow, sq_abs, div_self (pow_ne_zero 2 ha)]

/-- Two axes that do not differ for any kernel. -/
def Mirror (c d : List ℝ) : Prop := ∃ s : ℝ, s ^ 2 = 1 ∧ d = c.map fun v => s * v

theorem getD_mirror (c : List ℝ) (s : ℝ) (i : Nat) :
    (c.map fun v => s * v).getD i 0 = s * c.getD i 0 := by
  simp only [List.getD_eq_getElem?_getD, List.getElem?_map]
  cases c[i]? <;> simp

theorem zipWith_point (f : ℝ → ℝ → ℝ) (cols : List (List ℝ)) (i j : Nat) :
    List.zipWith f (point cols i) (point cols j) = cols.map fun c => f (c.getD i 0) (c.getD j 0) := by
  induction cols with
  | nil => rfl
  | cons c cs ih => simp only [point, List.map_cons, List.zipWith_cons_cons] at ih ⊢; rw [ih]

theorem mirror_map (g : ℝ → ℝ → ℝ) (hg : ∀ s u v : ℝ, s ^ 2 = 1 → g (s * u) (s * v) = g u v)
    {zs zs' : List (List ℝ)} (h : List.Forall₂ Mirror zs zs') (i j : Nat) :
    zs.map (fun c => g (c.getD i 0) (c.getD j 0)) = zs'.map fun c => g (c.getD i 0) (c.getD j 0) := by
  induction h with
  | nil => rfl
  | cons hc _ ih =>
    obtain ⟨s, hs, rfl⟩ := hc
    simp only [List.map_cons, ih, getD_mirror, hg s _ _ hs]

theorem kernel_mirror {zs zs' : List (List ℝ)} (h : List.Forall₂ Mirror zs zs') (isPoly : Bool)
    (gamma : ℝ) (i j : Nat) :
    kernel isPoly gamma (point zs i) (point zs j) = kernel isPoly gamma (point zs' i) (point zs' j) := by
  simp only [kernel, zipWith_point,
    mirror_map (fun u v => u * v) (fun s u v hs => by linear_combination (u * v) * hs) h i j,
    mirror_map (fun u v => (u - v) ^ 2) (fun s u v hs => by linear_combination ((u - v) ^ 2) * hs) h i j]

theorem kernel_perm {zs zs' : List (List ℝ)} (h : zs.Perm zs') (isPoly : Bool) (gamma : ℝ) (i j : Nat) :
    kernel isPoly gamma (point zs i) (point zs j) = kernel isPoly gamma (point zs' i) (point zs' j) := by
  simp only [kernel, zipWith_point]
  rw [(h.map fun c => c.getD i 0 * c.getD j 0).sum_eq,
    (h.map fun c => (c.getD i 0 - c.getD j 0) ^ 2).sum_eq]

theorem normalised_axes {cols cols' : List (List ℝ)} (h : List.Forall₂ SameAxis cols cols') :
    (normalised cols = none ∧ normalised cols' = none) ∨
    ∃ zs zs', normalised cols = some zs ∧ normalised cols' = some zs' ∧ List.Forall₂ Mirror zs zs' := by
  induction h with
  | nil => exact .inr ⟨[], [], rfl, rfl, .nil⟩
  | @cons c d cs ds hc _ ih =>
    obtain ⟨a, b, ha, rfl⟩ := hc
    simp only [normalised, zscore_affine c b ha]
    cases hz : zscore c with
    | none => exact .inl ⟨rfl, rfl⟩
    | some z =>
      rcases ih with ⟨h1, h2⟩ | ⟨zs, zs', h1, h2, h3⟩
      · left; simp [h1, h2]
      · right
        exact ⟨z :: zs, _ :: zs', by simp [h1], by simp [h2], .cons ⟨a / |a|, sign_sq ha, rfl⟩ h3⟩

theorem normalised_perm {cols cols' : List (List ℝ)} (h : cols.Perm cols') :
    (normalised cols = none ∧ normalised cols' = none) ∨
    ∃ zs zs', normalised cols = some zs ∧ normalised cols' = some zs' ∧ zs.Perm zs' := by
  induction h with
  | nil => exact .inr ⟨[], [], rfl, rfl, .nil⟩
  | cons c _ ih =>
    simp only [normalised]
    cases zscore c with
    | none => exact .inl ⟨rfl, rfl⟩
    | some z =>
      rcases ih with ⟨h1, h2⟩ | ⟨zs, zs', h1, h2, h3⟩
      · left; simp [h1, h2]
      · exact .inr ⟨z :: zs, z :: zs', by simp [h1], by simp [h2], h3.cons z⟩
  | swap c d cs =>
    simp only [normalised]
    cases zscore c <;> cases zscore d <;> cases normalised cs
    case some.some.some z z' zs =>
      exact .inr ⟨z' :: z :: zs, z :: z' :: zs, rfl, rfl, .swap _ _ _⟩
    all_goals exact .inl ⟨rfl, rfl⟩
  | trans _ _ ih1 ih2 =>
    rcases ih1 with ⟨h1, h2⟩ | ⟨zs, zs', h1, h2, h3⟩
    · rcases ih2 with ⟨h4, h5⟩ | ⟨ws, ws', h4, h5, h6⟩
      · exact .inl ⟨h1, h5⟩
      · rw [h2] at h4; exact absurd h4 (by simp)
    · rcases ih2 with ⟨h4, h5⟩ | ⟨ws, ws', h4, h5, h6⟩
      · rw [h2] at h4; exact absurd h4 (by simp)
      · rw [h2] at h4
        injection h4 with h4
        subst h4
        exact .inr ⟨zs, ws', h1, h5, h3.trans h6⟩

/-! ### The theorems -/

/-- C189, proved part: drawing the instance space with other units, other origins, mirrored or exchanged axes
changes no kernel, neither the Gaussian nor the polynomial one, for any hyper-parameter; and it is rejected
exactly when the other drawing is. -/
theorem C189_axes_partial {cols cols' : List (List ℝ)} (h : SamePicture cols cols') (isPoly : Bool)
    (gamma : ℝ) : gram isPoly gamma cols' = gram isPoly gamma cols := by
  obtain ⟨mid, h1, h2⟩ := h
  unfold gram
  rcases normalised_axes h1 with ⟨a1, a2⟩ | ⟨zs, ws, a1, a2, a3⟩
  · rcases normalised_perm h2 with ⟨b1, b2⟩ | ⟨vs, vs', b1, b2, b3⟩
    · rw [a1, b2]
    · rw [a2] at b1; exact absurd b1 (by simp)
  · rcases normalised_perm h2 with ⟨b1, b2⟩ | ⟨vs, vs', b1, b2, b3⟩
    · rw [a2] at b1; exact absurd b1 (by simp)
    · rw [a2] at b1
      injection b1 with b1
      subst b1
      rw [a1, b2]
      simp only [Option.map_some, Option.some.injEq]
      funext i j
      rw [kernel_mirror a3, kernel_perm b3]

/-- The picture of three instances, and the same picture in other units, mirrored and with the axes
exchanged. -/
def corner : List (List ℝ) := [[0, 1, 0], [0, 0, 1]]

example : SamePicture corner [[5, 5, 7], [0, -3, 0]] := by
  refine ⟨[[0, -3, 0], [5, 5, 7]], .cons ⟨-3, 0, by norm_num, by norm_num⟩
    (.cons ⟨2, 5, by norm_num, by norm_num⟩ .nil), .swap _ _ _⟩

/-- The same picture, turned (by the angle of a right triangle with sides 3, 4 and 5). -/
noncomputable def turned : List (List ℝ) := [[0, 3 / 5, 4 / 5], [0, -4 / 5, 3 / 5]]

theorem std_ne_zero_of {l : List ℝ} {q : ℝ}
    (h : (l.map fun v => (v - mean l) ^ 2).sum / (l.length - 1) = q) (hq : 0 < q) :
    std l ^ 2 = q ∧ std l ≠ 0 := by
  unfold std
  rw [h]
  exact ⟨Real.sq_sqrt hq.le, (Real.sqrt_pos.2 hq).ne'⟩

/-- The distance of two instances after normalising, from the variances. -/
theorem gram_two {c d : List ℝ} {p q : ℝ} (hc : std c ^ 2 = p ∧ std c ≠ 0) (hd : std d ^ 2 = q ∧ std d ≠ 0)
    (i j : Nat) (hi : i < c.length) (hj : j < c.length) (hi' : i < d.length) (hj' : j < d.length) :
    ∃ K, gram false 1 [c, d] = some K ∧
      K i j = Real.exp (-((c.getD i 0 - c.getD j 0) ^ 2 / p + (d.getD i 0 - d.getD j 0) ^ 2 / q)) := by
  simp only [gram, normalised, zscore, if_neg hc.2, if_neg hd.2, Option.bind_some, Option.map_some]
  refine ⟨_, rfl, ?_⟩
  simp only [kernel, zipWith_point, Bool.false_eq_true, if_false, List.map_cons, List.map_nil, List.sum_cons,
    List.sum_nil, List.getD_eq_getElem?_getD, List.getElem?_map, List.getElem?_eq_getElem hi,
    List.getElem?_eq_getElem hj, List.getElem?_eq_getElem hi', List.getElem?_eq_getElem hj', Option.map_some,
    Option.getD_some]
  rw [← hc.1, ← hd.1]
  congr 1
  have := hc.2
  have := hd.2
  field_simp
  ring

/-- C189 is false: turning the picture changes what the classifiers see, since each axis is divided by its
own deviation. -/
theorem C189_refuted : ¬ DependsOnDistancesOnly := by
  intro h
  have c1 := std_ne_zero_of (l := [0, 1, 0]) (q := 1 / 3) (by norm_num [mean]) (by norm_num)
  have c2 := std_ne_zero_of (l := [0, 0, 1]) (q := 1 / 3) (by norm_num [mean]) (by norm_num)
  have d1 := std_ne_zero_of (l := [0, 3 / 5, 4 / 5]) (q := 13 / 75) (by norm_num [mean]) (by norm_num)
  have d2 := std_ne_zero_of (l := [0, -4 / 5, 3 / 5]) (q := 37 / 75) (by norm_num [mean]) (by norm_num)
  obtain ⟨K, hK, e⟩ := gram_two c1 c2 0 1 (by simp) (by simp) (by simp) (by simp)
  obtain ⟨K', hK', e'⟩ := gram_two d1 d2 0 1 (by simp) (by simp) (by simp) (by simp)
  have := h false 1 corner turned 3 rfl (by simp [corner]) (by simp [turned])
    (by
      intro i hi j hj
      have : i = 0 ∨ i = 1 ∨ i = 2 := by omega
      have : j = 0 ∨ j = 1 ∨ j = 2 := by omega
      rcases ‹i = 0 ∨ _› with rfl | rfl | rfl <;> rcases ‹j = 0 ∨ _› with rfl | rfl | rfl <;>
        norm_num [dist2, corner, turned]) K K' hK hK' 0 (by norm_num) 1 (by norm_num)
  rw [e, e', Real.exp_eq_exp] at this
  norm_num at this

end Verif.Pythia
