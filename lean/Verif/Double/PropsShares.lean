import Verif.Double.Shares
import Verif.Double.ColumnLemmas
import Verif.Trace.Lemmas
import Verif.Preprocessing.Model
/-!
# Shares compared with decimal thresholds in double precision (C178)
-/
set_option autoImplicit false
set_option linter.unusedSectionVars false

namespace Verif.Double

open Verif (Num)

theorem toDouble_unit {t : ℚ} (h0 : 0 ≤ t) (h1 : t ≤ 1) :
    ∃ r, toDouble t = .fin r ∧ |r - t| ≤ 1 / 2 ^ 52 := by
  obtain ⟨r, hr, -, -⟩ := toDouble_fits (K := 0) (by norm_num) (q := t) (by rw [abs_of_nonneg h0]; simpa using h1)
  refine ⟨r, hr, (toDouble_error hr).trans ?_⟩
  rw [abs_of_nonneg h0]
  have htiny : (1 : ℚ) / 2 ^ 1075 ≤ 1 / 2 ^ 53 :=
    one_div_le_one_div_of_le (by positivity) (pow_le_pow_right₀ (by norm_num) (by norm_num))
  generalize (1 : ℚ) / 2 ^ 1075 = x at htiny
  norm_num at htiny ⊢
  linarith

/-- Different fractions with small denominators are different as doubles. -/
theorem share_lt {g e a b : Nat} (hg : g ≤ e) (ha : a ≤ b) (he : 0 < e) (hb : 0 < b)
    (hsmall : e * b ≤ 2 ^ 50) :
    Num.lt (share g e) (toDouble (a / b)) = decide (g * b < a * e) ∧
      Num.le (toDouble (a / b)) (share g e) = decide (a * e ≤ g * b) := by
  have hE : (0 : ℚ) < e := by exact_mod_cast he
  have hB : (0 : ℚ) < b := by exact_mod_cast hb
  have hs : share g e = toDouble ((g : ℚ) / e) := by
    unfold share div
    rw [Num.fin_div _ _ hE.ne']
    rfl
  obtain ⟨r, hr, er⟩ := toDouble_unit (t := (g : ℚ) / e) (by positivity)
    ((div_le_one hE).2 (by exact_mod_cast hg))
  obtain ⟨s, hs', es⟩ := toDouble_unit (t := (a : ℚ) / b) (by positivity)
    ((div_le_one hB).2 (by exact_mod_cast ha))
  have gap : ∀ m n : Nat, m < n → (m : ℚ) / (e * b) + 1 / 2 ^ 50 ≤ n / (e * b) := by
    intro m n hmn
    have h1 : (m : ℚ) + 1 ≤ n := by exact_mod_cast hmn
    have hp : (0 : ℚ) < e * b := by positivity
    have h2 : (1 : ℚ) / 2 ^ 50 ≤ 1 / (e * b) :=
      one_div_le_one_div_of_le hp (by exact_mod_cast hsmall)
    have h3 : ((m : ℚ) + 1) / (e * b) ≤ n / (e * b) := div_le_div_of_nonneg_right h1 hp.le
    rw [add_div] at h3
    linarith
  have q1 : (g : ℚ) / e = ((g * b : Nat) : ℚ) / (e * b) := by
    push_cast
    rw [mul_div_mul_right _ _ hB.ne']
  have q2 : (a : ℚ) / b = ((a * e : Nat) : ℚ) / (e * b) := by
    push_cast
    rw [mul_comm (e : ℚ), mul_div_mul_right _ _ hE.ne']
  rw [abs_le] at er es
  rw [hs]
  rcases lt_trichotomy (g * b) (a * e) with h | h | h
  · have := gap _ _ h
    rw [← q1, ← q2] at this
    have hrs : r < s := by
      norm_num at this er es
      linarith [er.2, es.1]
    rw [hr, hs']
    simp [Num.lt, Num.le, hrs, h, not_le.2 hrs, not_le.2 h]
  · have : (g : ℚ) / e = a / b := by rw [q1, q2, h]
    rw [this, hs']
    simp [Num.lt, Num.le, h]
  · have := gap _ _ h
    rw [← q1, ← q2] at this
    have hrs : s < r := by
      norm_num at this er es
      linarith [er.1, es.2]
    rw [hr, hs']
    simp [Num.lt, Num.le, hrs.le, h.le, not_lt.2 hrs.le, not_lt.2 h.le]

/-- **C178.**  In double precision a feature is dropped exactly if at least one in five of its values is
missing, for up to `2 ^ 47` instances. -/
theorem C178_features {missing n : Nat} (hn : 0 < n) (hm : missing ≤ n) (hs : n ≤ 2 ^ 47) :
    tooSparse missing n = true ↔ n ≤ 5 * missing := by
  have := (share_lt (a := 1) (b := 5) hm (by norm_num) hn (by norm_num) (by omega)).2
  unfold tooSparse
  rw [show (1 / 5 : ℚ) = ((1 : ℕ) : ℚ) / ((5 : ℕ) : ℚ) by norm_num, this, decide_eq_true_eq]
  omega

/-- **C178.**  The warning about repeated instances appears exactly if fewer than half are different. -/
theorem C178_repeated {nuinst n : Nat} (hn : 0 < n) (hm : nuinst ≤ n) (hs : n ≤ 2 ^ 47) :
    manyRepeated nuinst n = true ↔ 2 * nuinst < n := by
  have := (share_lt (a := 1) (b := 2) hm (by norm_num) hn (by norm_num) (by omega)).1
  unfold manyRepeated
  rw [show (1 / 2 : ℚ) = ((1 : ℕ) : ℚ) / ((2 : ℕ) : ℚ) by norm_num, this, decide_eq_true_eq]
  omega

/-- **C178.**  With a purity given as a decimal fraction `a / b`, a triangle with instances is cut out exactly
if the share of good instances is less than `a / b`, although the computer compares with the nearest double. -/
theorem C178_purity {good elements a b : Nat} (hg : good ≤ elements) (he : 0 < elements) (ha : a ≤ b)
    (hb : 0 < b) (hs : elements * b ≤ 2 ^ 50) :
    impure (toDouble (a / b)) good elements = true ↔ (good : ℚ) / elements < a / b := by
  unfold impure
  rw [(share_lt hg ha he hb hs).1]
  have hE : (0 : ℚ) < elements := by exact_mod_cast he
  have hB : (0 : ℚ) < b := by exact_mod_cast hb
  rw [div_lt_div_iff₀ hE hB]
  simp only [he, decide_true, Bool.true_and, decide_eq_true_eq]
  exact_mod_cast Iff.rfl

/-- Non-vacuity: eleven of twenty instances are good and the purity is 0.55, a double that is more than
11/20; the triangle is not cut out.  Of 15 values 3 missing are too many, 2 are not. -/
example : impure (toDouble (55 / 100)) 11 20 = false ∧
    (∃ r, toDouble (55 / 100) = .fin r ∧ (11 : ℚ) / 20 < r) ∧
    tooSparse 3 15 = true ∧ tooSparse 2 15 = false ∧ manyRepeated 7 15 = true :=
  ⟨by decide +kernel, ⟨2476979795053773 / 2 ^ 52, by decide +kernel, by norm_num⟩, by decide +kernel,
    by decide +kernel, by decide +kernel⟩

/-- **C178.**  The columns that preprocessing drops are the same as with exact arithmetic: the properties of
preprocessing, which are stated with exact shares, hold of the computed shares. -/
theorem C178_preprocessing {V : Type} (nan : V → Bool) (x : Preprocessing.Mat V) (hs : x.rows.length ≤ 2 ^ 47) :
    Preprocessing.sparseCols nan x =
      (List.range x.ncols).map fun j => tooSparse (Preprocessing.missing nan x j) x.rows.length := by
  unfold Preprocessing.sparseCols
  refine List.map_congr_left fun j _ => ?_
  cases hr : x.rows with
  | nil =>
    have h0 : Preprocessing.missing nan x j = 0 := by
      unfold Preprocessing.missing
      rw [hr]
      rfl
    rw [h0]
    have : tooSparse 0 0 = false := by decide +kernel
    simpa using this.symm
  | cons r rs =>
    have hle : Preprocessing.missing nan x j ≤ (r :: rs).length := by
      unfold Preprocessing.missing
      rw [← hr]
      exact List.countP_le_length.trans (List.length_filterMap_le _ _)
    have := C178_features (missing := Preprocessing.missing nan x j) (n := (r :: rs).length) (by simp) hle
      (hr ▸ hs)
    rw [Bool.eq_iff_iff, this]
    simp

/-- **C178.**  The triangles that TRACE cuts out are the same as with exact arithmetic. -/
theorem C178_trace {G P : Type} (geo : Trace.Geo G P ℚ) {a b : Nat} (ha : a ≤ b) (hb : 0 < b) (z : List P)
    (y : List Bool) (polygon piece : G) (hs : z.length * b ≤ 2 ^ 50) :
    Trace.prune geo (a / b) z y polygon piece =
      if impure (toDouble (a / b)) (Trace.count geo (geo.hull piece) (Trace.masked z y))
        (Trace.count geo (geo.hull piece) z) then geo.diff polygon piece else polygon := by
  unfold Trace.prune
  dsimp only
  by_cases he : 0 < Trace.count geo (geo.hull piece) z
  · have hle : Trace.count geo (geo.hull piece) z ≤ z.length := List.length_filter_le _ _
    have := C178_purity (Trace.count_masked_le geo (geo.hull piece) z y) he ha hb
      ((Nat.mul_le_mul_right _ hle).trans hs)
    simp only [he, true_and, this]
  · have : impure (toDouble (a / b)) (Trace.count geo (geo.hull piece) (Trace.masked z y))
        (Trace.count geo (geo.hull piece) z) = false := by
      unfold impure
      simp [he]
    simp only [he, false_and, this, if_false, Bool.false_eq_true]

end Verif.Double
