import Verif.Prelim.PropsData
import Mathlib.Tactic.Linarith
import Mathlib.Tactic.Ring
/-!
# C146, C147: bounding twice, and what bounding leaves of a feature
-/
set_option autoImplicit false
set_option linter.unusedSectionVars false

namespace Verif.Prelim

open Verif (Num)

/-- The order of `mergeSort` in `bounds`. -/
private abbrev srt (l : List ℚ) : List ℚ := l.mergeSort (fun a b => decide (a ≤ b))

private theorem srt_sorted (l : List ℚ) : (srt l).Pairwise (· ≤ ·) := by
  have := List.pairwise_mergeSort (le := fun a b : ℚ => decide (a ≤ b))
    (by intro a b c h1 h2; simp only [decide_eq_true_eq] at *; exact le_trans h1 h2)
    (by intro a b; simp only [Bool.or_eq_true, decide_eq_true_eq]; exact le_total a b) l
  exact this.imp (by intro a b h; simpa using h)

private theorem srt_map (f : ℚ → ℚ) (hf : Monotone f) (l : List ℚ) : srt (l.map f) = (srt l).map f := by
  apply List.Perm.eq_of_pairwise (le := fun a b : ℚ => a ≤ b)
  · intro a b _ _ h1 h2; exact le_antisymm h1 h2
  · exact srt_sorted _
  · rw [List.pairwise_map]
    exact (srt_sorted l).imp fun h => hf h
  · exact (List.mergeSort_perm _ _).trans ((List.mergeSort_perm l _).symm.map f)

private theorem bounds_srt (l : List ℚ) :
    bounds l = (median (srt l) - 5 * (quartile 3 (srt l) - quartile 1 (srt l)),
      median (srt l) + 5 * (quartile 3 (srt l) - quartile 1 (srt l))) := rfl

private theorem getD_map (f : ℚ → ℚ) (s : List ℚ) (i : Nat) (h : i < s.length) :
    (s.map f).getD i 0 = f (s.getD i 0) := by
  simp [List.getD_eq_getElem?_getD, List.getElem?_eq_getElem h]

private theorem clamp_mono (lo hi : ℚ) : Monotone fun v : ℚ => max lo (min hi v) :=
  fun _ _ h => max_le_max_left _ (min_le_min_left _ h)

private theorem stats_clamped (s : List ℚ) (hs : s.Pairwise (· ≤ ·)) (hl : 0 < s.length) (lo hi : ℚ)
    (hlo : lo = median s - 5 * (quartile 3 s - quartile 1 s))
    (hhi : hi = median s + 5 * (quartile 3 s - quartile 1 s)) :
    median (s.map fun v => max lo (min hi v)) = median s ∧
    quartile 3 (s.map fun v => max lo (min hi v)) - quartile 1 (s.map fun v => max lo (min hi v)) =
      quartile 3 s - quartile 1 s := by
  by_cases h2 : s.length = 2
  · -- two values: both quartiles and the median are their mean
    obtain ⟨a, b, rfl⟩ := List.length_eq_two.1 h2
    have hm : lo = (a + b) / 2 := by rw [hlo]; simp [median, quartile]
    have hm' : hi = (a + b) / 2 := by rw [hhi]; simp [median, quartile]
    have hc : ∀ v : ℚ, max lo (min hi v) = (a + b) / 2 := by
      intro v
      rw [hm, hm']
      exact max_eq_left (min_le_left _ _)
    simp only [hc, List.map_cons, List.map_nil]
    constructor <;> simp [median, quartile]
  · have mono := fun {i j : Nat} => sorted_getD_le (i := i) (j := j) hs
    have m1 := mono (i := (s.length - 1) / 2) (j := s.length / 2) (by omega) (by omega)
    have a1 := mono (i := 1 * (s.length - 1) / 4) (j := (1 * (s.length - 1) + 3) / 4)
      (by omega) (by omega)
    have c1 := mono (i := 3 * (s.length - 1) / 4) (j := (3 * (s.length - 1) + 3) / 4)
      (by omega) (by omega)
    have e1 := mono (i := s.length / 2) (j := 3 * (s.length - 1) / 4) (by omega) (by omega)
    have e2 := mono (i := (1 * (s.length - 1) + 3) / 4) (j := (s.length - 1) / 2) (by omega) (by omega)
    have fixed : ∀ i, 1 * (s.length - 1) / 4 ≤ i → i ≤ (3 * (s.length - 1) + 3) / 4 →
        (s.map fun v => max lo (min hi v)).getD i 0 = s.getD i 0 := by
      intro i h3 h4
      rw [getD_map _ _ _ (by omega)]
      have u1 := mono h3 (by omega)
      have u2 := mono h4 (by omega)
      simp only [median, quartile] at hlo hhi
      rw [min_eq_right (by linarith), max_eq_right (by linarith)]
    simp only [median, quartile, List.length_map]
    rw [fixed _ (by omega) (by omega), fixed _ (by omega) (by omega), fixed _ (by omega) (by omega),
      fixed _ (by omega) (by omega), fixed _ (by omega) (by omega), fixed _ (by omega) (by omega)]
    exact ⟨rfl, rfl⟩

/-- **C146** Clamping to the bounds does not move the bounds: a second `_bound` reports the same ones. -/
theorem C146_bounds (col : List ℚ) (h : col ≠ []) :
    bounds (col.map fun v => max (bounds col).1 (min (bounds col).2 v)) = bounds col := by
  have hl : 0 < (srt col).length := by
    rw [List.length_mergeSort]
    exact List.length_pos_iff.2 h
  obtain ⟨h1, h2⟩ := stats_clamped (srt col) (srt_sorted col) hl (bounds col).1 (bounds col).2 rfl rfl
  rw [bounds_srt (col.map _), srt_map _ (clamp_mono _ _), h1, h2, ← bounds_srt]

/-- **C146** Bounding a column that is already bounded changes nothing, whether or not entries are
missing. -/
theorem C146_idempotent (junk : Num × Num) (col : List Num)
    (hc : .nan ∈ col ∨ ∀ v ∈ col, ∃ q, v = .fin q) :
    boundCol junk (boundCol junk col) = boundCol junk col := by
  rcases hc with hc | hc
  · have h1 := C87_wiped_partial junk col hc
    rw [h1, C87_wiped_partial junk (col.map fun _ => .nan), List.map_map]
    · rfl
    · cases col with
      | nil => simp at hc
      | cons a l => simp
  · obtain ⟨qs, rfl⟩ : ∃ qs : List ℚ, col = qs.map .fin := by
      clear junk
      induction col with
      | nil => exact ⟨[], rfl⟩
      | cons v l ih =>
        obtain ⟨q, rfl⟩ := hc v List.mem_cons_self
        obtain ⟨qs, rfl⟩ := ih fun w hw => hc w (List.mem_cons_of_mem _ hw)
        exact ⟨q :: qs, rfl⟩
    by_cases hq : qs = []
    · subst hq; rfl
    obtain ⟨lo, hi, hb, hle, h1, -⟩ := C41_clamp junk qs hq
    have e : (qs.map fun v => (.fin (max lo (min hi v)) : Num)) =
        (qs.map fun v => max lo (min hi v)).map .fin := by rw [List.map_map]; rfl
    obtain ⟨lo', hi', hb', -, h2, -⟩ := C41_clamp junk (qs.map fun v => max lo (min hi v)) (by simpa using hq)
    have := C146_bounds qs hq
    rw [hb] at this
    simp only at this
    rw [this] at hb'
    cases hb'
    rw [h1, e, h2, List.map_map, List.map_map]
    apply List.map_congr_left
    intro v _
    simp only [Function.comp]
    rw [min_eq_right (max_le hle (min_le_left _ _)), max_eq_right (le_max_left _ _)]

-- An outlier is moved to 25 and stays there; the other entries are untouched by both rounds.
example : boundCol (0, 0) (boundCol (0, 0) (([100, 1, 2, 3, 4, 5, 6, 7, 8] : List ℚ).map Num.fin)) =
    boundCol (0, 0) (([100, 1, 2, 3, 4, 5, 6, 7, 8] : List ℚ).map Num.fin) :=
  C146_idempotent _ _ (Or.inr (by intro v hv; obtain ⟨q, -, rfl⟩ := List.mem_map.1 hv; exact ⟨q, rfl⟩))

/-! ### C147 -/

/-- All entries of the column are the same. -/
def Constant {α : Type} (col : List α) : Prop := ∃ a, ∀ v ∈ col, v = a

/-- The full claim: a feature in which two instances differ still tells some instances apart after
bounding. -/
def BoundKeepsVariation : Prop :=
  ∀ (junk : Num × Num) (col : List ℚ), ¬ Constant col → ¬ Constant (boundCol junk (col.map Num.fin))

private theorem iqr_cases (s : List ℚ) (hs : s.Pairwise (· ≤ ·)) (hl : 3 ≤ s.length)
    (h : quartile 3 s - quartile 1 s = 0) :
    s.getD (1 * (s.length - 1) / 4) 0 = s.getD ((3 * (s.length - 1) + 3) / 4) 0 := by
  have mono := fun {i j : Nat} => sorted_getD_le (i := i) (j := j) hs
  have a1 := mono (i := 1 * (s.length - 1) / 4) (j := (1 * (s.length - 1) + 3) / 4) (by omega) (by omega)
  have a2 := mono (i := (1 * (s.length - 1) + 3) / 4) (j := 3 * (s.length - 1) / 4) (by omega) (by omega)
  have a3 := mono (i := 3 * (s.length - 1) / 4) (j := (3 * (s.length - 1) + 3) / 4) (by omega) (by omega)
  simp only [quartile] at h
  linarith

/-- **C147** exactly: the bounded feature is constant when and only when the interval has no width. -/
theorem C147_exact_partial (junk : Num × Num) (col : List ℚ) (h : col ≠ []) :
    Constant (boundCol junk (col.map Num.fin)) ↔ (bounds col).1 = (bounds col).2 := by
  obtain ⟨lo, hi, hb, hle, h1, -⟩ := C41_clamp junk col h
  rw [h1, hb]
  simp only
  constructor
  · rintro ⟨a, ha⟩
    have hl : 0 < (srt (col.map fun v => max lo (min hi v))).length := by
      rw [List.length_mergeSort, List.length_map]
      exact List.length_pos_iff.2 h
    have hall : ∃ q : ℚ, ∀ v ∈ srt (col.map fun v => max lo (min hi v)), v = q := by
      obtain ⟨w, hw⟩ := List.exists_mem_of_ne_nil col h
      refine ⟨max lo (min hi w), fun v hv => ?_⟩
      obtain ⟨u, hu, rfl⟩ := List.mem_map.1 ((List.mergeSort_perm _ _).mem_iff.1 hv)
      have e1 := ha _ (List.mem_map_of_mem hu)
      have e2 := ha _ (List.mem_map_of_mem hw)
      have := e1.trans e2.symm
      simpa using this
    have hb2 := C146_bounds col h
    rw [hb] at hb2
    simp only at hb2
    obtain ⟨q, hq⟩ := hall
    have hg : ∀ i, i < (srt (col.map fun v => max lo (min hi v))).length →
        (srt (col.map fun v => max lo (min hi v))).getD i 0 = q := by
      intro i hi
      rw [List.getD_eq_getElem?_getD, List.getElem?_eq_getElem hi]
      exact hq _ (List.getElem_mem hi)
    have e : ∀ k, k ≤ 3 → quartile k (srt (col.map fun v => max lo (min hi v))) = q := by
      intro k hk
      have b1 : k * ((srt (col.map fun v => max lo (min hi v))).length - 1) ≤
          3 * ((srt (col.map fun v => max lo (min hi v))).length - 1) := Nat.mul_le_mul_right _ hk
      unfold quartile
      rw [hg _ (by omega), hg _ (by omega)]
      ring
    rw [bounds_srt, e 3 le_rfl, e 1 (by omega)] at hb2
    have e3 := congrArg Prod.fst hb2
    have e4 := congrArg Prod.snd hb2
    simp only [sub_self, mul_zero, sub_zero, add_zero] at e3 e4
    exact e3.symm.trans e4
  · rintro rfl
    refine ⟨.fin lo, fun v hv => ?_⟩
    obtain ⟨u, -, rfl⟩ := List.mem_map.1 hv
    rw [max_eq_left (min_le_left _ _)]

/-- **C147** (what holds) With three or more instances, a feature of which no value fills more than half of
the entries still varies after bounding. -/
theorem C147_partial (junk : Num × Num) (col : List ℚ) (hl : 3 ≤ col.length)
    (hc : ∀ a : ℚ, 2 * col.count a ≤ col.length) :
    ¬ Constant (boundCol junk (col.map Num.fin)) := by
  have h : col ≠ [] := by rintro rfl; simp at hl
  rw [C147_exact_partial junk col h]
  intro heq
  have hs := srt_sorted col
  have hperm : (srt col).Perm col := List.mergeSort_perm _ _
  have hiqr : quartile 3 (srt col) - quartile 1 (srt col) = 0 := by
    have : (bounds col).1 = median (srt col) - 5 * (quartile 3 (srt col) - quartile 1 (srt col)) := rfl
    have : (bounds col).2 = median (srt col) + 5 * (quartile 3 (srt col) - quartile 1 (srt col)) := rfl
    linarith
  have hlen : (srt col).length = col.length := hperm.length_eq
  have hc' : ∀ a : ℚ, 2 * (srt col).count a ≤ (srt col).length := fun a => by
    rw [hperm.count_eq, hlen]; exact hc a
  rw [← hlen] at hl
  generalize srt col = s at hs hl hiqr hc'
  have hq := iqr_cases s hs hl hiqr
  set a := s.getD (1 * (s.length - 1) / 4) 0 with ha
  have c1 := count_le_ge hs (i := (3 * (s.length - 1) + 3) / 4) (by omega) (t := a) hq.symm.le
  have c2 := count_ge_ge hs (i := 1 * (s.length - 1) / 4) (by omega) (t := a) ha.le
  have key : ∀ l : List ℚ, l.countP (fun v => decide (v ≤ a)) + l.countP (fun v => decide (a ≤ v)) =
      l.length + l.count a := by
    intro l
    induction l with
    | nil => rfl
    | cons v l ih =>
      simp only [List.countP_cons, List.count_cons, List.length_cons, decide_eq_true_eq, beq_iff_eq]
      rcases lt_trichotomy v a with hv | hv | hv
      · rw [if_pos hv.le, if_neg (not_le.2 hv), if_neg hv.ne]; omega
      · subst hv; simp only [le_refl, if_true]; omega
      · rw [if_neg (not_le.2 hv), if_pos hv.le, if_neg hv.ne']; omega
  have := key s
  have := hc' a
  omega

/-- **C147** (what fails, exactly, for two instances) Every feature of two instances becomes constant. -/
theorem C147_two_refuted (junk : Num × Num) (a b : ℚ) :
    Constant (boundCol junk ([a, b].map Num.fin)) := by
  rw [C147_exact_partial junk [a, b] (by simp)]
  have hlen : (srt [a, b]).length = 2 := by rw [List.length_mergeSort]; rfl
  have : quartile 3 (srt [a, b]) - quartile 1 (srt [a, b]) = 0 := by
    generalize srt [a, b] = s at hlen
    obtain ⟨u, v, rfl⟩ := List.length_eq_two.1 hlen
    simp [quartile]
  change median (srt [a, b]) - 5 * (quartile 3 (srt [a, b]) - quartile 1 (srt [a, b])) =
    median (srt [a, b]) + 5 * (quartile 3 (srt [a, b]) - quartile 1 (srt [a, b]))
  rw [this]
  ring

/-- **C147** is false: a feature which marks one of five instances is the same for all of them after
bounding. -/
theorem C147_refuted : ¬ BoundKeepsVariation := by
  intro h
  refine h (0, 0) [0, 0, 1, 0, 0] ?_ ?_
  · rintro ⟨a, ha⟩
    have h1 := ha 0 (by simp)
    have h2 := ha 1 (by simp)
    rw [← h1] at h2
    exact absurd h2 (by norm_num)
  · rw [C147_exact_partial _ _ (by simp)]
    have hs : ([0, 0, 1, 0, 0] : List ℚ).mergeSort (fun a b => decide (a ≤ b)) = [0, 0, 0, 0, 1] := by
      simp (decide := true) [List.mergeSort, List.MergeSort.Internal.splitInTwo, List.merge]
    unfold bounds
    rw [hs]
    norm_num [median, quartile]

-- Two values, each in half of four entries.
example : ¬ Constant (boundCol (0, 0) (([0, 0, 1, 1] : List ℚ).map Num.fin)) :=
  C147_partial (0, 0) [0, 0, 1, 1] (by simp) (by
    intro a
    by_cases h0 : a = 0
    · subst h0; simp
    · by_cases h1 : a = 1
      · subst h1; simp
      · simp [List.count_cons, Ne.symm h0, Ne.symm h1])

end Verif.Prelim
