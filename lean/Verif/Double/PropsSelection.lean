import Verif.Double.Selection
import Verif.Double.PropsShares
import Verif.Pythia.Props
/-!
# PYTHIA's recommendations in double precision (C179)
-/
set_option autoImplicit false
set_option linter.unusedSectionVars false

namespace Verif.Double

open Verif (Num)
open Verif.Pythia (Err Sel cells column)

/-- A share of at most `2 ^ 25` things. -/
def SmallShare (q : ℚ) : Prop := ∃ g e : Nat, g ≤ e ∧ 0 < e ∧ e ≤ 2 ^ 25 ∧ q = g / e

theorem smallShare_zero : SmallShare 0 := ⟨0, 1, by omega, by omega, by norm_num, by simp⟩

theorem toDouble_lt {p q : ℚ} (hp : SmallShare p) (hq : SmallShare q) :
    Num.lt (toDouble p) (toDouble q) = decide (p < q) ∧
      Num.le (toDouble q) (toDouble p) = decide (q ≤ p) := by
  obtain ⟨g, e, hg, he, hs, rfl⟩ := hp
  obtain ⟨a, b, ha, hb, hs', rfl⟩ := hq
  have hE : (0 : ℚ) < e := by exact_mod_cast he
  have hB : (0 : ℚ) < b := by exact_mod_cast hb
  have h := share_lt hg ha he hb (by
    calc e * b ≤ 2 ^ 25 * 2 ^ 25 := Nat.mul_le_mul hs hs'
      _ = 2 ^ 50 := by norm_num)
  have hsh : share g e = toDouble ((g : ℚ) / e) := by
    unfold share div
    rw [Num.fin_div _ _ hE.ne']
    rfl
  rw [hsh] at h
  rw [h.1, h.2]
  constructor
  · refine decide_eq_decide.2 ?_
    rw [div_lt_div_iff₀ hE hB]
    exact_mod_cast Iff.rfl
  · refine decide_eq_decide.2 ?_
    rw [div_le_div_iff₀ hB hE]
    exact_mod_cast Iff.rfl

theorem argmaxFrom_eq : ∀ (l : List ℚ) (k i : Nat) (a : ℚ), SmallShare a → (∀ q ∈ l, SmallShare q) →
    argmaxFrom k (toDouble a) i (l.map toDouble) = Pythia.argmaxFrom k a i l
  | [], _, _, _, _, _ => rfl
  | b :: l, k, i, a, ha, hl => by
      have hb := hl b (by simp)
      have hl' : ∀ q ∈ l, SmallShare q := fun q hq => hl q (by simp [hq])
      simp only [List.map_cons, argmaxFrom, Pythia.argmaxFrom, (toDouble_lt ha hb).1, decide_eq_true_eq]
      rw [argmaxFrom_eq l i (i + 1) b hb hl', argmaxFrom_eq l k (i + 1) a ha hl']

theorem argmax_eq {l : List ℚ} (h : ∀ q ∈ l, SmallShare q) : argmax (l.map toDouble) = Pythia.argmax l := by
  cases l with
  | nil => rfl
  | cons a l => exact congrArg some (argmaxFrom_eq l 0 1 a (h a (by simp)) fun q hq => h q (by simp [hq]))

theorem maxFrom_eq : ∀ (l : List ℚ) (a : ℚ), SmallShare a → (∀ q ∈ l, SmallShare q) →
    maxFrom (toDouble a) (l.map toDouble) = toDouble (Pythia.maxFrom a l) ∧ SmallShare (Pythia.maxFrom a l)
  | [], a, ha, _ => ⟨rfl, ha⟩
  | b :: l, a, ha, hl => by
      have hb := hl b (by simp)
      have hl' : ∀ q ∈ l, SmallShare q := fun q hq => hl q (by simp [hq])
      simp only [List.map_cons, maxFrom, Pythia.maxFrom, (toDouble_lt ha hb).1, decide_eq_true_eq]
      by_cases hab : a < b
      · simp only [hab, if_true]
        exact maxFrom_eq l b hb hl'
      · simp only [hab, if_false]
        exact maxFrom_eq l a ha hl'

theorem mul_flag {p : ℚ} (hp : SmallShare p) (b : Bool) :
    mul (.fin (if b then 1 else 0)) (toDouble p) = toDouble (if b then p else 0) := by
  obtain ⟨g, e, hg, he, -, rfl⟩ := hp
  have hE : (0 : ℚ) < e := by exact_mod_cast he
  obtain ⟨r, hr, -⟩ := toDouble_unit (t := (g : ℚ) / e) (by positivity)
    ((div_le_one hE).2 (by exact_mod_cast hg))
  cases b
  · rw [hr]
    unfold mul
    simp [rounded]
  · rw [hr]
    unfold mul
    simp only [if_true, Num.fin_mul, one_mul]
    rw [rounded_fin (toDouble_fin hr).2, hr]

theorem weighted_eq {precision : List ℚ} (h : ∀ q ∈ precision, SmallShare q) (row : List Bool) :
    weighted (precision.map toDouble) row = (Pythia.weighted precision row).map toDouble ∧
      ∀ q ∈ Pythia.weighted precision row, SmallShare q := by
  induction precision generalizing row with
  | nil => cases row <;> simp [weighted, Pythia.weighted]
  | cons p ps ih =>
    cases row with
    | nil => simp [weighted, Pythia.weighted]
    | cons b row =>
      obtain ⟨i1, i2⟩ := ih (fun q hq => h q (by simp [hq])) row
      unfold weighted Pythia.weighted at *
      simp only [List.map_cons, List.zipWith_cons_cons, i1, mul_flag (h p (by simp)), List.mem_cons,
        forall_eq_or_imp, true_and]
      refine ⟨?_, i2⟩
      cases b
      · exact smallShare_zero
      · exact h p (by simp)

theorem selectRow_eq {precision : List ℚ} (h : ∀ q ∈ precision, SmallShare q) (d : Nat) (row : List Bool) :
    selectRow (precision.map toDouble) d row = Pythia.selectRow precision d row := by
  obtain ⟨h1, h2⟩ := weighted_eq h row
  unfold selectRow Pythia.selectRow
  rw [h1]
  cases hw : Pythia.weighted precision row with
  | nil => rfl
  | cons a l =>
    rw [hw] at h2
    have ha := h2 a (by simp)
    have hl : ∀ q ∈ l, SmallShare q := fun q hq => h2 q (by simp [hq])
    obtain ⟨m1, m2⟩ := maxFrom_eq l a ha hl
    have h0 := (toDouble_lt smallShare_zero m2).2
    simp only [List.map_cons, m1, argmaxFrom_eq l 0 1 a ha hl]
    rw [← toDouble_zero, (toDouble_lt smallShare_zero m2).2]
    simp

theorem precisionScore_eq {truth pred : List Bool} (hs : truth.length ≤ 2 ^ 25) :
    precisionScore truth pred = toDouble (Pythia.precisionScore truth pred) ∧
      SmallShare (Pythia.precisionScore truth pred) := by
  have hlen : cells truth pred true true + cells truth pred false true ≤ truth.length := by
    have h0 : ∀ l : List (Bool × Bool), (l.filter (· = (true, true))).length +
        (l.filter (· = (false, true))).length ≤ l.length := by
      intro l
      induction l with
      | nil => simp
      | cons q l ih =>
        obtain ⟨a, b⟩ := q
        cases a <;> cases b <;> simp <;> omega
    have := h0 (truth.zip pred)
    rw [List.length_zip] at this
    unfold cells
    omega
  unfold precisionScore Pythia.precisionScore
  dsimp only
  by_cases h0 : cells truth pred true true + cells truth pred false true = 0
  · have h1 : cells truth pred true true = 0 := by omega
    rw [h0, h1]
    refine ⟨?_, by simpa using smallShare_zero⟩
    rw [if_pos rfl]
    unfold share div
    rw [Num.fin_div _ _ (by norm_num)]
    simp [rounded]
  · rw [if_neg h0]
    have hE : ((cells truth pred true true + cells truth pred false true : Nat) : ℚ) ≠ 0 := by
      exact_mod_cast h0
    refine ⟨?_, _, _, Nat.le_add_right _ _, by omega, by omega, rfl⟩
    unfold share div
    rw [Num.fin_div _ _ hE]
    rfl

theorem argmax_nan : ∀ (l : List Num) (i : Nat), (∀ v ∈ l, v = .nan) → argmaxFrom 0 .nan i l = 0
  | [], _, _ => rfl
  | b :: l, i, h => by
      unfold argmaxFrom
      exact argmax_nan l (i + 1) fun v hv => h v (by simp [hv])

theorem argmax_goodMeans_eq (n : Nat) {yBin : List (List Bool)} (hs : yBin.length ≤ 2 ^ 25) :
    argmax (goodMeans n yBin) = Pythia.argmax (Pythia.goodMeans n yBin) := by
  rcases Nat.eq_zero_or_pos yBin.length with h0 | hpos
  · rw [List.length_eq_zero_iff.1 h0]
    have e1 : goodMeans n [] = List.replicate n Num.nan := by
      unfold goodMeans
      rw [List.eq_replicate_iff]
      refine ⟨by simp, fun v hv => ?_⟩
      obtain ⟨j, -, rfl⟩ := List.mem_map.1 hv
      simp only [column, List.map_nil, List.count_nil, List.length_nil]
      decide +kernel
    have e2 : Pythia.goodMeans n [] = List.replicate n 0 := by
      unfold Pythia.goodMeans
      rw [List.eq_replicate_iff]
      refine ⟨by simp, fun v hv => ?_⟩
      obtain ⟨j, -, rfl⟩ := List.mem_map.1 hv
      simp
    rw [e1, e2]
    cases n with
    | zero => rfl
    | succ n =>
      have h2 : ∀ (m i : Nat), Pythia.argmaxFrom 0 0 i (List.replicate m 0) = 0 := by
        intro m
        induction m with
        | zero => intro i; rfl
        | succ m ih =>
          intro i
          rw [List.replicate_succ]
          unfold Pythia.argmaxFrom
          simpa using ih (i + 1)
      simp only [List.replicate_succ, argmax, Pythia.argmax, h2]
      rw [argmax_nan _ _ fun v hv => (List.mem_replicate.1 hv).2]
  · have hE : (0 : ℚ) < yBin.length := by exact_mod_cast hpos
    have e : goodMeans n yBin = (Pythia.goodMeans n yBin).map toDouble := by
      unfold goodMeans Pythia.goodMeans
      rw [List.map_map]
      refine List.map_congr_left fun j _ => ?_
      unfold share div
      rw [Num.fin_div _ _ hE.ne']
      rfl
    rw [e]
    refine argmax_eq fun q hq => ?_
    obtain ⟨j, -, rfl⟩ := List.mem_map.1 hq
    refine ⟨_, _, ?_, hpos, hs, rfl⟩
    exact List.count_le_length.trans (by simp [column])

/-- **C179.**  For up to `2 ^ 25` instances the recommendations computed from rounded precisions and rounded means
are those of the exact ones: no two different precisions are rounded to the same double or exchanged. -/
theorem C179_selections {n : Nat} {yHat yBin : List (List Bool)} (hs : yBin.length ≤ 2 ^ 25) :
    determineSelections n ((List.range n).map fun j => precisionScore (column false yBin j) (column false yHat j))
        yHat yBin =
      Pythia.determineSelections n
        ((List.range n).map fun j => Pythia.precisionScore (column false yBin j) (column false yHat j))
        yHat yBin := by
  have hc : ∀ j, (column false yBin j).length ≤ 2 ^ 25 := fun j => by simpa [column] using hs
  have e : ((List.range n).map fun j => precisionScore (column false yBin j) (column false yHat j)) =
      ((List.range n).map fun j => Pythia.precisionScore (column false yBin j) (column false yHat j)).map
        toDouble := by
    rw [List.map_map]
    exact List.map_congr_left fun j _ => (precisionScore_eq (hc j)).1
  have hp : ∀ q ∈ (List.range n).map fun j =>
      Pythia.precisionScore (column false yBin j) (column false yHat j), SmallShare q := by
    intro q hq
    obtain ⟨j, -, rfl⟩ := List.mem_map.1 hq
    exact (precisionScore_eq (hc j)).2
  unfold determineSelections Pythia.determineSelections
  rw [argmax_goodMeans_eq n hs, e]
  simp only [selectRow_eq hp]
  cases Pythia.argmax (Pythia.goodMeans n yBin) <;> rfl

/-- **C179.**  Of several algorithms the recommended one is the first with the highest exact precision among those
predicted good, if one has a positive precision; otherwise the first of those good on most instances. -/
theorem C179_recommended {n : Nat} {yHat yBin : List (List Bool)} (hn : 1 < n) (hne : yBin ≠ [])
    (hs : yBin.length ≤ 2 ^ 25) {sel0 sel1 : Sel} (h : determineSelections n
      ((List.range n).map fun j => precisionScore (column false yBin j) (column false yHat j))
        yHat yBin = .ok (sel0, sel1)) {i : Nat} {row : List Bool} (hrow : yHat[i]? = some row) :
    let exact := (List.range n).map fun j => Pythia.specPrecision (column false yBin j) (column false yHat j)
    (Pythia.AnyGood exact row → ∃ s, sel0.vals[i]? = some s ∧ sel1.vals[i]? = some s ∧
      Pythia.Recommended exact row s) ∧
    (¬ Pythia.AnyGood exact row → ∃ d, sel0.vals[i]? = some 0 ∧ sel1.vals[i]? = some d ∧
      Pythia.MostOftenGood n yBin d) := by
  rw [C179_selections hs] at h
  have e : (List.range n).map (fun j => Pythia.precisionScore (column false yBin j) (column false yHat j)) =
      (List.range n).map fun j => Pythia.specPrecision (column false yBin j) (column false yHat j) :=
    List.map_congr_left fun j _ => Pythia.precisionScore_eq _ _
  rw [e] at h
  dsimp only
  generalize (List.range n).map (fun j => Pythia.specPrecision (column false yBin j) (column false yHat j)) =
    exact at h
  unfold Pythia.determineSelections at h
  cases hd : Pythia.argmax (Pythia.goodMeans n yBin) with
  | none =>
    rw [hd] at h
    cases h
  | some d =>
    rw [hd] at h
    simp only [hn, if_true, Except.ok.injEq, Prod.mk.injEq] at h
    obtain ⟨rfl, rfl⟩ := h
    constructor
    · intro hg
      obtain ⟨s, hs, hr⟩ := Pythia.selectRow_some d hg
      exact ⟨s, by simp [Sel.vals, hrow, hs], by simp [Sel.vals, hrow, hs], hr⟩
    · intro hg
      exact ⟨d, by simp [Sel.vals, hrow, Pythia.selectRow_none d hg],
        by simp [Sel.vals, hrow, Pythia.selectRow_none d hg], Pythia.argmax_goodMeans hne hd⟩

/-- Non-vacuity: the first algorithm is right in one of three cases, the second in two of five, both numbers that
no double represents; on the last instance, where both are predicted good, the second is recommended. -/
example : determineSelections 2 [precisionScore [true, false, false, false, false, false] [true, false, false, false, true, true],
      precisionScore [true, true, false, false, false, false] [true, true, true, true, false, true]]
      [[true, true], [false, true], [false, true], [false, true], [true, false], [true, true]]
      [[true, true], [false, true], [false, false], [false, false], [false, false], [false, false]] =
    .ok (.flat [1, 1, 1, 1, 0, 1], .flat [1, 1, 1, 1, 0, 1]) ∧
    precisionScore [true, false, false, false, false, false] [true, false, false, false, true, true] ≠ .fin (1 / 3) := by
  constructor
  · exact (by decide +kernel)
  · decide +kernel

end Verif.Double
