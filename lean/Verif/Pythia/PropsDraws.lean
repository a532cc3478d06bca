import Verif.Pythia.Draws
import Verif.Pythia.Props
import Mathlib.Tactic.Linarith
/-!
# C195: what the model of an algorithm depends on; the matrix of weights (C100)
-/
set_option autoImplicit false
set_option linter.unusedSectionVars false

namespace Verif.Pythia

open Verif (Num)

/-! ### Specification -/

/-- Two runs report the same about algorithm `i` of the first and `i'` of the second: the predictions
and probabilities on all instances, the chosen hyper-parameters and the measures. -/
structure SameAbout (out out' : Out) (i i' : Nat) : Prop where
  predictions : ∀ r : Nat, out.trained.yHat[r]?.bind (·[i]?) = out'.trained.yHat[r]?.bind (·[i']?)
  crossValidated : ∀ r : Nat, out.trained.ySub[r]?.bind (·[i]?) = out'.trained.ySub[r]?.bind (·[i']?)
  probabilities : ∀ r : Nat,
    out.trained.pr0hat[r]?.bind (·[i]?) = out'.trained.pr0hat[r]?.bind (·[i']?) ∧
    out.trained.pr0sub[r]?.bind (·[i]?) = out'.trained.pr0sub[r]?.bind (·[i']?)
  hyperparameters : out.trained.boxConsnt[i]? = out'.trained.boxConsnt[i']? ∧
    out.trained.kScale[i]? = out'.trained.kScale[i']?
  measures : out.trained.accuracy[i]? = out'.trained.accuracy[i']? ∧
    out.trained.precision[i]? = out'.trained.precision[i']? ∧
    out.trained.recall[i]? = out'.trained.recall[i']?

/-- The performances of algorithm `i`. -/
def perfColumn (y : List (List Num)) (i : Nat) : List (Option Num) := y.map (·[i]?)

/-- The training gives one prediction per instance. -/
def SizedSvm (svm : List Bool → List Num → List ℚ → List ℚ → Except Err SvmRes) : Prop :=
  ∀ truth w cs gs res, svm truth w cs gs = .ok res → Sized truth.length res

/-- The property: two runs with the same options on the same instances report the same about an
algorithm, whatever the other algorithms are.  With `samePlace` only for an algorithm that has the
same position in both runs. -/
def OwnDataOnly (useWeights samePlace : Bool) : Prop :=
  ∀ (S : Type) (lib : Lib) (rng : Rng S) (grid : Bool) (params : Option (List (List ℚ) × Nat))
    (svm : List Bool → List Num → List ℚ → List ℚ → Except Err SvmRes) (n n' : Nat)
    (labels labels' : List String) (y y' : List (List Num)) (yBin yBin' : List (List Bool))
    (yBest yBest' : List Num) (out out' : Out) (i i' : Nat),
    SizedSvm svm →
    pythiaFull lib rng grid useWeights params svm n labels y yBin yBest = .ok out →
    pythiaFull lib rng grid useWeights params svm n' labels' y' yBin' yBest' = .ok out' →
    i < n → i' < n' → Rect y n → Rect y' n' → Rect yBin n → Rect yBin' n' →
    y.length = yBin.length → y'.length = yBin'.length →
    goodColumn yBin i = goodColumn yBin' i' → perfColumn y i = perfColumn y' i' →
    (samePlace = true → i = i') → SameAbout out out' i i'

/-! ### Lemmas -/

theorem sized_round {S : Type} {rng : Rng S} {grid : Bool} {params : Option (List (List ℚ) × Nat)}
    {svm : List Bool → List Num → List ℚ → List ℚ → Except Err SvmRes} {n : Nat}
    {w : List (List Num)} {yBin : List (List Bool)} (hs : SizedSvm svm) :
    ∀ i res, fitRound rng grid params svm n w yBin i = .ok res → Sized yBin.length res := by
  intro i res h
  unfold fitRound paramSpace at h
  cases hc : checkParams params n with
  | none =>
    rw [hc] at h
    have := hs _ _ _ _ _ h
    simpa [column] using this
  | some rows =>
    rw [hc] at h
    cases h

theorem round_ok {S : Type} {rng : Rng S} {grid : Bool} {params : Option (List (List ℚ) × Nat)}
    {svm : List Bool → List Num → List ℚ → List ℚ → Except Err SvmRes} {n : Nat}
    {w : List (List Num)} {yBin : List (List Bool)} {i : Nat} {res : SvmRes}
    (h : fitRound rng grid params svm n w yBin i = .ok res) :
    svm (goodColumn yBin i) (column .nan w i) (rng.drawn i).1 (rng.drawn i).2 = .ok res := by
  unfold fitRound paramSpace at h
  cases hc : checkParams params n with
  | none =>
    rw [hc] at h
    rw [← column_eq]
    exact h
  | some rows =>
    rw [hc] at h
    cases h

theorem same_results {lib lib' : Lib} {n n' : Nat} {labels labels' : List String}
    {y y' : List (List Num)} {yBin yBin' : List (List Bool)} {yBest yBest' : List Num}
    {fitted fitted' : Nat → Except Err SvmRes} {out out' : Out} {i i' : Nat}
    (h : pythia lib n labels y yBin yBest fitted = .ok out)
    (h' : pythia lib' n' labels' y' yBin' yBest' fitted' = .ok out')
    (hs : ∀ i res, fitted i = .ok res → Sized yBin.length res)
    (hs' : ∀ i res, fitted' i = .ok res → Sized yBin'.length res)
    (hi : i < n) (hi' : i' < n') (hg : goodColumn yBin i = goodColumn yBin' i')
    (hf : ∀ res res', fitted i = .ok res → fitted' i' = .ok res' → res = res') :
    SameAbout out out' i i' := by
  obtain ⟨res, e1, e2, e3, e4, e5, e6, e7⟩ := C98_outputs h hs hi
  obtain ⟨res', d1, d2, d3, d4, d5, d6, d7⟩ := C98_outputs h' hs' hi'
  obtain rfl := hf res res' e1 d1
  refine ⟨fun r => ?_, fun r => ?_, fun r => ⟨?_, ?_⟩, ⟨?_, ?_⟩, ?_, ?_, ?_⟩
  · rw [(e2 r).2.1, (d2 r).2.1]
  · rw [(e2 r).1, (d2 r).1]
  · rw [(e2 r).2.2.2, (d2 r).2.2.2]
  · rw [(e2 r).2.2.1, (d2 r).2.2.1]
  · rw [e3, d3]
  · rw [e4, d4]
  · rw [e5, d5, hg]
  · rw [e6, d6, hg]
  · rw [e7, d7, hg]

theorem column_replicate (m n i : Nat) (hi : i < n) :
    column Num.nan (List.replicate m (List.replicate n 1)) i = List.replicate m 1 := by
  simp [column, List.getD_eq_getElem?_getD, hi]

theorem length_goodColumn (yBin : List (List Bool)) (i : Nat) :
    (goodColumn yBin i).length = yBin.length := by simp [goodColumn]

/-! ### C195 -/

/-- **C195, the true part.**  Without cost-sensitive weights, what is reported about an algorithm is the same
in every run in which it has the same position. -/
theorem C195_partial : OwnDataOnly false true := by
  intro S lib rng grid params svm n n' labels labels' y y' yBin yBin' yBest yBest' out out' i i'
    hs h h' hi hi' _ _ _ _ _ _ hg _ hp
  obtain rfl := hp rfl
  unfold pythiaFull weightMatrix at h h'
  simp only [Bool.false_eq_true, if_false] at h h'
  refine same_results h h' (sized_round hs) (sized_round hs) hi hi' hg ?_
  intro res res' e e'
  have a := round_ok e
  have b := round_ok e'
  have hl : yBin.length = yBin'.length := by
    rw [← length_goodColumn yBin i, hg, length_goodColumn]
  rw [column_replicate _ _ _ hi] at a
  rw [column_replicate _ _ _ hi'] at b
  rw [hg, hl, b] at a
  exact (Except.ok.inj a).symm

/-- **C195 with weights.**  The same holds with cost-sensitive weights, as far as the weights of the
algorithm are the same. -/
theorem C195_weights_partial {S : Type} {lib lib' : Lib} {rng : Rng S} {grid useWeights : Bool}
    {params : Option (List (List ℚ) × Nat)}
    {svm : List Bool → List Num → List ℚ → List ℚ → Except Err SvmRes} {n n' : Nat}
    {labels labels' : List String} {y y' w w' : List (List Num)} {yBin yBin' : List (List Bool)}
    {yBest yBest' : List Num} {out out' : Out} {i : Nat} (hs : SizedSvm svm)
    (h : pythiaFull lib rng grid useWeights params svm n labels y yBin yBest = .ok out)
    (h' : pythiaFull lib' rng grid useWeights params svm n' labels' y' yBin' yBest' = .ok out')
    (hi : i < n) (hi' : i < n') (hg : goodColumn yBin i = goodColumn yBin' i)
    (hw : weightMatrix useWeights yBin.length n y = .ok w)
    (hw' : weightMatrix useWeights yBin'.length n' y' = .ok w')
    (hc : w.map (·[i]?) = w'.map (·[i]?)) : SameAbout out out' i i := by
  unfold pythiaFull at h h'
  rw [hw] at h
  rw [hw'] at h'
  refine same_results h h' (sized_round hs) (sized_round hs) hi hi' hg ?_
  intro res res' e e'
  have a := round_ok e
  have b := round_ok e'
  have hcol : column Num.nan w i = column Num.nan w' i := by
    have := congrArg (List.map fun o : Option Num => o.getD .nan) hc
    simpa [column, List.getD_eq_getElem?_getD, Function.comp_def] using this
  rw [hg, hcol, b] at a
  exact (Except.ok.inj a).symm

/-! ### Examples -/

/-- Draws that count the calls. -/
def countRng : Rng Nat := ⟨0, fun s => (([(s : ℚ)], [1]), s + 1)⟩

/-- Training that looks at the first candidate: with 0 everything is predicted good, otherwise the
labels are predicted. -/
def candSvm (truth : List Bool) (_ : List Num) (cs gs : List ℚ) : Except Err SvmRes :=
  .ok { yHat := truth.map fun b => b || decide (cs.getD 0 0 = 0), ySub := truth,
        pSub := truth.map fun _ => 1, pHat := truth.map fun _ => 1, c := cs.getD 0 0, g := gs.getD 0 0 }

/-- Training that looks at the first weight: below 2 everything is predicted good, otherwise the
labels are predicted. -/
def weightSvm (truth : List Bool) (w : List Num) (cs gs : List ℚ) : Except Err SvmRes :=
  .ok { yHat := truth.map fun b => b || (w.getD 0 0).lt 2, ySub := truth,
        pSub := truth.map fun _ => 1, pHat := truth.map fun _ => 1, c := cs.getD 0 0, g := gs.getD 0 0 }

theorem candSvm_sized : SizedSvm candSvm := by
  intro truth w cs gs res h
  injection h with h
  subst h
  simp [Sized]

theorem weightSvm_sized : SizedSvm weightSvm := by
  intro truth w cs gs res h
  injection h with h
  subst h
  simp [Sized]

/-- Two algorithms on two instances. -/
def drawRun (svm : List Bool → List Num → List ℚ → List ℚ → Except Err SvmRes) (useWeights : Bool)
    (y : List (List Num)) (yBin : List (List Bool)) : Except Err Out :=
  pythiaFull exLib countRng false useWeights none svm 2 ["A", "B"] y yBin [1, 1]

theorem run_value {e : Except Err Out} {α : Type} {f : Out → α} {v : α}
    (h : e.toOption.map f = some v) : ∃ out, e = .ok out ∧ f out = v := by
  rcases e with _ | out
  · cases h
  · exact ⟨out, rfl, Option.some.inj h⟩

/-- **C195** is false: the hyper-parameters to try are drawn algorithm after algorithm from one
generator.  When two algorithms change places, their models change. -/
theorem C195_refuted : ¬ OwnDataOnly false false := by
  intro H
  have h1 : (drawRun candSvm false [[1, 2], [3, 4]] [[false, true], [true, false]]).toOption.map
      (·.trained.yHat) = some [[true, true], [true, false]] := by decide +kernel
  have h2 : (drawRun candSvm false [[2, 1], [4, 3]] [[true, false], [false, true]]).toOption.map
      (·.trained.yHat) = some [[true, false], [true, true]] := by decide +kernel
  obtain ⟨out, ho, e⟩ := run_value h1
  obtain ⟨out', ho', e'⟩ := run_value h2
  have := (H Nat exLib countRng false none candSvm 2 2 _ _ _ _ _ _ _ _ out out' 0 1 candSvm_sized ho ho'
    (by decide) (by decide) (by simp [Rect]) (by simp [Rect]) (by simp [Rect]) (by simp [Rect]) rfl rfl
    (by decide) rfl (by decide)).predictions 0
  rw [e, e'] at this
  simp at this

/-- **C195** is false with cost-sensitive weights even for algorithms that keep their place: the
weights of an algorithm are distances from the mean performance of all algorithms. -/
theorem C195_weights_refuted : ¬ OwnDataOnly true true := by
  intro H
  have h1 : (drawRun weightSvm true [[1, 2], [3, 2]] [[false, true], [true, false]]).toOption.map
      (·.trained.yHat) = some [[true, true], [true, true]] := by decide +kernel
  have h2 : (drawRun weightSvm true [[1, 8], [3, 8]] [[false, true], [true, false]]).toOption.map
      (·.trained.yHat) = some [[false, true], [true, false]] := by decide +kernel
  obtain ⟨out, ho, e⟩ := run_value h1
  obtain ⟨out', ho', e'⟩ := run_value h2
  have := (H Nat exLib countRng false none weightSvm 2 2 _ _ _ _ _ _ _ _ out out' 0 0 weightSvm_sized ho ho'
    (by decide) (by decide) (by simp [Rect]) (by simp [Rect]) (by simp [Rect]) (by simp [Rect]) rfl rfl
    rfl rfl (fun _ => rfl)).predictions 0
  rw [e, e'] at this
  simp at this

example : ∃ out out', drawRun candSvm false [[1, 2], [3, 4]] [[false, true], [true, false]] = .ok out ∧
    pythiaFull exLib countRng false false none candSvm 3 ["A", "B", "C"] [[1, 2, 7], [3, 4, 8]]
      [[false, true, true], [true, false, false]] [1, 1] = .ok out' ∧
    out.trained.yHat = [[true, true], [true, false]] ∧
    out'.trained.yHat = [[true, true, true], [true, false, false]] := by
  have h1 : (drawRun candSvm false [[1, 2], [3, 4]] [[false, true], [true, false]]).toOption.map
      (·.trained.yHat) = some [[true, true], [true, false]] := by decide +kernel
  have h2 : (pythiaFull exLib countRng false false none candSvm 3 ["A", "B", "C"] [[1, 2, 7], [3, 4, 8]]
      [[false, true, true], [true, false, false]] [1, 1]).toOption.map (·.trained.yHat) =
      some [[true, true, true], [true, false, false]] := by decide +kernel
  obtain ⟨out, ho, e⟩ := run_value h1
  obtain ⟨out', ho', e'⟩ := run_value h2
  exact ⟨out, out', ho, ho', e, e'⟩

/-! ### Adding algorithms at the end -/

/-- **C195, algorithms added at the end.**  Without weights, let some algorithm be recommended for an
instance by positive precision.  After more algorithms have been added behind the old ones, the
recommendation is the same, or it is one of the new algorithms, with a higher precision. -/
theorem C195_added_partial {S : Type} {lib lib' : Lib} {rng : Rng S} {grid : Bool}
    {params : Option (List (List ℚ) × Nat)}
    {svm : List Bool → List Num → List ℚ → List ℚ → Except Err SvmRes} {n n' : Nat}
    {labels labels' : List String} {y y' : List (List Num)} {yBin yBin' : List (List Bool)}
    {yBest yBest' : List Num} {out out' : Out} (hs : SizedSvm svm) (hn : n ≤ n')
    (h : pythiaFull lib rng grid false params svm n labels y yBin yBest = .ok out)
    (h' : pythiaFull lib' rng grid false params svm n' labels' y' yBin' yBest' = .ok out')
    (hg : ∀ i < n, goodColumn yBin i = goodColumn yBin' i) {r : Nat} {row : List Bool}
    (hrow : out.trained.yHat[r]? = some row) (ha : AnyGood out.trained.precision row) :
    ∃ s s', out.selection0.vals[r]? = some s ∧ out.selection1.vals[r]? = some s ∧
      out'.selection0.vals[r]? = some s' ∧ out'.selection1.vals[r]? = some s' ∧
      (s' = s ∨ (n ≤ s' ∧ s' < n' ∧ ∃ p p', out.trained.precision[s]? = some p ∧
        out'.trained.precision[s']? = some p' ∧ p < p')) := by
  have hsame : ∀ i < n, SameAbout out out' i i := fun i hi =>
    C195_weights_partial hs h h' hi (by omega) (hg i hi) rfl rfl (by
      have hl : yBin.length = yBin'.length := by
        rw [← length_goodColumn yBin i, hg i hi, length_goodColumn]
      simp [hi, hl, show i < n' by omega])
  unfold pythiaFull weightMatrix at h h'
  simp only [Bool.false_eq_true, if_false] at h h'
  have inv := train_done (sized_round hs) (pythia_ok h).1
  have inv' := train_done (sized_round hs) (pythia_ok h').1
  have hn0 : 0 < n := by have := (pythia_ok h).2.1; omega
  obtain ⟨row', hrow'⟩ : ∃ row', out'.trained.yHat[r]? = some row' := by
    have hr : r < out.trained.yHat.length := (List.getElem?_eq_some_iff.1 hrow).1
    have hl : yBin.length = yBin'.length := by
      rw [← length_goodColumn yBin 0, hg 0 hn0, length_goodColumn]
    rw [inv.rows.2.1, hl, ← inv'.rows.2.1] at hr
    exact ⟨_, List.getElem?_eq_getElem hr⟩
  have hpg : ∀ i p, i < n → (PredictedGood out.trained.precision row i p ↔
      PredictedGood out'.trained.precision row' i p) := by
    intro i p hi
    have h1 := (hsame i hi).predictions r
    rw [hrow, hrow'] at h1
    have h1 : row[i]? = row'[i]? := h1
    unfold PredictedGood
    rw [h1, (hsame i hi).measures.2.1]
  have hlt : ∀ i p, PredictedGood out.trained.precision row i p → i < n := by
    intro i p hp
    have := (List.getElem?_eq_some_iff.1 hp.2).1
    rwa [inv.lens.2.2.2.2.1] at this
  have hlt' : ∀ i p, PredictedGood out'.trained.precision row' i p → i < n' := by
    intro i p hp
    have := (List.getElem?_eq_some_iff.1 hp.2).1
    rwa [inv'.lens.2.2.2.2.1] at this
  have ha' : AnyGood out'.trained.precision row' := by
    obtain ⟨j, p, hp, h0⟩ := ha
    exact ⟨j, p, (hpg j p (hlt j p hp)).1 hp, h0⟩
  obtain ⟨s, s0, s1, p, hp, hp0, hmax⟩ := C64_recommended h hrow ha
  obtain ⟨s', s0', s1', p', hp', hp0', hmax'⟩ := C64_recommended h' hrow' ha'
  refine ⟨s, s', s0, s1, s0', s1', ?_⟩
  have hsn := hlt s p hp
  have k1 := hmax' s p ((hpg s p hsn).1 hp)
  by_cases hc : s' < n
  · left
    have k2 := hmax s' p' ((hpg s' p' hc).2 hp')
    rcases Nat.lt_trichotomy s' s with hlt | heq | hgt
    · have := k2.2 hlt
      linarith [k1.1]
    · exact heq
    · have := k1.2 hgt
      linarith [k2.1]
  · right
    exact ⟨by omega, hlt' s' p' hp', p, p', hp.2, hp'.2, k1.2 (by omega)⟩

example : ∃ out out',
    drawRun candSvm false [[1, 2], [3, 4], [5, 6]] [[false, true], [true, false], [false, false]] =
      .ok out ∧
    pythiaFull exLib countRng false false none candSvm 3 ["A", "B", "C"] [[1, 2, 7], [3, 4, 8], [5, 6, 9]]
      [[false, true, false], [true, false, true], [false, false, true]] [1, 1, 1] = .ok out' ∧
    (out.trained.precision, out.selection0) = ([1 / 3, 1], .flat [1, 0, 0]) ∧
    (out'.trained.precision, out'.selection0) = ([1 / 3, 1, 1], .flat [1, 2, 2]) := by
  have h1 : (drawRun candSvm false [[1, 2], [3, 4], [5, 6]]
      [[false, true], [true, false], [false, false]]).toOption.map
      (fun o => (o.trained.precision, o.selection0)) = some ([1 / 3, 1], .flat [1, 0, 0]) := by
    decide +kernel
  have h2 : (pythiaFull exLib countRng false false none candSvm 3 ["A", "B", "C"]
      [[1, 2, 7], [3, 4, 8], [5, 6, 9]]
      [[false, true, false], [true, false, true], [false, false, true]] [1, 1, 1]).toOption.map
      (fun o => (o.trained.precision, o.selection0)) = some ([1 / 3, 1, 1], .flat [1, 2, 2]) := by
    decide +kernel
  obtain ⟨out, ho, e⟩ := run_value h1
  obtain ⟨out', ho', e'⟩ := run_value h2
  exact ⟨out, out', ho, ho', e, e'⟩

/-! ### C100: the matrix of weights -/

theorem reshapeLike_flatten {α β : Type} : ∀ (m : List (List α)) (l : List β),
    l.length = m.flatten.length → (reshapeLike m l).flatten = l ∧
      (reshapeLike m l).map List.length = m.map List.length
  | [], l, h => by
    have : l = [] := List.length_eq_zero_iff.1 (by simpa using h)
    simp [this, reshapeLike]
  | r :: rs, l, h => by
    simp only [List.flatten_cons, List.length_append] at h
    have ih := reshapeLike_flatten rs (l.drop r.length) (by rw [List.length_drop]; omega)
    simp only [reshapeLike, List.flatten_cons, List.map_cons, ih.1, ih.2, List.take_append_drop,
      List.length_take, true_and]
    congr 1
    omega

/-- **C100, the matrix.**  The weights have the shape of the performances and, row by row, they are
those of `C100_positive` and `C100_partial`; without the option all weights are 1. -/
theorem C100_matrix {useWeights : Bool} {n : Nat} {y w : List (List Num)}
    (h : weightMatrix useWeights y.length n y = .ok w) (hy : Rect y n) :
    w.map List.length = y.map List.length ∧
      (useWeights = true → weights y.flatten = .ok w.flatten) ∧
      (useWeights = false → ∀ r ∈ w, ∀ v ∈ r, v = 1) := by
  unfold weightMatrix at h
  cases useWeights with
  | true =>
    simp only [if_true] at h
    split at h
    · cases h
    · rename_i v hv
      injection h with h
      have := reshapeLike_flatten y v (weights_pos hv).1
      rw [← h, this.1]
      exact ⟨this.2, fun _ => hv, by simp⟩
  | false =>
    simp only [Bool.false_eq_true, if_false] at h
    injection h with h
    subst h
    refine ⟨?_, by simp, ?_⟩
    · rw [List.map_replicate, List.length_replicate, List.map_congr_left hy, List.map_const']
    · simp +contextual [List.mem_replicate]

example : (weightMatrix true 2 2 [[1, 8], [3, 8]]).toOption = some [[4, 3], [2, 3]] := by decide +kernel

end Verif.Pythia
