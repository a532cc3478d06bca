import Verif.Sifted.Lemmas
import Verif.Pythia.Lemmas
import Mathlib.Data.List.Sort
/-!
# Properties of SIFTED (C69-C73, C104-C106)
-/
set_option autoImplicit false
set_option linter.unusedSectionVars false

namespace Verif.Sifted

open Verif (Num)

/-! ### A sorting function -/

/-- Ascending, NaN last. -/
def leT (u v : Num) : Bool := v.isNan || u.le v

/-- Insertion sort of the positions. -/
def argsortRef (l : List Num) : List Nat :=
  (List.range l.length).insertionSort fun i j => leT (l.getD i .nan) (l.getD j .nan) = true

theorem argsortRef_sorts : Sorts argsortRef := by
  intro l hl
  refine ⟨List.perm_insertionSort _ _, ?_⟩
  have htot : Std.Total (fun i j : Nat => leT (l.getD i .nan) (l.getD j .nan) = true) := by
    refine ⟨fun a b => ?_⟩
    generalize l.getD a .nan = u
    generalize l.getD b .nan = v
    cases u <;> cases v <;> simp [leT, Num.isNan, Num.le]
    exact le_total _ _
  have htr : IsTrans Nat (fun i j : Nat => leT (l.getD i .nan) (l.getD j .nan) = true) := by
    refine ⟨fun a b c => ?_⟩
    generalize l.getD a .nan = u
    generalize l.getD b .nan = v
    generalize l.getD c .nan = w
    cases u <;> cases v <;> cases w <;> simp [leT, Num.isNan, Num.le]
    exact le_trans
  have hs : (argsortRef l).Pairwise fun i j : Nat => leT (l.getD i .nan) (l.getD j .nan) = true :=
    List.pairwise_insertionSort _ _
  intro a b i j hab ha hb u v hu hv
  have ha' := (List.getElem?_eq_some_iff.1 ha)
  have hb' := (List.getElem?_eq_some_iff.1 hb)
  obtain ⟨ha1, ha2⟩ := ha'
  obtain ⟨hb1, hb2⟩ := hb'
  have := List.pairwise_iff_getElem.1 hs a b ha1 hb1 hab
  rw [ha2, hb2] at this
  rw [List.getD_eq_getElem?_getD, hu, List.getD_eq_getElem?_getD, hv] at this
  have hvn := hl v (List.mem_of_getElem? hv)
  simp only [Option.getD_some, leT, Bool.or_eq_true] at this
  rcases this with h | h
  · exact absurd (Num.isNan_iff.1 h) hvn
  · exact h

/-! ### An example run -/

/-- A library: clusters of consecutive features, constant scores and a search that returns a fixed
chromosome. -/
def exLib : Lib where
  argsort := argsortRef
  silhouette := fun _ c => if c = 3 then 1 else 0
  evalLabels := fun sel c => sel.map (· % c)
  kmeans := fun sel c => (List.range sel.length).map (· % c)
  err := fun fs _ => fs.sum
  search := fun _ => .ok [1, 0, 5]

/-- Seven features, one algorithm; features 2 to 6 correlate with it. -/
def exRho : List (List Num) :=
  [[.fin (1 / 10)], [.fin (2 / 10)], [.fin (8 / 10)], [.fin (7 / 10)], [.fin (6 / 10)],
    [.fin (55 / 100)], [.fin (52 / 100)]]

/-- The run with three clusters. -/
def exRun : Except Err (Out Nat) :=
  sifted exLib exRho (.fin (1 / 2)) 3 1 [10, 11, 12, 13, 14, 15, 16]
    ["a", "b", "c", "d", "e", "f", "g"] false

/-! ### C69 -/

/-- **C69.**  Whatever the library does, when the stage returns, its columns and labels are those of
the same distinct input features, in input order. -/
theorem C69_aligned {α : Type} {lib : Lib} {rho : List (List Num)} {thr : Num} {k nalgos : Nat}
    {x : List α} {labels : List String} {dense : Bool} {out : Out α}
    (hl : labels.length = x.length)
    (h : sifted lib rho thr k nalgos x labels dense = .ok out) : Aligned x labels out :=
  sifted_aligned hl h

example : exRun.toOption.map (fun o => (o.x, o.featLabels, o.selvars)) =
    some ([11, 14, 16], ["b", "e", "g"], [1, 4, 6]) := by decide +kernel

/-! ### C70 -/

/-- The property: every feature whose correlation with some algorithm is at least the threshold in
absolute value is selected. -/
def SelectsCorrelated (argsort : List Num → List Nat) : Prop :=
  ∀ (rho : List (List Num)) (n m : Nat) (f : Nat → Nat → ℚ) (thr : ℚ), Matrix rho n m f → 0 < thr →
    ∀ g < n, ∀ j < m, thr ≤ |f g j| → g ∈ selectByPerformance argsort rho (.fin thr) n m

/-- **C70** is false: the feature with correlation 8/10 is dropped while one without correlation
is selected (the threshold is compared with unsorted correlations).  Threshold 1/2. -/
theorem C70_refuted : ∃ argsort, Sorts argsort ∧ ¬ SelectsCorrelated argsort ∧
    ∃ (rho : List (List Num)) (f : Nat → Nat → ℚ), Matrix rho 4 1 f ∧ f 2 0 = 8 / 10 ∧ f 1 0 = 0 ∧
      2 ∉ selectByPerformance argsort rho (.fin (1 / 2)) 4 1 ∧
      1 ∈ selectByPerformance argsort rho (.fin (1 / 2)) 4 1 := by
  have key : ∃ (rho : List (List Num)) (f : Nat → Nat → ℚ), Matrix rho 4 1 f ∧ f 2 0 = 8 / 10 ∧
      f 1 0 = 0 ∧ 2 ∉ selectByPerformance argsortRef rho (.fin (1 / 2)) 4 1 ∧
      1 ∈ selectByPerformance argsortRef rho (.fin (1 / 2)) 4 1 := by
    refine ⟨[[.fin (9 / 10)], [.fin 0], [.fin (8 / 10)], [.fin (7 / 10)]],
      fun i _ => [9 / 10, 0, 8 / 10, 7 / 10].getD i 0, ⟨rfl, ?_⟩, rfl, rfl, by decide +kernel,
      by decide +kernel⟩
    intro i hi
    have : i = 0 ∨ i = 1 ∨ i = 2 ∨ i = 3 := by omega
    rcases this with rfl | rfl | rfl | rfl
    all_goals
      refine ⟨_, rfl, rfl, ?_⟩
      intro j hj
      obtain rfl : j = 0 := by omega
      rfl
  refine ⟨argsortRef, argsortRef_sorts, ?_, key⟩
  intro h
  obtain ⟨rho, f, hm, h2, _, hn, _⟩ := key
  refine hn (h rho 4 1 f (1 / 2) hm (by norm_num) 2 (by omega) 0 (by omega) ?_)
  rw [h2]
  norm_num

/-- **C70** is false for negative correlations as well: with correlations 1/10, 1/5, -9/10 and
-8/10, the feature with -8/10 is dropped. -/
theorem C70_negative_refuted : ∃ (rho : List (List Num)) (f : Nat → Nat → ℚ), Matrix rho 4 1 f ∧
    f 3 0 = -(8 / 10) ∧ 3 ∉ selectByPerformance argsortRef rho (.fin (1 / 2)) 4 1 := by
  refine ⟨[[.fin (1 / 10)], [.fin (1 / 5)], [.fin (-(9 / 10))], [.fin (-(8 / 10))]],
    fun i _ => [1 / 10, 1 / 5, -(9 / 10), -(8 / 10)].getD i 0, ⟨rfl, ?_⟩, rfl, by decide +kernel⟩
  intro i hi
  have : i = 0 ∨ i = 1 ∨ i = 2 ∨ i = 3 := by omega
  rcases this with rfl | rfl | rfl | rfl
  all_goals
    refine ⟨_, rfl, rfl, ?_⟩
    intro j hj
    obtain rfl : j = 0 := by omega
    rfl

/-- **C70, the true part.**  For every algorithm a feature with the largest absolute correlation is
selected. -/
theorem C70_top_partial {argsort : List Num → List Nat} (hs : Sorts argsort)
    {rho : List (List Num)} {n m : Nat} {f : Nat → Nat → ℚ} (hm : Matrix rho n m f) (hn : 0 < n)
    (thr : Num) {j : Nat} (hj : j < m) :
    ∃ g ∈ selectByPerformance argsort rho thr n m, ∀ h < n, |f h j| ≤ |f g j| := by
  have hcol : ∀ i < n, (negAbsColumn rho j)[i]? = some (.fin (-|f i j|)) := by
    intro i hi
    obtain ⟨r, hr, _, hv⟩ := hm.2 i hi
    unfold negAbsColumn
    rw [List.getElem?_map, hr]
    simp only [Option.map_some]
    rw [List.getD_eq_getElem?_getD, hv j hj]
    rfl
  have hlen : (negAbsColumn rho j).length = n := by simp [negAbsColumn, hm.1]
  have hnan : ∀ v ∈ negAbsColumn rho j, v ≠ .nan := by
    intro v hv
    obtain ⟨i, hi⟩ := List.mem_iff_getElem?.1 hv
    rw [hcol i (by rw [← hlen]; exact (List.getElem?_eq_some_iff.1 hi).1)] at hi
    injection hi with hi
    rw [← hi]
    simp
  obtain ⟨hp, hord⟩ := hs _ hnan
  rw [hlen] at hp
  have hl : (argsort (negAbsColumn rho j)).length = n := by rw [hp.length_eq]; simp
  obtain ⟨g, hg⟩ : ∃ g, (argsort (negAbsColumn rho j))[0]? = some g :=
    ⟨_, List.getElem?_eq_getElem (by omega)⟩
  have hgn : g < n := List.mem_range.1 (hp.mem_iff.1 (List.mem_of_getElem? hg))
  refine ⟨g, mem_selectByPerformance.2 ⟨hgn, .inl ⟨j, hj, ?_⟩⟩, ?_⟩
  · unfold ranked
    rw [List.getD_eq_getElem?_getD, hg]
    rfl
  · intro h hh
    obtain ⟨b, hb⟩ := List.mem_iff_getElem?.1 (hp.mem_iff.2 (List.mem_range.2 hh))
    rcases Nat.eq_zero_or_pos b with rfl | hb0
    · rw [hg] at hb
      injection hb with hb
      rw [hb]
    · have := hord 0 b g h hb0 hg hb _ _ (hcol g hgn) (hcol h hh)
      simp only [Num.le, decide_eq_true_eq, neg_le_neg_iff] at this
      exact this

/-- **C70, exactly what is selected.**  Besides the top features: the feature ranked `i` for
algorithm `j`, whenever *feature `i`*, not the ranked one, has a signed correlation with `j` of at
least the threshold. -/
theorem C70_exact_partial {argsort : List Num → List Nat} {rho : List (List Num)} {thr : Num}
    {n m g : Nat} : g ∈ selectByPerformance argsort rho thr n m ↔
      g < n ∧ ((∃ j < m, ranked argsort rho 0 j = g) ∨
        ∃ i < n, ∃ j < m, Num.le thr (entry rho i j) = true ∧ ranked argsort rho i j = g) :=
  mem_selectByPerformance

example : selectByPerformance argsortRef [[.fin (9 / 10)], [.fin 0], [.fin (8 / 10)], [.fin (7 / 10)]]
    (.fin (1 / 2)) 4 1 = [0, 1, 3] := by decide +kernel

/-! ### C71 -/

/-- The property: a candidate is scored on the features it stands for. -/
def ScoresReturned : Prop :=
  ∀ (labels selvars : List Nat) (n k : Nat) (sol : List Int) (sel fs : List Nat),
    selvars.Pairwise (· < ·) → (∀ i ∈ selvars, i < n) → labels.length = selvars.length →
    sol.length = k → decode labels k selvars sol = .ok sel → costFeatures labels n sol = .ok fs →
    fs = sel

/-- **C71** is false: a candidate that stands for the features 2 and 4 is scored on 0 and 2. -/
theorem C71_refuted : ¬ ScoresReturned := by
  intro h
  have hd : (decode [0, 0, 1] 2 [2, 3, 4] [0, 0]).toOption = some [2, 4] := by decide +kernel
  have hc : (costFeatures [0, 0, 1] 6 [0, 0]).toOption = some [0, 2] := by decide +kernel
  have hd' : decode [0, 0, 1] 2 [2, 3, 4] [0, 0] = .ok [2, 4] := by
    rcases he : decode [0, 0, 1] 2 [2, 3, 4] [0, 0] with e | v <;> rw [he] at hd <;> cases hd
    rfl
  have hc' : costFeatures [0, 0, 1] 6 [0, 0] = .ok [0, 2] := by
    rcases he : costFeatures [0, 0, 1] 6 [0, 0] with e | v <;> rw [he] at hc <;> cases hc
    rfl
  have := h [0, 0, 1] [2, 3, 4] 6 2 [0, 0] [2, 4] [0, 2] (by simp) (by simp) rfl rfl hd' hc'
  exact absurd this (by decide)

/-- **C71, the exact relation.**  A candidate is scored on the *positions*, among the clustered
features, of the features it stands for; these are the same when the performance step kept all
features. -/
theorem C71_features_partial {labels selvars : List Nat} {n k : Nat} {sol : List Int}
    {sel : List Nat} (hl : labels.length = selvars.length) (hn : selvars.length ≤ n)
    (hk : sol.length = k) (h : decode labels k selvars sol = .ok sel) :
    ∃ fs, costFeatures labels n sol = .ok fs ∧ sel = fs.filterMap (fun i => selvars[i]?) ∧
      (selvars = List.range n → fs = sel) := by
  rw [decode_eq hk] at h
  rcases hc : choices labels 0 sol with _ | cs
  · rw [hc] at h
    cases h
  · rw [hc] at h
    injection h with h
    refine ⟨_, by rw [costFeatures_eq (by omega), hc], ?_, ?_⟩
    · rw [← h, hl]
      rfl
    · intro hr
      rw [← h, hl]
      unfold pick
      conv_lhs => rw [← List.filterMap_some (l := List.filter _ _)]
      apply List.filterMap_congr
      intro i hi
      have hi' := List.mem_range.1 (List.mem_filter.1 hi).1
      rw [hr] at hi' ⊢
      rw [List.length_range] at hi'
      rw [List.getElem?_range hi']

example : (decode [0, 1, 0, 1] 2 [0, 1, 2, 3] [3, 4]).toOption = some [1, 2] ∧
    (costFeatures [0, 1, 0, 1] 4 [3, 4]).toOption = some [1, 2] := by decide +kernel

/-- **C71** is false for the comparison as well: a search that keeps pygad's contract returns a
candidate although another one it compared has a lower cost. -/
theorem C71_worst_refuted : ∃ (err : List Nat → Nat → ℚ) (labels : List Nat)
    (search : (List Int → Except Err (Option ℚ)) → Except Err (List Int))
    (compared : List (List Int)) (best s : List Int), Maximises search compared ∧
    search (cost err 1 labels 4) = .ok best ∧ s ∈ compared ∧
    valueOf (cost err 1 labels 4) s < valueOf (cost err 1 labels 4) best := by
  refine ⟨fun fs _ => fs.sum, [0, 0, 1, 1],
    fun fit => if valueOf fit [0, 0] ≤ valueOf fit [1, 1] then .ok [1, 1] else .ok [0, 0],
    [[0, 0], [1, 1]], [1, 1], [0, 0], ?_, ?_, by simp, ?_⟩
  · intro fitness _
    by_cases h : valueOf fitness [0, 0] ≤ valueOf fitness [1, 1]
    · refine ⟨[1, 1], by simp, by simp [h], ?_⟩
      intro s hs
      simp only [List.mem_cons, List.not_mem_nil, or_false] at hs
      rcases hs with rfl | rfl
      · exact h
      · exact le_refl _
    · refine ⟨[0, 0], by simp, by simp [h], ?_⟩
      intro s hs
      simp only [List.mem_cons, List.not_mem_nil, or_false] at hs
      rcases hs with rfl | rfl
      · exact le_refl _
      · exact le_of_lt (not_le.1 h)
  · exact if_pos (by decide +kernel)
  · decide +kernel

/-- **C71, what is returned.**  Whenever every compared candidate can be scored, the returned one
has the *highest* cost of those compared. -/
theorem C71_worst_partial {err : List Nat → Nat → ℚ} {nalgos n : Nat} {labels : List Nat}
    {search : (List Int → Except Err (Option ℚ)) → Except Err (List Int)}
    {compared : List (List Int)} (hm : Maximises search compared) {best : List Int}
    (hok : ∀ s ∈ compared, ∃ q, cost err nalgos labels n s = .ok (some q))
    (h : search (cost err nalgos labels n) = .ok best) :
    best ∈ compared ∧ ∀ s ∈ compared,
      valueOf (cost err nalgos labels n) s ≤ valueOf (cost err nalgos labels n) best := by
  obtain ⟨b, hb, he, hmax⟩ := hm _ hok
  rw [h] at he
  injection he with he
  rw [he]
  exact ⟨hb, hmax⟩

/-! ### C72 -/

theorem argmaxFrom_eq : ∀ (l : List ℚ) (k : Nat) (a : ℚ) (i : Nat),
    argmaxFrom k a i l = Pythia.argmaxFrom k a i l
  | [], k, a, i => rfl
  | b :: l, k, a, i => by
      unfold argmaxFrom Pythia.argmaxFrom
      rw [argmaxFrom_eq l, argmaxFrom_eq l]

/-- **C72** is false: with five features and two clusters, the best score for four clusters, an
`IndexError` leaves the stage. -/
theorem C72_refuted : ∃ (score : Nat → ℚ) (labels : Nat → List Nat),
    evaluateCluster score labels 5 2 = .error .indexError :=
  ⟨fun c => c, fun _ => [], by
    unfold evaluateCluster
    rfl⟩

/-- **C72, exactly.**  With `K` at least 2 and more features than `K`, the evaluation returns the
clustering for `K` when the best number of clusters is `K` or smaller than the number of features
minus two; otherwise it raises an `IndexError`. -/
theorem C72_exact_partial (score : Nat → ℚ) (labels : Nat → List Nat) {n k : Nat} (hk : 2 ≤ k)
    (hn : k < n) : ∃ c, BestCount score n c ∧
      ((c = k ∨ c < n - 2) →
        evaluateCluster score labels n k =
          .ok ((List.range (n - 2)).map (fun i => score (i + 2)), labels k)) ∧
      (¬ (c = k ∨ c < n - 2) → evaluateCluster score labels n k = .error .indexError) := by
  have hcs : ((List.range (n - 2)).map (· + 2)).map score =
      (List.range (n - 2)).map fun i => score (i + 2) := by
    rw [List.map_map]
    rfl
  obtain ⟨m, hm⟩ : ∃ m, n - 2 = m + 1 := ⟨n - 3, by omega⟩
  rcases hl : (List.range (n - 2)).map (fun i => score (i + 2)) with _ | ⟨a, l⟩
  · rw [hm, List.range_succ_eq_map] at hl
    cases hl
  · obtain ⟨v, hv, hmax⟩ := Pythia.argmaxFrom_first a l
    rw [← argmaxFrom_eq] at hv hmax
    generalize hi : argmaxFrom 0 a 1 l = i at hv hmax
    have hlen : (a :: l).length = n - 2 := by
      rw [← hl]
      simp
    have hget : ∀ j, j < n - 2 → (a :: l)[j]? = some (score (j + 2)) := by
      intro j hj
      rw [← hl, List.getElem?_map, List.getElem?_range hj]
      rfl
    have hin : i < n - 2 := by
      rw [← hlen]
      exact (List.getElem?_eq_some_iff.1 hv).1
    have hvs : v = score (i + 2) := by
      rw [hget i hin] at hv
      exact (Option.some.inj hv).symm
    refine ⟨i + 2, ⟨by omega, by omega, ?_⟩, ?_, ?_⟩
    · intro d hd hdn
      have := hmax (d - 2) (score d) (by rw [hget (d - 2) (by omega)]; congr 2; omega)
      rw [hvs] at this
      exact ⟨this.1, fun h => this.2 (by omega)⟩
    all_goals
      intro hc
      unfold evaluateCluster
      simp only
      rw [hcs, hl]
      simp only [hi, hlen]
    · rw [if_neg (by omega), if_pos]
      simp only [List.mem_map, List.mem_range]
      exact ⟨k - 2, by omega, by omega⟩
    · rw [if_pos (by omega)]

example : ∃ c, BestCount (fun d => if d = 3 then 1 else 0) 7 c ∧ c = 3 := by
  refine ⟨3, ⟨by omega, by omega, ?_⟩, rfl⟩
  intro d _ _
  by_cases h : d = 3
  · simp [h]
  · simp [h]

/-! ### C73 -/

/-- **C73.**  When every feature has one of the `K` clusters, the decoded features are `K`, one of
each cluster. -/
theorem C73_one_per_cluster {labels selvars : List Nat} {k : Nat} {best : List Int} {sel : List Nat}
    (hl : labels.length = selvars.length) (hs : selvars.Pairwise (· < ·)) (hk : best.length = k)
    (h : decode labels k selvars best = .ok sel) :
    sel.length = k ∧ sel.Sublist selvars ∧
      ∀ c < k, ∃ f ∈ sel, InCluster selvars labels c f ∧
        ∀ g ∈ sel, InCluster selvars labels c g → g = f := by
  have hsub : sel.Sublist selvars := by
    unfold decode at h
    split at h
    · cases h
    · injection h with h
      rw [← h]
      exact maskPick_sublist _ _
  have hinj : ∀ (i j f : Nat), selvars[i]? = some f → selvars[j]? = some f → i = j := by
    intro i j f hi hj
    obtain ⟨hi1, hi2⟩ := List.getElem?_eq_some_iff.1 hi
    obtain ⟨hj1, hj2⟩ := List.getElem?_eq_some_iff.1 hj
    rcases Nat.lt_trichotomy i j with hlt | heq | hgt
    · have := List.pairwise_iff_getElem.1 hs i j hi1 hj1 hlt
      omega
    · exact heq
    · have := List.pairwise_iff_getElem.1 hs j i hj1 hi1 hgt
      omega
  rw [decode_eq hk] at h
  rcases hc : choices labels 0 best with _ | fs
  · rw [hc] at h
    cases h
  rw [hc] at h
  injection h with h
  obtain ⟨hlen, hspec⟩ := choices_spec hc
  have hlt := choices_lt hc
  have hnd := choices_nodup hc
  have hrange : ∀ i ∈ (List.range selvars.length).filter (· ∈ fs), i < selvars.length :=
    fun i hi => List.mem_range.1 (List.mem_filter.1 hi).1
  have hperm : ((List.range selvars.length).filter (· ∈ fs)).Perm fs := by
    rw [List.perm_ext_iff_of_nodup (List.nodup_range.filter _) hnd]
    intro a
    simp only [List.mem_filter, List.mem_range, decide_eq_true_eq]
    exact ⟨fun h => h.2, fun h => ⟨hl ▸ hlt a h, h⟩⟩
  obtain ⟨hpl, hpg⟩ := pick_get hrange
  have hmem : ∀ (i f : Nat), selvars[i]? = some f → (f ∈ sel ↔ i ∈ fs) := by
    intro i f hf
    constructor
    · intro hfs
      rw [← h] at hfs
      unfold pick at hfs
      obtain ⟨a, ha, hae⟩ := List.mem_filterMap.1 hfs
      rw [hinj i a f hf hae]
      simpa using (List.mem_filter.1 ha).2
    · intro hif
      rw [← h]
      unfold pick
      exact List.mem_filterMap.2 ⟨i, hperm.mem_iff.2 hif, hf⟩
  refine ⟨?_, hsub, ?_⟩
  · rw [← h, hpl, hperm.length_eq, hlen, hk]
  · intro c hck
    have hcf : c < fs.length := by omega
    have hlab := hspec c fs[c] (List.getElem?_eq_getElem hcf)
    rw [Nat.zero_add] at hlab
    have hfl : fs[c] < selvars.length := by
      rw [← hl]
      exact hlt _ (List.getElem_mem hcf)
    have hsv : selvars[fs[c]]? = some selvars[fs[c]] := List.getElem?_eq_getElem hfl
    refine ⟨selvars[fs[c]], (hmem _ _ hsv).2 (List.getElem_mem hcf), ⟨_, hsv, hlab⟩, ?_⟩
    rintro g hg ⟨i, hi, hic⟩
    obtain ⟨j, hj⟩ := List.mem_iff_getElem?.1 ((hmem i g hi).1 hg)
    have := hspec j i hj
    rw [hic] at this
    simp only [Nat.zero_add, Option.some.injEq] at this
    subst this
    rw [List.getElem?_eq_getElem hcf] at hj
    injection hj with hj
    subst hj
    rw [hsv] at hi
    exact (Option.some.inj hi).symm

/-- **C73.**  The decoding succeeds exactly when no cluster is empty. -/
theorem C73_succeeds {labels selvars : List Nat} {k : Nat} {best : List Int} (hk : best.length = k) :
    (∃ sel, decode labels k selvars best = .ok sel) ↔ ∀ c < k, c ∈ labels := by
  have ht := choices_total (labels := labels) best 0
  simp only [Nat.zero_add, hk] at ht
  rw [← ht, decode_eq hk]
  rcases choices labels 0 best with _ | fs
  · constructor
    · rintro ⟨_, h⟩
      cases h
    · rintro ⟨_, h⟩
      cases h
  · exact ⟨fun _ => ⟨fs, rfl⟩, fun _ => ⟨_, rfl⟩⟩

example : (decode [0, 1, 2, 0, 1] 3 [1, 2, 4, 5, 6] [1, -2, 7]).toOption = some [2, 4, 5] := by
  decide +kernel

/-! ### C104 -/

/-- **C104.**  With the density options and dense data the stage never returns once more than three
features, and more than `K`, pass the performance step. -/
theorem C104_refuted {α : Type} (lib : Lib) (rho : List (List Num)) (thr : Num) (k nalgos : Nat)
    (x : List α) (labels : List String) (out : Out α) (hx : 3 < x.length)
    (h3 : 3 < (selectByPerformance lib.argsort rho thr x.length nalgos).length)
    (hk : k < (selectByPerformance lib.argsort rho thr x.length nalgos).length) :
    sifted lib rho thr k nalgos x labels true ≠ .ok out := by
  intro h
  unfold sifted at h
  simp only at h
  rw [if_neg (by omega), if_neg (by omega), if_neg (by omega), if_neg (by omega)] at h
  split at h
  · cases h
  split at h
  · cases h
  split at h
  · cases h
  simp at h

example : (selectByPerformance exLib.argsort exRho (.fin (1 / 2)) 7 1).length = 6 := by decide +kernel

/-- **C104, the true part.**  Otherwise the density options change nothing. -/
theorem C104_partial {α : Type} (lib : Lib) (rho : List (List Num)) (thr : Num) (k nalgos : Nat)
    (x : List α) (labels : List String)
    (h : x.length ≤ 3 ∨ (selectByPerformance lib.argsort rho thr x.length nalgos).length ≤ 3 ∨
      (selectByPerformance lib.argsort rho thr x.length nalgos).length ≤ k) :
    sifted lib rho thr k nalgos x labels true = sifted lib rho thr k nalgos x labels false := by
  unfold sifted
  simp only
  split
  · rfl
  split
  · rfl
  split
  · rfl
  rw [if_pos (by omega), if_pos (by omega)]

/-! ### C105 -/

/-- **C105.**  `idx` does not list the selected features. -/
theorem C105_refuted : ∃ out, exRun = .ok out ∧ out.idx ≠ out.selvars := by
  have h : exRun.toOption.map (fun o => decide (o.idx = o.selvars)) = some false := by decide +kernel
  rcases he : exRun with e | out
  · rw [he] at h
    cases h
  · rw [he] at h
    exact ⟨out, rfl, of_decide_eq_false (Option.some.inj h)⟩

/-- **C105, what it lists.**  All features of the input, selected or not. -/
theorem C105_partial {α : Type} {lib : Lib} {rho : List (List Num)} {thr : Num} {k nalgos : Nat}
    {x : List α} {labels : List String} {dense : Bool} {out : Out α}
    (h : sifted lib rho thr k nalgos x labels dense = .ok out) : out.idx = List.range x.length := by
  unfold sifted at h
  simp only at h
  split at h
  · cases h
  split at h
  · injection h with h
    rw [← h]
  split at h
  · cases h
  split at h
  · injection h with h
    rw [← h]
  split at h
  · cases h
  split at h
  · cases h
  split at h
  · cases h
  split at h
  · cases h
  injection h with h
  rw [← h]

/-! ### C106 -/

/-- **C106.**  Two or three features pass unchanged; without a second feature the stage stops. -/
theorem C106_small {α : Type} (lib : Lib) (rho : List (List Num)) (thr : Num) (k nalgos : Nat)
    (x : List α) (labels : List String) (dense : Bool) :
    (x.length ≤ 1 → sifted lib rho thr k nalgos x labels dense = .error .notEnoughFeatures) ∧
    (x.length = 2 ∨ x.length = 3 → ∃ out, sifted lib rho thr k nalgos x labels dense = .ok out ∧
      out.x = x ∧ out.featLabels = labels) := by
  unfold sifted
  simp only
  constructor
  · intro h
    rw [if_pos h]
  · intro h
    rw [if_neg (by omega), if_pos (by omega)]
    exact ⟨_, rfl, rfl, rfl⟩

/-- **C106.**  The output never has more features than the input, and it has at least two (given
that k-means labels every feature and the search returns `K` genes). -/
theorem C106_count {α : Type} {lib : Lib} {rho : List (List Num)} {thr : Num} {k nalgos : Nat}
    {x : List α} {labels : List String} {dense : Bool} {out : Out α}
    (hl : labels.length = x.length)
    (hlab : ∀ sel, (lib.kmeans sel k).length = sel.length)
    (hgenes : ∀ fit best, lib.search fit = .ok best → best.length = k)
    (h : sifted lib rho thr k nalgos x labels dense = .ok out) :
    out.x.length ≤ x.length ∧ 2 ≤ out.x.length := by
  have ha := sifted_aligned hl h
  refine ⟨?_, ?_⟩
  · rw [ha.columns]
    have hnd : out.selvars.Nodup := ha.increasing.imp fun h => Nat.ne_of_lt h
    have : out.selvars.length ≤ (List.range x.length).length :=
      (List.subperm_of_subset hnd fun i hi => List.mem_range.2 (ha.inRange i hi)).length_le
    simpa using this
  · have hcol := ha.columns
    unfold sifted at h
    simp only at h
    split at h
    · cases h
    split at h
    · injection h with h
      rw [← h]
      simp only
      omega
    split at h
    · cases h
    split at h
    · injection h with h
      rw [← h] at hcol ⊢
      simp only at hcol ⊢
      omega
    split at h
    · cases h
    rename_i scores _ hev
    split at h
    · cases h
    rename_i best hbest
    split at h
    · cases h
    rename_i sel hdec
    split at h
    · cases h
    injection h with h
    have hlen := (C73_one_per_cluster (hlab _) (selectByPerformance_sorted _ _ _ _ _)
      (hgenes _ _ hbest) hdec).1
    rw [← h] at hcol ⊢
    simp only at hcol ⊢
    rw [hcol, hlen]
    unfold evaluateCluster at hev
    simp only at hev
    split at hev
    · cases hev
    split at hev
    · cases hev
    split at hev
    · rename_i hk
      simp only [List.mem_map] at hk
      obtain ⟨a, _, e⟩ := hk
      omega
    · cases hev

example : (∀ sel, (exLib.kmeans sel 3).length = sel.length) ∧
    (∀ fit best, exLib.search fit = .ok best → best.length = 3) := by
  refine ⟨fun sel => by simp [exLib], fun fit best h => ?_⟩
  injection h with h
  rw [← h]
  rfl

end Verif.Sifted
