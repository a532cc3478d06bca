import Verif.Sifted.Props
import Verif.Sifted.SpecCompletes
/-!
# C213: when the feature selection completes
-/
set_option autoImplicit false
set_option linter.unusedSectionVars false

namespace Verif.Sifted

open Verif (Num)

theorem cost_ok {lib : Lib} {k : Nat} (hd : Delivers lib k) {sel : List Nat} {n nalgos : Nat}
    (hk : k ≤ sel.length) (hn : sel.length ≤ n) {s : List Int} (hs : s.length = k) :
    ∃ v, cost lib.err nalgos (lib.kmeans sel k) n s = .ok v := by
  obtain ⟨fs, hfs⟩ := (choices_total (labels := lib.kmeans sel k) s 0).2 (by
    intro j hj
    rw [Nat.zero_add]
    exact hd.filled sel hk j (by omega))
  unfold cost
  rw [costFeatures_eq (by rw [hd.labelled]; exact hn), hfs]
  exact ⟨_, rfl⟩

theorem selected_le (argsort : List Num → List Nat) (rho : List (List Num)) (thr : Num) (n m : Nat) :
    (selectByPerformance argsort rho thr n m).length ≤ n := by
  have hnd : (selectByPerformance argsort rho thr n m).Nodup :=
    (selectByPerformance_sorted argsort rho thr n m).imp fun h => Nat.ne_of_lt h
  have : (selectByPerformance argsort rho thr n m).length ≤ (List.range n).length :=
    (List.subperm_of_subset hnd fun i hi => List.mem_range.2 (mem_selectByPerformance.1 hi).1).length_le
  simpa using this

theorem bestCount_unique {score : Nat → ℚ} {n c d : Nat} (hc : BestCount score n c) (hd : BestCount score n d) :
    c = d := by
  rcases Nat.lt_trichotomy c d with h | h | h
  · exact absurd ((hd.2.2 c hc.1 hc.2.1).2 h) (not_lt.2 (hc.2.2 d hd.1 hd.2.1).1)
  · exact h
  · exact absurd ((hc.2.2 d hd.1 hd.2.1).2 h) (not_lt.2 (hd.2.2 c hc.1 hc.2.1).1)

/-- **C213, exactly when.**  With libraries that do their work, the stage returns exactly if there are two
features or more and, with more than three, at least two of them pass the performance step and either three or
fewer pass, or not more than the wanted clusters `K`, or the density filter is not in use, `K` is at least 2 and
the best number of clusters is `K` or smaller than the number of passing features minus two. -/
theorem C213_exact_partial {α : Type} {lib : Lib} {k : Nat} (hd : Delivers lib k) (rho : List (List Num)) (thr : Num)
    (nalgos : Nat) (x : List α) (labels : List String) (dense : Bool) {sel : List Nat}
    (hsel : sel = selectByPerformance lib.argsort rho thr x.length nalgos) :
    (∃ out, sifted lib rho thr k nalgos x labels dense = .ok out) ↔
      2 ≤ x.length ∧ (x.length ≤ 3 ∨ (2 ≤ sel.length ∧ (sel.length ≤ 3 ∨ sel.length ≤ k ∨
        (dense = false ∧ 2 ≤ k ∧ ∃ c, BestCount (lib.silhouette sel) sel.length c ∧
          (c = k ∨ c + 2 < sel.length))))) := by
  unfold sifted
  simp only [← hsel]
  by_cases h1 : x.length ≤ 1
  · rw [if_pos h1]
    exact ⟨fun ⟨_, h⟩ => (by cases h), fun h => absurd h.1 (by omega)⟩
  rw [if_neg h1]
  by_cases h3 : x.length ≤ 3
  · rw [if_pos h3]
    exact ⟨fun _ => ⟨by omega, .inl h3⟩, fun _ => ⟨_, rfl⟩⟩
  rw [if_neg h3]
  by_cases m1 : sel.length ≤ 1
  · rw [if_pos m1]
    refine ⟨fun ⟨_, h⟩ => (by cases h), fun h => ?_⟩
    rcases h.2 with h | h
    · exact absurd h h3
    · exact absurd h.1 (by omega)
  rw [if_neg m1]
  by_cases m3 : sel.length ≤ 3 ∨ sel.length ≤ k
  · rw [if_pos m3]
    exact ⟨fun _ => ⟨by omega, .inr ⟨by omega, by omega⟩⟩, fun _ => ⟨_, rfl⟩⟩
  rw [if_neg m3]
  by_cases hk : 2 ≤ k
  · obtain ⟨c, hc, hgood, hbad⟩ := C72_exact_partial (lib.silhouette sel) (lib.evalLabels sel) (n := sel.length) hk
      (by omega)
    by_cases hcc : c = k ∨ c < sel.length - 2
    · rw [hgood hcc]
      obtain ⟨best, hb, hbl⟩ := hd.found (cost lib.err nalgos (lib.kmeans sel k) x.length) fun s hs =>
        cost_ok hd (by omega) (by rw [hsel]; exact selected_le _ _ _ _ _) hs
      obtain ⟨out, ho⟩ := (C73_succeeds (labels := lib.kmeans sel k) (selvars := sel) hbl).2
        (hd.filled sel (by omega))
      simp only [hb, ho]
      cases dense
      · refine ⟨fun _ => ⟨by omega, .inr ⟨by omega, .inr (.inr ⟨rfl, hk, c, hc, ?_⟩)⟩⟩, fun _ => ⟨_, rfl⟩⟩
        have := hc.2.1
        omega
      · refine ⟨fun ⟨_, h⟩ => (by cases h), fun h => ?_⟩
        rcases h.2 with h | ⟨-, h | h | ⟨h, -⟩⟩
        · exact absurd h h3
        · exact absurd (.inl h) m3
        · exact absurd (.inr h) m3
        · cases h
    · rw [hbad hcc]
      refine ⟨fun ⟨_, h⟩ => (by cases h), fun h => ?_⟩
      rcases h.2 with h | ⟨-, h | h | ⟨-, -, d, hd', h⟩⟩
      · exact absurd h h3
      · exact absurd (.inl h) m3
      · exact absurd (.inr h) m3
      · rw [bestCount_unique hd' hc] at h
        refine absurd ?_ hcc
        rcases h with h | h
        · exact .inl h
        · exact .inr (by omega)
  · refine ⟨fun ⟨_, h⟩ => ?_, fun h => ?_⟩
    · exfalso
      revert h
      have hne : ∀ r, evaluateCluster (lib.silhouette sel) (lib.evalLabels sel) sel.length k ≠ .ok r := by
        intro r h
        unfold evaluateCluster at h
        dsimp only at h
        split at h
        · cases h
        split at h
        · cases h
        split at h
        · rename_i hm
          simp only [List.mem_map] at hm
          obtain ⟨a, -, e⟩ := hm
          omega
        · cases h
      split
      · intro h; cases h
      · rename_i heq
        exact absurd heq (hne _)
    · rcases h.2 with h | ⟨-, h | h | ⟨-, h, -⟩⟩
      · exact absurd h h3
      · exact absurd (.inl h) m3
      · exact absurd (.inr h) m3
      · exact absurd h hk

/-- **C213, two favourites are enough.**  If two algorithms have different features with which they correlate
more than with any other, at least two features pass the performance step. -/
theorem C213_favourites_partial {argsort : List Num → List Nat} (hs : Sorts argsort) {rho : List (List Num)}
    {n m : Nat} {f : Nat → Nat → ℚ} (hm : Matrix rho n m f) (thr : Num) {i j g h : Nat} (hi : i < m) (hj : j < m)
    (hg : g < n) (hh : h < n) (hne : g ≠ h) (gi : ∀ l < n, l ≠ g → |f l i| < |f g i|)
    (hj' : ∀ l < n, l ≠ h → |f l j| < |f h j|) :
    2 ≤ (selectByPerformance argsort rho thr n m).length := by
  obtain ⟨a, ha, hmax⟩ := C70_top_partial hs hm (by omega) thr hi
  obtain ⟨b, hb, hmax'⟩ := C70_top_partial hs hm (by omega) thr hj
  have ea : a = g := by
    by_contra hc
    exact absurd (gi a (mem_selectByPerformance.1 ha).1 hc) (not_lt.2 (hmax g hg))
  have eb : b = h := by
    by_contra hc
    exact absurd (hj' b (mem_selectByPerformance.1 hb).1 hc) (not_lt.2 (hmax' h hh))
  subst ea eb
  have : [a, b].length ≤ _ := (List.subperm_of_subset (by simp [hne]) (by
    intro l hl
    simp only [List.mem_cons, List.not_mem_nil, or_false] at hl
    rcases hl with rfl | rfl
    · exact ha
    · exact hb) : List.Subperm [a, b] (selectByPerformance argsort rho thr n m)).length_le
  simpa using this

/-- **C213, uncorrelated features.**  If no correlation is significant, a stage with more than three features
always stops for want of features: the same one feature is taken for every algorithm. -/
theorem C213_uncorrelated_refuted {α : Type} (lib : Lib) {rho : List (List Num)} {thr : ℚ} (hthr : 0 < thr)
    (k nalgos : Nat) (x : List α) (labels : List String) (dense : Bool) (hx : 3 < x.length)
    (hrho : Matrix rho x.length nalgos fun _ _ => 0) :
    sifted lib rho (.fin thr) k nalgos x labels dense = .error .notEnoughFeatures := by
  have hle : (selectByPerformance lib.argsort rho (.fin thr) x.length nalgos).length ≤ 1 := by
    have hcol : ∀ j < nalgos, negAbsColumn rho j = rho.map fun _ => .fin (-|0|) := by
      intro j hj
      unfold negAbsColumn
      refine List.map_congr_left fun r hr => ?_
      obtain ⟨i, hi⟩ := List.mem_iff_getElem?.1 hr
      obtain ⟨r', hr', -, hv⟩ := hrho.2 i (by rw [← hrho.1]; exact (List.getElem?_eq_some_iff.1 hi).1)
      rw [hi] at hr'
      injection hr' with hr'
      rw [List.getD_eq_getElem?_getD, hr', hv j hj]
      rfl
    have hall : ∀ g ∈ selectByPerformance lib.argsort rho (.fin thr) x.length nalgos,
        g = (lib.argsort (rho.map fun _ => .fin (-|0|))).getD 0 0 := by
      intro g hg
      obtain ⟨-, ⟨j, hj, e⟩ | ⟨i, hi, j, hj, hle, -⟩⟩ := mem_selectByPerformance.1 hg
      · rw [← e]
        unfold ranked
        rw [hcol j hj]
      · exfalso
        obtain ⟨r, hr, -, hv⟩ := hrho.2 i hi
        have e : entry rho i j = .fin 0 := by
          unfold entry
          rw [List.getD_eq_getElem?_getD, List.getD_eq_getElem?_getD, hr]
          simp only [Option.getD_some]
          rw [hv j hj]
          rfl
        rw [e] at hle
        simp only [Num.le, decide_eq_true_eq] at hle
        exact absurd hle (not_le.2 hthr)
    have hs := selectByPerformance_sorted lib.argsort rho (.fin thr) x.length nalgos
    rcases hl : selectByPerformance lib.argsort rho (.fin thr) x.length nalgos with _ | ⟨a, _ | ⟨b, l⟩⟩
    · simp
    · simp
    · rw [hl] at hs hall
      have h1 := List.rel_of_pairwise_cons hs (List.mem_cons_self (a := b) (l := l))
      have h2 := hall a (by simp)
      have h3 := hall b (by simp)
      omega
  unfold sifted
  simp only
  rw [if_neg (by omega), if_neg (by omega), if_pos hle]

theorem exLib_delivers : Delivers exLib 3 where
  labelled sel := by simp [exLib]
  filled sel hk c hc := by
    simp only [exLib, List.mem_map, List.mem_range]
    exact ⟨c, by omega, Nat.mod_eq_of_lt hc⟩
  found _ _ := ⟨_, rfl, rfl⟩

/-- **C213 is false.**  Four features, none of them significantly correlated with an algorithm: the stage stops
because "there is only 1 feature". -/
theorem C213_refuted : ¬ SelectionCompletes := by
  intro h
  have hm : Matrix [[.fin 0, .fin 0], [.fin 0, .fin 0], [.fin 0, .fin 0], [.fin 0, .fin 0]] 4 2 fun _ _ => 0 := by
    refine ⟨rfl, fun i hi => ⟨[.fin 0, .fin 0], ?_, rfl, fun j hj => ?_⟩⟩
    · match i, hi with
      | 0, _ | 1, _ | 2, _ | 3, _ => rfl
    · match j, hj with
      | 0, _ | 1, _ => rfl
  obtain ⟨out, ho⟩ := h exLib _ (.fin (1 / 10)) 3 2 ["a", "b", "c", "d"] ["a", "b", "c", "d"] _ argsortRef_sorts
    exLib_delivers (by norm_num) (by simp) hm
  rw [C213_uncorrelated_refuted exLib (by norm_num) 3 2 _ _ false (by simp) hm] at ho
  cases ho

-- Seven features of which six pass, three clusters, best number of clusters three: the right side of
-- `C213_exact_partial` holds for a library that does its work.
example : Delivers exLib 3 ∧ ∃ sel, sel = selectByPerformance exLib.argsort exRho (.fin (1 / 2)) 7 1 ∧
    2 ≤ sel.length ∧ ¬ sel.length ≤ 3 ∧ BestCount (exLib.silhouette sel) sel.length 3 := by
  have hl : (selectByPerformance exLib.argsort exRho (.fin (1 / 2)) 7 1).length = 6 := by decide +kernel
  refine ⟨exLib_delivers, _, rfl, by omega, by omega, by omega, by omega, fun d _ _ => ?_⟩
  by_cases h : d = 3
  · simp [exLib, h]
  · simp [exLib, h]

-- Two algorithms with different favourites.
example : ∃ f : Nat → Nat → ℚ, Matrix [[.fin 1, .fin 0], [.fin 0, .fin (1 / 2)], [.fin 0, .fin 0]] 3 2 f ∧
    (∀ l < 3, l ≠ 0 → |f l 0| < |f 0 0|) ∧ ∀ l < 3, l ≠ 1 → |f l 1| < |f 1 1| := by
  refine ⟨fun i j => if i = 0 ∧ j = 0 then 1 else if i = 1 ∧ j = 1 then 1 / 2 else 0, ⟨rfl, fun i hi => ?_⟩, ?_, ?_⟩
  · match i, hi with
    | 0, _ => exact ⟨_, rfl, rfl, fun j hj => by match j, hj with | 0, _ | 1, _ => simp⟩
    | 1, _ => exact ⟨_, rfl, rfl, fun j hj => by match j, hj with | 0, _ | 1, _ => simp⟩
    | 2, _ => exact ⟨_, rfl, rfl, fun j hj => by match j, hj with | 0, _ | 1, _ => simp⟩
  · intro l hl h
    simp [h]
  · intro l hl h
    simp [h]

end Verif.Sifted
