import Verif.Pythia.Spec
import Mathlib.Tactic.Ring
import Mathlib.Tactic.FieldSimp
import Mathlib.Tactic.ByContra
/-!
# Lemmas on the model of PYTHIA
-/
set_option autoImplicit false
set_option linter.unusedSectionVars false

namespace Verif.Pythia

open Verif (Num)

/-! ### argmax and max -/

theorem argmaxFrom_spec : ∀ (l pre : List ℚ) (k : Nat) (a : ℚ), pre[k]? = some a →
    (∀ (j : Nat) x, pre[j]? = some x → x ≤ a ∧ (j < k → x < a)) →
    ∃ v, (pre ++ l)[argmaxFrom k a pre.length l]? = some v ∧
      ∀ (j : Nat) x, (pre ++ l)[j]? = some x → x ≤ v ∧ (j < argmaxFrom k a pre.length l → x < v)
  | [], pre, k, a, h1, h2 => by
      refine ⟨a, ?_, ?_⟩
      · simpa [argmaxFrom] using h1
      · simpa [argmaxFrom] using h2
  | b :: l, pre, k, a, h1, h2 => by
      have hk : k < pre.length := (List.getElem?_eq_some_iff.1 h1).1
      have e : pre ++ b :: l = (pre ++ [b]) ++ l := by simp
      have el : pre.length + 1 = (pre ++ [b]).length := by simp
      unfold argmaxFrom
      rw [e, el]
      split
      · rename_i hab
        refine argmaxFrom_spec l (pre ++ [b]) pre.length b (by simp) ?_
        intro j x hx
        rcases Nat.lt_trichotomy j pre.length with hj | hj | hj
        · rw [List.getElem?_append_left hj] at hx
          have := (h2 j x hx).1
          exact ⟨le_of_lt (lt_of_le_of_lt this hab), fun _ => lt_of_le_of_lt this hab⟩
        · subst hj
          simp at hx
          exact ⟨le_of_eq hx.symm, fun h => absurd h (lt_irrefl _)⟩
        · rw [List.getElem?_eq_none (by simp; omega)] at hx
          cases hx
      · rename_i hab
        refine argmaxFrom_spec l (pre ++ [b]) k a (by rw [List.getElem?_append_left hk]; exact h1) ?_
        intro j x hx
        rcases Nat.lt_trichotomy j pre.length with hj | hj | hj
        · rw [List.getElem?_append_left hj] at hx
          exact h2 j x hx
        · subst hj
          simp at hx
          exact ⟨hx ▸ not_lt.1 hab, fun h => absurd h (by omega)⟩
        · rw [List.getElem?_eq_none (by simp; omega)] at hx
          cases hx

/-- The position found by `argmax` is the first position of the largest value. -/
theorem argmaxFrom_first (a : ℚ) (l : List ℚ) :
    ∃ v, (a :: l)[argmaxFrom 0 a 1 l]? = some v ∧
      ∀ (j : Nat) x, (a :: l)[j]? = some x → x ≤ v ∧ (j < argmaxFrom 0 a 1 l → x < v) := by
  have := argmaxFrom_spec l [a] 0 a (by simp) (by
    intro j x hx
    rcases j with _ | j
    · simp at hx
      exact ⟨le_of_eq hx.symm, fun h => absurd h (lt_irrefl _)⟩
    · simp at hx)
  simpa using this

theorem maxFrom_spec : ∀ (l : List ℚ) (a : ℚ), maxFrom a l ∈ a :: l ∧ ∀ x ∈ a :: l, x ≤ maxFrom a l
  | [], a => by simp [maxFrom]
  | b :: l, a => by
      have ih := maxFrom_spec l (if a < b then b else a)
      unfold maxFrom
      refine ⟨?_, ?_⟩
      · rcases List.mem_cons.1 ih.1 with h | h
        · rw [h]
          split <;> simp
        · exact List.mem_cons_of_mem _ (List.mem_cons_of_mem _ h)
      · intro x hx
        have h0 := ih.2 _ (List.mem_cons_self)
        rcases List.mem_cons.1 hx with rfl | hx
        · refine le_trans ?_ h0
          split
          · rename_i h
            exact le_of_lt h
          · exact le_refl _
        · rcases List.mem_cons.1 hx with rfl | hx
          · refine le_trans ?_ h0
            split
            · exact le_refl _
            · rename_i h
              exact not_lt.1 h
          · exact ih.2 x (List.mem_cons_of_mem _ hx)

theorem weighted_get {precision : List ℚ} {row : List Bool} {j : Nat} {x : ℚ} :
    (weighted precision row)[j]? = some x ↔
      ∃ b p, row[j]? = some b ∧ precision[j]? = some p ∧ x = if b then p else 0 := by
  unfold weighted
  rw [List.getElem?_zipWith]
  rcases row[j]? with _ | b <;> rcases precision[j]? with _ | p <;> simp [eq_comm]

theorem selectRow_some {precision : List ℚ} {row : List Bool} (d : Nat)
    (h : AnyGood precision row) :
    ∃ s, selectRow precision d row = (s, s) ∧ Recommended precision row s := by
  obtain ⟨j, p, ⟨h1, h2⟩, hp⟩ := h
  have hj : (weighted precision row)[j]? = some p := weighted_get.2 ⟨true, p, h1, h2, by simp⟩
  unfold selectRow
  rcases hw : weighted precision row with _ | ⟨a, l⟩
  · rw [hw] at hj
    simp at hj
  · obtain ⟨v, hv, hmax⟩ := argmaxFrom_first a l
    rw [hw] at hj
    have hpv : 0 < v := lt_of_lt_of_le hp (hmax j p hj).1
    have hvm : v ≤ maxFrom a l := (maxFrom_spec l a).2 v (List.mem_of_getElem? hv)
    have hn : ¬ maxFrom a l ≤ 0 := by
      intro h
      linarith
    refine ⟨argmaxFrom 0 a 1 l, by simp [hn], v, ?_, hpv, ?_⟩
    · rw [← hw] at hv
      obtain ⟨b, q, hb, hq, e⟩ := weighted_get.1 hv
      cases b
      · simp at e
        exact absurd e (ne_of_gt hpv)
      · simp at e
        subst e
        exact ⟨hb, hq⟩
    · intro i q hi
      exact hmax i q (by rw [← hw]; exact weighted_get.2 ⟨true, q, hi.1, hi.2, by simp⟩)

theorem selectRow_none {precision : List ℚ} {row : List Bool} (d : Nat)
    (h : ¬ AnyGood precision row) : selectRow precision d row = (0, d) := by
  unfold selectRow
  rcases hw : weighted precision row with _ | ⟨a, l⟩
  · rfl
  · simp only
    rw [if_pos]
    by_contra hn
    rw [not_le] at hn
    obtain ⟨j, hj⟩ := List.mem_iff_getElem?.1 (maxFrom_spec l a).1
    rw [← hw] at hj
    obtain ⟨b, q, hb, hq, e⟩ := weighted_get.1 hj
    cases b
    · simp at e
      exact absurd e (ne_of_gt hn)
    · simp at e
      exact h ⟨j, q, ⟨hb, hq⟩, e ▸ hn⟩

/-! ### The default selection -/

theorem column_eq (yBin : List (List Bool)) (j : Nat) : column false yBin j = goodColumn yBin j := by
  unfold column goodColumn
  congr 1
  funext r
  rw [List.getD_eq_getElem?_getD]
  rcases r[j]? with _ | _ | _ <;> simp

theorem count_column (yBin : List (List Bool)) (j : Nat) :
    (column false yBin j).count true = numGood yBin j := by
  rw [column_eq, goodColumn, numGood, List.count_eq_countP, List.countP_map, List.countP_eq_length_filter]
  congr 2
  funext r
  simp

theorem goodMeans_get (n : Nat) (yBin : List (List Bool)) (j : Nat) (x : ℚ) :
    (goodMeans n yBin)[j]? = some x ↔ j < n ∧ x = (numGood yBin j : ℚ) / yBin.length := by
  unfold goodMeans
  rw [List.getElem?_map]
  by_cases h : j < n
  · rw [List.getElem?_range h]
    simp [h, count_column, eq_comm]
  · rw [List.getElem?_eq_none (by simpa using h)]
    simp [h]

theorem numGood_nil (j : Nat) : numGood [] j = 0 := rfl

theorem argmax_goodMeans {n d : Nat} {yBin : List (List Bool)} (hne : yBin ≠ [])
    (h : argmax (goodMeans n yBin) = some d) : MostOftenGood n yBin d := by
  unfold argmax at h
  split at h
  · cases h
  rename_i a l e
  injection h with h
  obtain ⟨v, hv, hmax⟩ := argmaxFrom_first a l
  rw [← e, h] at hv
  rw [h] at hmax
  obtain ⟨hd, hv⟩ := (goodMeans_get n yBin d v).1 hv
  refine ⟨hd, fun j hj => ?_⟩
  have hN : (0 : ℚ) < yBin.length := by
    have := List.length_pos_iff.2 hne
    exact_mod_cast this
  obtain ⟨h1, h2⟩ := hmax j _ (by rw [← e]; exact (goodMeans_get n yBin j _).2 ⟨hj, rfl⟩)
  rw [hv, div_le_div_iff_of_pos_right hN] at h1
  rw [hv, div_lt_div_iff_of_pos_right hN] at h2
  exact ⟨by exact_mod_cast h1, fun hjd => by exact_mod_cast h2 hjd⟩

/-! ### Measures -/

theorem cells_pos (truth pred : List Bool) :
    cells truth pred true true + cells truth pred false true =
      ((truth.zip pred).filter fun q => q.2).length := by
  unfold cells
  generalize truth.zip pred = l
  induction l with
  | nil => rfl
  | cons q l ih => rcases q with ⟨_ | _, _ | _⟩ <;> simp_all <;> omega

theorem cells_true (truth pred : List Bool) :
    cells truth pred true true + cells truth pred true false =
      ((truth.zip pred).filter fun q => q.1).length := by
  unfold cells
  generalize truth.zip pred = l
  induction l with
  | nil => rfl
  | cons q l ih => rcases q with ⟨_ | _, _ | _⟩ <;> simp_all <;> omega

theorem cells_correct (truth pred : List Bool) :
    cells truth pred true true + cells truth pred false false =
      ((truth.zip pred).filter fun q => q.1 == q.2).length := by
  unfold cells
  generalize truth.zip pred = l
  induction l with
  | nil => rfl
  | cons q l ih => rcases q with ⟨_ | _, _ | _⟩ <;> simp_all <;> omega

theorem cells_all (truth pred : List Bool) :
    cells truth pred false false + cells truth pred false true +
      cells truth pred true false + cells truth pred true true = (truth.zip pred).length := by
  unfold cells
  generalize truth.zip pred = l
  induction l with
  | nil => rfl
  | cons q l ih => rcases q with ⟨_ | _, _ | _⟩ <;> simp_all <;> omega

theorem precisionScore_eq (truth pred : List Bool) :
    precisionScore truth pred = specPrecision truth pred := by
  unfold precisionScore specPrecision share
  rw [cells_pos, List.filter_filter]
  unfold cells
  congr 3
  apply List.filter_congr
  rintro ⟨_ | _, _ | _⟩ _ <;> simp

theorem recallScore_eq (truth pred : List Bool) :
    recallScore truth pred = specRecall truth pred := by
  unfold recallScore specRecall share
  rw [cells_true, List.filter_filter]
  unfold cells
  congr 3
  apply List.filter_congr
  rintro ⟨_ | _, _ | _⟩ _ <;> simp

theorem accuracyScore_eq {truth pred : List Bool} (h : pred.length = truth.length) :
    accuracyScore truth pred = specAccuracy truth pred := by
  unfold accuracyScore specAccuracy share
  rw [cells_correct]
  simp [h]

/-! ### The training loop -/

/-- Entry of a matrix. -/
theorem setCol_get {α : Type} {m : List (List α)} {i : Nat} {col : List α} {n : Nat}
    (hm : Rect m n) (hl : col.length = m.length) (hi : i < n) (r j : Nat) :
    (setCol m i col)[r]?.bind (·[j]?) = if j = i then col[r]? else m[r]?.bind (·[j]?) := by
  unfold setCol
  rw [List.getElem?_zipWith]
  rcases h1 : m[r]? with _ | row
  · have : col[r]? = none := by
      rw [List.getElem?_eq_none_iff] at h1 ⊢
      omega
    simp [this]
  · have hr : r < m.length := (List.getElem?_eq_some_iff.1 h1).1
    have h2 : col[r]? = some col[r] := List.getElem?_eq_getElem (by omega)
    have hrow := hm row (List.mem_of_getElem? h1)
    rw [h2]
    simp only [Option.bind_some]
    by_cases hji : j = i
    · subst hji
      simp [hrow, hi]
    · rw [List.getElem?_set_ne (by omega)]
      simp [hji]

theorem setCol_rect {α : Type} {m : List (List α)} {i : Nat} {col : List α} {n : Nat}
    (hm : Rect m n) : Rect (setCol m i col) n := by
  intro r hr
  unfold setCol at hr
  obtain ⟨k, hk⟩ := List.mem_iff_getElem?.1 hr
  rw [List.getElem?_zipWith] at hk
  rcases h1 : m[k]? with _ | row <;> rcases h2 : col[k]? with _ | v <;> rw [h1, h2] at hk <;>
    simp at hk
  rw [← hk]
  simpa using hm row (List.mem_of_getElem? h1)

theorem setCol_length {α : Type} {m : List (List α)} {i : Nat} {col : List α}
    (hl : col.length = m.length) : (setCol m i col).length = m.length := by
  simp [setCol, hl]

/-- The results of the first `k` algorithms have been recorded. -/
structure Inv (fitted : Nat → Except Err SvmRes) (yBin : List (List Bool)) (n k : Nat)
    (t : Trained) : Prop where
  rows : t.ySub.length = yBin.length ∧ t.yHat.length = yBin.length ∧
    t.pr0sub.length = yBin.length ∧ t.pr0hat.length = yBin.length
  rect : Rect t.ySub n ∧ Rect t.yHat n ∧ Rect t.pr0sub n ∧ Rect t.pr0hat n
  lens : t.cvcmat.length = n ∧ t.boxConsnt.length = k ∧ t.kScale.length = k ∧
    t.accuracy.length = k ∧ t.precision.length = k ∧ t.recall.length = k
  done : ∀ i < k, ∃ res, fitted i = .ok res ∧
    (∀ r : Nat, t.ySub[r]?.bind (·[i]?) = res.ySub[r]? ∧ t.yHat[r]?.bind (·[i]?) = res.yHat[r]? ∧
      t.pr0sub[r]?.bind (·[i]?) = res.pSub[r]? ∧ t.pr0hat[r]?.bind (·[i]?) = res.pHat[r]?) ∧
    (∃ cm, confusion (column false yBin i) res.ySub = .ok cm ∧ t.cvcmat[i]? = some cm) ∧
    t.boxConsnt[i]? = some res.c ∧ t.kScale[i]? = some res.g ∧
    t.accuracy[i]? = some (accuracyScore (column false yBin i) res.yHat) ∧
    t.precision[i]? = some (precisionScore (column false yBin i) res.yHat) ∧
    t.recall[i]? = some (recallScore (column false yBin i) res.yHat)

theorem append_get {α : Type} {l : List α} {k : Nat} (h : l.length = k) (a : α) :
    (l ++ [a])[k]? = some a ∧ ∀ i < k, (l ++ [a])[i]? = l[i]? := by
  subst h
  exact ⟨by simp, fun i hi => List.getElem?_append_left hi⟩

theorem record_inv {fitted : Nat → Except Err SvmRes} {yBin : List (List Bool)} {n k : Nat}
    {t t' : Trained} {res : SvmRes} (hk : k < n) (hf : fitted k = .ok res)
    (hs : Sized yBin.length res) (hi : Inv fitted yBin n k t)
    (h : record (column false yBin k) k res t = .ok t') : Inv fitted yBin n (k + 1) t' := by
  unfold record at h
  split at h
  · cases h
  rename_i cm hcm
  injection h with h
  obtain ⟨r1, r2, r3, r4⟩ := hi.rows
  obtain ⟨q1, q2, q3, q4⟩ := hi.rect
  obtain ⟨l1, l2, l3, l4, l5, l6⟩ := hi.lens
  obtain ⟨s1, s2, s3, s4⟩ := hs
  rw [← h]
  refine ⟨?_, ?_, ?_, ?_⟩
  · simp only
    refine ⟨?_, ?_, ?_, ?_⟩
    · rw [setCol_length (by omega)]; omega
    · rw [setCol_length (by omega)]; omega
    · rw [setCol_length (by omega)]; omega
    · rw [setCol_length (by omega)]; omega
  · exact ⟨setCol_rect q1, setCol_rect q2, setCol_rect q3, setCol_rect q4⟩
  · simp [l1, l2, l3, l4, l5, l6]
  · intro i hik
    rcases Nat.lt_or_ge i k with hlt | hge
    · obtain ⟨res', e1, e2, ⟨cm', e3, e3'⟩, e4, e5, e6, e7, e8⟩ := hi.done i hlt
      refine ⟨res', e1, fun r => ?_, ⟨cm', e3, ?_⟩, ?_, ?_, ?_, ?_, ?_⟩
      · have hne : i ≠ k := by omega
        simp only
        rw [setCol_get q1 (by omega) hk, setCol_get q2 (by omega) hk, setCol_get q3 (by omega) hk,
          setCol_get q4 (by omega) hk]
        simp only [if_neg hne]
        exact e2 r
      · simp only
        rw [List.getElem?_set_ne (by omega)]
        exact e3'
      · rw [(append_get l2 _).2 i hlt, e4]
      · rw [(append_get l3 _).2 i hlt, e5]
      · rw [(append_get l4 _).2 i hlt, e6]
      · rw [(append_get l5 _).2 i hlt, e7]
      · rw [(append_get l6 _).2 i hlt, e8]
    · obtain rfl : i = k := by omega
      refine ⟨res, hf, fun r => ?_, ⟨cm, hcm, ?_⟩, (append_get l2 _).1, (append_get l3 _).1,
        (append_get l4 _).1, (append_get l5 _).1, (append_get l6 _).1⟩
      · simp only
        rw [setCol_get q1 (by omega) hk, setCol_get q2 (by omega) hk, setCol_get q3 (by omega) hk,
          setCol_get q4 (by omega) hk]
        simp
      · simp only
        rw [List.getElem?_set_self (by omega)]

theorem train_inv {fitted : Nat → Except Err SvmRes} {yBin : List (List Bool)} {n : Nat}
    (hs : ∀ i res, fitted i = .ok res → Sized yBin.length res) :
    ∀ (m k : Nat) (t t' : Trained), k + m ≤ n → Inv fitted yBin n k t →
      train fitted yBin (List.range' k m) t = .ok t' → Inv fitted yBin n (k + m) t'
  | 0, k, t, t', _, hi, h => by
      simp [train] at h
      subst h
      exact hi
  | m + 1, k, t, t', hn, hi, h => by
      rw [List.range'_succ] at h
      unfold train at h
      split at h
      · cases h
      rename_i res hf
      split at h
      · cases h
      rename_i t1 h1
      have := train_inv hs m (k + 1) t1 t' (by omega)
        (record_inv (by omega) hf (hs k res hf) hi h1) h
      rwa [show k + (m + 1) = k + 1 + m by omega]

theorem start_inv (fitted : Nat → Except Err SvmRes) (yBin : List (List Bool)) (n : Nat) :
    Inv fitted yBin n 0 (start yBin.length n) := by
  refine ⟨by simp [start], ?_, by simp [start], fun i hi => absurd hi (by omega)⟩
  refine ⟨?_, ?_, ?_, ?_⟩ <;> intro r hr <;>
    exact (List.eq_of_mem_replicate hr) ▸ (by simp)

/-- After the loop everything is recorded. -/
theorem train_done {fitted : Nat → Except Err SvmRes} {yBin : List (List Bool)} {n : Nat}
    {t : Trained} (hs : ∀ i res, fitted i = .ok res → Sized yBin.length res)
    (h : train fitted yBin (List.range n) (start yBin.length n) = .ok t) :
    Inv fitted yBin n n t := by
  rw [List.range_eq_range'] at h
  simpa using train_inv hs n 0 _ t (by omega) (start_inv fitted yBin n) h

/-! ### The whole stage -/

theorem pythia_ok {lib : Lib} {n : Nat} {labels : List String} {y : List (List Num)}
    {yBin : List (List Bool)} {yBest : List Num} {fitted : Nat → Except Err SvmRes} {out : Out}
    (h : pythia lib n labels y yBin yBest fitted = .ok out) :
    train fitted yBin (List.range n) (start yBin.length n) = .ok out.trained ∧
      1 < n ∧ ∃ d, argmax (goodMeans n yBin) = some d ∧
      out.selection0 = .flat (out.trained.yHat.map fun r => (selectRow out.trained.precision d r).1) ∧
      out.selection1 = .flat (out.trained.yHat.map fun r => (selectRow out.trained.precision d r).2) ∧
      generateSummary lib n labels y out.trained.yHat yBin yBest out.selection0 out.selection1
        out.trained.accuracy out.trained.precision out.trained.recall out.trained.boxConsnt
        out.trained.kScale = .ok (out.summary, out.yAfter) := by
  unfold pythia at h
  split at h
  · cases h
  rename_i t ht
  split at h
  · cases h
  rename_i s0 s1 hd
  split at h
  · cases h
  rename_i sm ya hg
  injection h with h
  subst h
  refine ⟨ht, ?_⟩
  unfold determineSelections at hd
  split at hd
  · cases hd
  rename_i d he
  split at hd
  · rename_i hn
    injection hd with hd
    injection hd with h1 h2
    subst h1 h2
    exact ⟨hn, d, he, rfl, rfl, hg⟩
  · injection hd with hd
    injection hd with h1 h2
    subst h1 h2
    simp [generateSummary] at hg

/-! ### The selector row of the summary -/

/-- Not missing. -/
def present (v : Num) : Bool := !v.isNan

theorem blank_row (s : Nat) : ∀ (r : List Num) (k : Nat),
    (r.zipWith (fun v b => if b then v else Num.nan)
      ((List.range' k r.length).map fun j => decide (s = j + 1))).filter present =
      (if k < s then (r[s - 1 - k]?).toList else []).filter present
  | [], k => by simp
  | v :: r, k => by
      rw [List.length_cons, List.range'_succ, List.map_cons, List.zipWith_cons_cons,
        List.filter_cons, blank_row s r (k + 1)]
      rcases Nat.lt_trichotomy s (k + 1) with h | h | h
      · have h1 : ¬ (s = k + 1) := by omega
        have h2 : ¬ (k + 1 < s) := by omega
        have h3 : ¬ (k < s) := by omega
        simp [h1, h2, h3, present, Num.isNan]
      · subst h
        simp [List.filter_cons]
      · have h1 : ¬ (s = k + 1) := by omega
        have h3 : k < s := by omega
        obtain ⟨c, hc⟩ : ∃ c, s - 1 - k = c + 1 := ⟨s - 1 - k - 1, by omega⟩
        have hc' : s - 1 - (k + 1) = c := by omega
        simp [h1, h, h3, hc, hc', present, Num.isNan]

theorem blank_filter (n : Nat) : ∀ (y : List (List Num)) (sel : List Nat), Rect y n →
    y.length = sel.length →
    (blank y (selMatrix n sel)).flatten.filter present =
      ((y.zip sel).filterMap fun q => if q.2 = 0 then none else q.1[q.2 - 1]?).filter present
  | [], sel, _, _ => by simp [blank]
  | r :: y, [], _, h => by simp at h
  | r :: y, s :: sel, hr, hl => by
      have hrow : r.length = n := hr r List.mem_cons_self
      have ih := blank_filter n y sel (fun a ha => hr a (List.mem_cons_of_mem _ ha)) (by simpa using hl)
      have hb := blank_row s r 0
      rw [hrow, ← List.range_eq_range'] at hb
      unfold blank selMatrix at ih ⊢
      rw [List.map_cons, List.zipWith_cons_cons, List.flatten_cons, List.filter_append, ih, hb,
        List.zip_cons_cons, List.filterMap_cons]
      rcases Nat.eq_zero_or_pos s with h0 | h0
      · subst h0
        simp
      · have : s ≠ 0 := by omega
        simp only [h0, if_true, this, if_false, Nat.sub_zero]
        rcases r[s - 1]? with _ | v
        · simp
        · simp [List.filter_cons]
          split <;> simp

theorem nanmean_congr {l m : List Num} (h : l.filter present = m.filter present) :
    nanmean l = nanmean m := by
  unfold nanmean
  unfold present at h
  simp only [h]

theorem any_row (s : Nat) : ∀ (r : List Bool) (k : Nat),
    (r.zipWith (· && ·) ((List.range' k r.length).map fun j => decide (s = j + 1))).any id =
      decide (k < s ∧ r[s - 1 - k]? = some true)
  | [], k => by simp
  | v :: r, k => by
      rw [List.length_cons, List.range'_succ, List.map_cons, List.zipWith_cons_cons,
        List.any_cons, any_row s r (k + 1)]
      rcases Nat.lt_trichotomy s (k + 1) with h | h | h
      · have h1 : ¬ (s = k + 1) := by omega
        have h2 : ¬ (k + 1 < s) := by omega
        have h3 : ¬ (k < s) := by omega
        simp [h1, h2, h3]
      · subst h
        simp
      · have h1 : ¬ (s = k + 1) := by omega
        have h3 : k < s := by omega
        obtain ⟨c, hc⟩ : ∃ c, s - 1 - k = c + 1 := ⟨s - 1 - k - 1, by omega⟩
        have hc' : s - 1 - (k + 1) = c := by omega
        simp [h1, h, h3, hc, hc']

theorem hits_eq (n : Nat) : ∀ (yBin : List (List Bool)) (sel : List Nat), Rect yBin n →
    yBin.length = sel.length →
    yBin.zipWith (fun r s => (r.zipWith (· && ·) s).any id) (selMatrix n sel) =
      (yBin.zip sel).map fun q => decide (0 < q.2 ∧ q.1[q.2 - 1]? = some true)
  | [], sel, _, _ => by simp
  | r :: y, [], _, h => by simp at h
  | r :: y, s :: sel, hr, hl => by
      have hrow : r.length = n := hr r List.mem_cons_self
      have ih := hits_eq n y sel (fun a ha => hr a (List.mem_cons_of_mem _ ha)) (by simpa using hl)
      have hb := any_row s r 0
      rw [hrow, ← List.range_eq_range'] at hb
      unfold selMatrix at ih ⊢
      rw [List.map_cons, List.zipWith_cons_cons, ih, hb, List.zip_cons_cons, List.map_cons]
      simp

theorem pgood_eq {n : Nat} {yBin : List (List Bool)} {sel : List Nat} (hr : Rect yBin n)
    (hl : yBin.length = sel.length) :
    pgood yBin (selMatrix n sel) =
      share (yBin.zip sel) fun q => decide (0 < q.2 ∧ q.1[q.2 - 1]? = some true) := by
  unfold pgood share
  rw [hits_eq n yBin sel hr hl]
  simp only [List.length_map, List.count_eq_countP, List.countP_eq_length_filter, List.filter_map]
  congr 3
  apply List.filter_congr
  intro q _
  simp

/-- Success of the training loop. -/
theorem train_isOk {fitted : Nat → Except Err SvmRes} {yBin : List (List Bool)} :
    ∀ (is : List Nat) (t : Trained),
      (∃ t', train fitted yBin is t = .ok t') ↔
        ∀ i ∈ is, ∃ res, fitted i = .ok res ∧
          ∃ cm, confusion (column false yBin i) res.ySub = .ok cm
  | [], t => by simp [train]
  | i :: is, t => by
      unfold train
      rcases hf : fitted i with e | res
      · simp [hf]
      · simp only
        unfold record
        rcases hc : confusion (column false yBin i) res.ySub with e | cm
        · simp [hf, hc]
        · simp only
          rw [train_isOk is]
          simp [hf, hc]

theorem confusion_ok {truth pred : List Bool} :
    (∃ cm, confusion truth pred = .ok cm) ↔
      (true ∈ truth ∨ true ∈ pred) ∧ (false ∈ truth ∨ false ∈ pred) := by
  unfold confusion
  split
  · rename_i h
    exact ⟨fun _ => h, fun _ => ⟨_, rfl⟩⟩
  · rename_i h
    exact ⟨fun ⟨_, hc⟩ => (nomatch hc), fun hc => absurd hc h⟩

end Verif.Pythia
