import Verif.Sifted.Spec
import Mathlib.Data.List.Nodup
import Mathlib.Data.List.Range
import Mathlib.Tactic.ByContra
/-!
# Lemmas on the model of SIFTED
-/
set_option autoImplicit false
set_option linter.unusedSectionVars false

namespace Verif.Sifted

open Verif (Num)

theorem mark_length (is : List Nat) : ∀ m : List Bool, (mark m is).length = m.length := by
  unfold mark
  induction is with
  | nil => intro m; rfl
  | cons i is ih => intro m; rw [List.foldl_cons, ih]; simp

theorem mark_get (is : List Nat) : ∀ (m : List Bool) (k : Nat),
    (mark m is)[k]? = if k ∈ is then m[k]?.map (fun _ => true) else m[k]? := by
  unfold mark
  induction is with
  | nil => intro m k; simp
  | cons i is ih =>
    intro m k
    rw [List.foldl_cons, ih]
    rcases eq_or_ne k i with rfl | hne
    · rw [List.getElem?_set_self']
      rcases m[k]? with _ | b <;> simp
    · rw [List.getElem?_set_ne (Ne.symm hne)]
      simp [hne]

theorem mem_whereTrue {m : List Bool} {k : Nat} : k ∈ whereTrue m ↔ m[k]? = some true := by
  unfold whereTrue
  simp only [List.mem_filter, List.mem_range]
  rw [List.getD_eq_getElem?_getD]
  constructor
  · rintro ⟨h, h2⟩
    rw [List.getElem?_eq_getElem h] at h2 ⊢
    simpa using h2
  · intro h
    exact ⟨(List.getElem?_eq_some_iff.1 h).1, by rw [h]; rfl⟩

theorem whereTrue_sorted (m : List Bool) : (whereTrue m).Pairwise (· < ·) :=
  List.Pairwise.sublist List.filter_sublist List.pairwise_lt_range

theorem mem_reached {argsort : List Num → List Nat} {rho : List (List Num)} {thr : Num}
    {m i f : Nat} : f ∈ reached argsort rho thr m i ↔
      ∃ j < m, Num.le thr (entry rho i j) = true ∧ ranked argsort rho i j = f := by
  unfold reached
  simp only [List.mem_map, List.mem_filter, List.mem_range]
  constructor
  · rintro ⟨j, ⟨h1, h2⟩, h3⟩
    exact ⟨j, h1, h2, h3⟩
  · rintro ⟨j, h1, h2, h3⟩
    exact ⟨j, ⟨h1, h2⟩, h3⟩

theorem foldl_mark (g : Nat → List Nat) (is : List Nat) : ∀ (m : List Bool) (k : Nat),
    (is.foldl (fun m i => mark m (g i)) m)[k]? = some true ↔
      m[k]? = some true ∨ (k < m.length ∧ ∃ i ∈ is, k ∈ g i) := by
  induction is with
  | nil => intro m k; simp
  | cons i is ih =>
    intro m k
    rw [List.foldl_cons, ih, mark_get, mark_length]
    by_cases h : k ∈ g i
    · rw [if_pos h]
      constructor
      · rintro (h2 | ⟨h2, h3⟩)
        · refine .inr ⟨?_, i, List.mem_cons_self, h⟩
          by_contra hc
          rw [List.getElem?_eq_none (by omega)] at h2
          cases h2
        · exact .inr ⟨h2, i, List.mem_cons_self, h⟩
      · rintro (h2 | ⟨h2, h3⟩)
        · left
          rw [h2]
          rfl
        · left
          rw [List.getElem?_eq_getElem h2]
          rfl
    · rw [if_neg h]
      constructor
      · rintro (h2 | ⟨h2, j, hj, h3⟩)
        · exact .inl h2
        · exact .inr ⟨h2, j, List.mem_cons_of_mem _ hj, h3⟩
      · rintro (h2 | ⟨h2, j, hj, h3⟩)
        · exact .inl h2
        · rcases List.mem_cons.1 hj with rfl | hj
          · exact absurd h3 h
          · exact .inr ⟨h2, j, hj, h3⟩

theorem mem_selectByPerformance {argsort : List Num → List Nat} {rho : List (List Num)} {thr : Num}
    {n m f : Nat} : f ∈ selectByPerformance argsort rho thr n m ↔
      f < n ∧ ((∃ j < m, ranked argsort rho 0 j = f) ∨
        ∃ i < n, ∃ j < m, Num.le thr (entry rho i j) = true ∧ ranked argsort rho i j = f) := by
  unfold selectByPerformance
  simp only
  rw [mem_whereTrue, foldl_mark, mark_get, mark_length]
  simp only [List.mem_map, List.mem_range, List.length_replicate, List.getElem?_replicate,
    mem_reached]
  by_cases hf : f < n
  · simp only [hf, if_true, true_and, Option.map_some]
    constructor
    · rintro (h | h)
      · left
        by_contra hc
        simp [hc] at h
      · exact .inr h
    · rintro (h | h)
      · left
        simp [h]
      · exact .inr h
  · simp [hf]

theorem selectByPerformance_sorted (argsort : List Num → List Nat) (rho : List (List Num))
    (thr : Num) (n m : Nat) : (selectByPerformance argsort rho thr n m).Pairwise (· < ·) :=
  whereTrue_sorted _

/-! ### Picking -/

theorem pick_get {α : Type} {l : List α} : ∀ {is : List Nat}, (∀ i ∈ is, i < l.length) →
    (pick l is).length = is.length ∧ ∀ j i : Nat, is[j]? = some i → (pick l is)[j]? = l[i]?
  | [], _ => by simp [pick]
  | a :: is, h => by
      obtain ⟨h1, h2⟩ := pick_get (l := l) (is := is) fun i hi => h i (List.mem_cons_of_mem _ hi)
      have ha : l[a]? = some (l[a]'(h a List.mem_cons_self)) := List.getElem?_eq_getElem (h a List.mem_cons_self)
      have e : pick l (a :: is) = l[a]'(h a List.mem_cons_self) :: pick l is := by
        simp only [pick, List.filterMap_cons, ha]
      rw [e]
      refine ⟨by simp [h1], ?_⟩
      intro j i hj
      rcases j with _ | j
      · simp at hj
        subst hj
        simp [ha]
      · simpa using h2 j i (by simpa using hj)

theorem maskPick_sublist {α : Type} : ∀ (l : List α) (m : List Bool), (maskPick l m).Sublist l
  | [], m => by cases m <;> simp [maskPick]
  | a :: l, [] => by simp [maskPick]
  | a :: l, b :: m => by
      unfold maskPick
      split
      · exact (maskPick_sublist l m).cons_cons a
      · exact (maskPick_sublist l m).cons a

theorem whereTrue_cons (b : Bool) (m : List Bool) :
    whereTrue (b :: m) = (if b then [0] else []) ++ (whereTrue m).map (· + 1) := by
  unfold whereTrue
  rw [List.length_cons, List.range_succ_eq_map, List.filter_cons]
  have : ((List.range m.length).map Nat.succ).filter (fun i => (b :: m).getD i false) =
      ((List.range m.length).filter fun i => m.getD i false).map (· + 1) := by
    rw [List.filter_map]
    congr 1
  rw [this]
  cases b <;> simp

theorem maskPick_eq {α : Type} : ∀ (l : List α) (m : List Bool), m.length = l.length →
    maskPick l m = pick l (whereTrue m)
  | [], [], _ => by simp [maskPick, pick]
  | a :: l, [], h => by simp at h
  | [], b :: m, h => by simp at h
  | a :: l, b :: m, h => by
      unfold maskPick
      rw [whereTrue_cons, maskPick_eq l m (by simpa using h)]
      unfold pick
      rw [List.filterMap_append, List.filterMap_map]
      cases b <;> simp

/-! ### Decoding -/

/-- The features chosen by a chromosome, cluster by cluster. -/
def choices (labels : List Nat) : Nat → List Int → Option (List Nat)
  | _, [] => some []
  | c, v :: vs =>
    match choose labels c v, choices labels (c + 1) vs with
    | some f, some fs => some (f :: fs)
    | _, _ => none

theorem mem_members {labels : List Nat} {c i : Nat} : i ∈ members labels c ↔ labels[i]? = some c := by
  unfold members
  rw [mem_whereTrue, List.getElem?_map]
  rcases labels[i]? with _ | l <;> simp

theorem choose_mem {labels : List Nat} {c f : Nat} {v : Int} (h : choose labels c v = some f) :
    labels[f]? = some c := mem_members.1 (List.mem_of_getElem? h)

theorem choose_isSome {labels : List Nat} {c : Nat} (v : Int) (h : c ∈ labels) :
    ∃ f, choose labels c v = some f := by
  obtain ⟨i, hi⟩ := List.mem_iff_getElem?.1 h
  have hm : 0 < (members labels c).length := List.length_pos_of_mem (mem_members.2 hi)
  have : (v % ((members labels c).length : Int)).toNat < (members labels c).length := by
    have h1 := Int.emod_lt_of_pos v (b := ((members labels c).length : Int)) (by exact_mod_cast hm)
    have h2 := Int.emod_nonneg v (b := ((members labels c).length : Int)) (by omega)
    omega
  exact ⟨_, List.getElem?_eq_getElem this⟩

theorem choices_spec {labels : List Nat} : ∀ {vs : List Int} {c : Nat} {fs : List Nat},
    choices labels c vs = some fs →
      fs.length = vs.length ∧ ∀ (j f : Nat), fs[j]? = some f → labels[f]? = some (c + j)
  | [], c, fs, h => by
      simp [choices] at h
      subst h
      simp
  | v :: vs, c, fs, h => by
      unfold choices at h
      split at h
      · rename_i f fs' hf hfs
        injection h with h
        subst h
        obtain ⟨h1, h2⟩ := choices_spec hfs
        refine ⟨by simp [h1], ?_⟩
        intro j g hj
        rcases j with _ | j
        · simp at hj
          subst hj
          simpa using choose_mem hf
        · have := h2 j g (by simpa using hj)
          rw [this]
          congr 1
          omega
      · cases h

theorem choices_nodup {labels : List Nat} {vs : List Int} {c : Nat} {fs : List Nat}
    (h : choices labels c vs = some fs) : fs.Nodup := by
  rw [List.nodup_iff_injective_get]
  rintro ⟨a, ha⟩ ⟨b, hb⟩ hab
  obtain ⟨_, h2⟩ := choices_spec h
  have ea := h2 a fs[a] (List.getElem?_eq_getElem ha)
  have eb := h2 b fs[b] (List.getElem?_eq_getElem hb)
  have : fs[a] = fs[b] := hab
  rw [this, eb] at ea
  simp at ea
  ext
  simpa using ea.symm

theorem choices_lt {labels : List Nat} {vs : List Int} {c : Nat} {fs : List Nat}
    (h : choices labels c vs = some fs) : ∀ f ∈ fs, f < labels.length := by
  intro f hf
  obtain ⟨j, hj⟩ := List.mem_iff_getElem?.1 hf
  exact (List.getElem?_eq_some_iff.1 ((choices_spec h).2 j f hj)).1

theorem choices_total {labels : List Nat} : ∀ (vs : List Int) (c : Nat),
    (∃ fs, choices labels c vs = some fs) ↔ ∀ j < vs.length, c + j ∈ labels
  | [], c => by simp [choices]
  | v :: vs, c => by
      constructor
      · rintro ⟨fs, h⟩ j hj
        obtain ⟨h1, h2⟩ := choices_spec h
        have hj' : j < fs.length := by omega
        exact List.mem_of_getElem? (h2 j fs[j] (List.getElem?_eq_getElem hj'))
      · intro h
        obtain ⟨f, hf⟩ := choose_isSome v (by simpa using h 0 (by simp))
        obtain ⟨fs, hfs⟩ := (choices_total vs (c + 1)).2 (by
          intro j hj
          have := h (j + 1) (by simpa using hj)
          rwa [show c + 1 + j = c + (j + 1) by omega])
        exact ⟨f :: fs, by simp [choices, hf, hfs]⟩

theorem costMask_eq {labels : List Nat} : ∀ {vs : List Int} {c : Nat} {mask : List Bool},
    labels.length ≤ mask.length →
      costMask labels c vs mask = match choices labels c vs with
        | some fs => .ok (mark mask fs)
        | none => .error .indexError
  | [], c, mask, _ => by simp [costMask, choices, mark]
  | v :: vs, c, mask, hl => by
      unfold costMask choices
      rcases hf : choose labels c v with _ | f
      · simp
      · have hlt : f < mask.length :=
          lt_of_lt_of_le (List.getElem?_eq_some_iff.1 (choose_mem hf)).1 hl
        simp only [hlt, if_true]
        rw [costMask_eq (by simpa using hl)]
        rcases choices labels (c + 1) vs with _ | fs
        · rfl
        · rfl

theorem decodeMask_eq {labels : List Nat} {best : List Int} : ∀ (vs pre : List Int)
    (mask : List Bool), best = pre ++ vs →
      decodeMask labels best (List.range' pre.length vs.length) mask =
        match choices labels pre.length vs with
        | some fs => .ok (mark mask fs)
        | none => .error .zeroDivision
  | [], pre, mask, _ => by simp [decodeMask, choices, mark]
  | v :: vs, pre, mask, h => by
      rw [List.length_cons, List.range'_succ]
      unfold decodeMask choices
      have hv : best[pre.length]? = some v := by
        rw [h]
        simp
      rw [hv]
      simp only
      rcases hf : choose labels pre.length v with _ | f
      · simp
      · simp only
        have := decodeMask_eq (labels := labels) (best := best) vs (pre ++ [v]) (mask.set f true) (by simp [h])
        rw [List.length_append, List.length_singleton] at this
        rw [this]
        rcases choices labels (pre.length + 1) vs with _ | fs
        · rfl
        · rfl

theorem whereTrue_mark {n : Nat} {fs : List Nat} :
    whereTrue (mark (List.replicate n false) fs) = (List.range n).filter (· ∈ fs) := by
  unfold whereTrue
  rw [mark_length, List.length_replicate]
  apply List.filter_congr
  intro i hi
  rw [List.getD_eq_getElem?_getD, mark_get, List.getElem?_replicate]
  simp only [List.mem_range] at hi
  by_cases h : i ∈ fs <;> simp [h, hi]

theorem filter_range_eq {m n : Nat} {fs : List Nat} (hmn : m ≤ n) (h : ∀ f ∈ fs, f < m) :
    (List.range n).filter (· ∈ fs) = (List.range m).filter (· ∈ fs) := by
  obtain ⟨d, rfl⟩ := Nat.exists_eq_add_of_le hmn
  rw [List.range_add, List.filter_append]
  have : ((List.range d).map (m + ·)).filter (· ∈ fs) = [] := by
    apply List.filter_eq_nil_iff.2
    intro a ha
    obtain ⟨b, _, rfl⟩ := List.mem_map.1 ha
    simp only [decide_eq_true_eq]
    intro hc
    have := h _ hc
    omega
  rw [this, List.append_nil]

/-- Success and result of the decoding. -/
theorem decode_eq {labels : List Nat} {k : Nat} {selvars : List Nat} {best : List Int}
    (hk : best.length = k) :
    decode labels k selvars best = match choices labels 0 best with
      | some fs => .ok (pick selvars ((List.range selvars.length).filter (· ∈ fs)))
      | none => .error .zeroDivision := by
  unfold decode
  have := decodeMask_eq (labels := labels) (best := best) best [] (List.replicate selvars.length false)
    (by simp)
  rw [List.length_nil, hk, ← List.range_eq_range'] at this
  rw [this]
  rcases choices labels 0 best with _ | fs
  · rfl
  · simp only
    rw [maskPick_eq _ _ (by rw [mark_length]; simp), whereTrue_mark]

theorem costFeatures_eq {labels : List Nat} {n : Nat} {sol : List Int} (hn : labels.length ≤ n) :
    costFeatures labels n sol = match choices labels 0 sol with
      | some fs => .ok ((List.range labels.length).filter (· ∈ fs))
      | none => .error .indexError := by
  unfold costFeatures
  rw [costMask_eq (by simpa using hn)]
  rcases h : choices labels 0 sol with _ | fs
  · rfl
  · simp only
    rw [whereTrue_mark, filter_range_eq hn (choices_lt h)]

/-! ### The whole stage -/

theorem sifted_aligned {α : Type} {lib : Lib} {rho : List (List Num)} {thr : Num} {k nalgos : Nat}
    {x : List α} {labels : List String} {dense : Bool} {out : Out α}
    (hl : labels.length = x.length)
    (h : sifted lib rho thr k nalgos x labels dense = .ok out) : Aligned x labels out := by
  have base : ∀ (sel : List Nat) (idx : List Nat) (s : Option (List ℚ)) (c : Option (List (List Bool))),
      sel.Pairwise (· < ·) → (∀ i ∈ sel, i < x.length) →
        Aligned x labels ⟨pick x sel, pick labels sel, sel, idx, s, c⟩ := by
    intro sel idx s c hs hr
    obtain ⟨a1, a2⟩ := pick_get (l := x) hr
    obtain ⟨b1, b2⟩ := pick_get (l := labels) (is := sel) (by rw [hl]; exact hr)
    exact ⟨hs, hr, a1, b1, fun j i hj => ⟨a2 j i hj, b2 j i hj⟩⟩
  have hsel : ∀ i ∈ selectByPerformance lib.argsort rho thr x.length nalgos, i < x.length :=
    fun i hi => (mem_selectByPerformance.1 hi).1
  unfold sifted at h
  simp only at h
  split at h
  · cases h
  split at h
  · injection h with h
    subst h
    refine ⟨List.pairwise_lt_range, fun i hi => List.mem_range.1 hi, by simp, by simp [hl], ?_⟩
    intro j i hj
    have hlt := (List.getElem?_eq_some_iff.1 hj).1
    simp only [List.length_range] at hlt
    rw [List.getElem?_range hlt] at hj
    injection hj with hj
    subst hj
    exact ⟨rfl, rfl⟩
  split at h
  · cases h
  split at h
  · injection h with h
    subst h
    exact base _ _ _ _ (selectByPerformance_sorted _ _ _ _ _) hsel
  split at h
  · cases h
  split at h
  · cases h
  split at h
  · cases h
  rename_i sel hdec
  split at h
  · cases h
  injection h with h
  subst h
  unfold decode at hdec
  split at hdec
  · cases hdec
  injection hdec with hdec
  subst hdec
  have hsub := maskPick_sublist (selectByPerformance lib.argsort rho thr x.length nalgos)
  exact base _ _ _ _ ((selectByPerformance_sorted _ _ _ _ _).sublist (hsub _))
    fun i hi => hsel i ((hsub _).subset hi)

end Verif.Sifted
