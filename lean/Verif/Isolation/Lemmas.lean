import Verif.Isolation.Spec
/-! Helper lemmas about deep copies. -/
set_option autoImplicit false
set_option linter.unusedSectionVars false

namespace Verif.Isolation

theorem visit_seen (h : Heap) (stack seen : List Nat) : ∀ a ∈ seen, a ∈ visit h stack seen := by
  fun_induction visit h stack seen with
  | case1 seen => exact fun a ha => ha
  | case2 seen b rest hc ih => exact ih
  | case3 seen b rest hc ih => exact fun a ha => ih a (List.mem_cons_of_mem _ ha)

theorem visit_stack (h : Heap) (stack seen : List Nat) :
    ∀ a ∈ stack, a < h.next → a ∈ visit h stack seen := by
  fun_induction visit h stack seen with
  | case1 seen => simp
  | case2 seen b rest hc ih =>
    intro a ha hlt
    rcases List.mem_cons.1 ha with rfl | ha
    · rcases hc with hc | hc
      · exact visit_seen h rest seen a hc
      · omega
    · exact ih a ha hlt
  | case3 seen b rest hc ih =>
    intro a ha hlt
    rcases List.mem_cons.1 ha with rfl | ha
    · exact visit_seen h _ _ a List.mem_cons_self
    · exact ih a (List.mem_append_right _ ha) hlt

theorem visit_nodup (h : Heap) (stack seen : List Nat) (hs : seen.Nodup) :
    (visit h stack seen).Nodup := by
  fun_induction visit h stack seen with
  | case1 seen => exact hs
  | case2 seen b rest hc ih => exact ih hs
  | case3 seen b rest hc ih =>
    exact ih (List.nodup_cons.2 ⟨fun hb => hc (.inl hb), hs⟩)

theorem visit_lt (h : Heap) (stack seen : List Nat) (hs : ∀ a ∈ seen, a < h.next) :
    ∀ a ∈ visit h stack seen, a < h.next := by
  fun_induction visit h stack seen with
  | case1 seen => exact hs
  | case2 seen b rest hc ih => exact ih hs
  | case3 seen b rest hc ih =>
    refine ih fun a ha => ?_
    rcases List.mem_cons.1 ha with rfl | ha
    · exact Nat.lt_of_not_le fun hle => hc (.inr hle)
    · exact hs a ha

theorem visit_closed (h : Heap) (stack seen : List Nat)
    (hs : ∀ a ∈ seen, ∀ r ∈ (h.obj a).refs, r < h.next → r ∈ seen ∨ r ∈ stack) :
    ∀ a ∈ visit h stack seen, ∀ r ∈ (h.obj a).refs, r < h.next → r ∈ visit h stack seen := by
  fun_induction visit h stack seen with
  | case1 seen =>
    intro a ha r hr hlt
    rcases hs a ha r hr hlt with h | h
    · exact h
    · simp at h
  | case2 seen b rest hc ih =>
    refine ih fun a ha r hr hlt => ?_
    rcases hs a ha r hr hlt with h | h
    · exact .inl h
    · rcases List.mem_cons.1 h with rfl | h
      · rcases hc with hc | hc
        · exact .inl hc
        · omega
      · exact .inr h
  | case3 seen b rest hc ih =>
    refine ih fun a ha r hr hlt => ?_
    rcases List.mem_cons.1 ha with rfl | ha
    · exact .inr (List.mem_append_left _ hr)
    · rcases hs a ha r hr hlt with h | h
      · exact .inl (List.mem_cons_of_mem _ h)
      · rcases List.mem_cons.1 h with rfl | h
        · exact .inl List.mem_cons_self
        · exact .inr (List.mem_append_right _ h)

theorem visit_reach (h : Heap) (stack seen roots : List Nat)
    (hst : ∀ a ∈ stack, Reach h roots a) :
    ∀ a ∈ visit h stack seen, a ∈ seen ∨ Reach h roots a := by
  fun_induction visit h stack seen with
  | case1 seen => exact fun a ha => .inl ha
  | case2 seen b rest hc ih => exact ih fun a ha => hst a (List.mem_cons_of_mem _ ha)
  | case3 seen b rest hc ih =>
    intro a ha
    have hb := hst b List.mem_cons_self
    rcases ih (fun a ha => by
      rcases List.mem_append.1 ha with h | h
      · exact .ref hb h
      · exact hst a (List.mem_cons_of_mem _ h)) a ha with h | h
    · rcases List.mem_cons.1 h with rfl | h
      · exact .inr hb
      · exact .inl h
    · exact .inr h

variable {h : Heap} {roots : List Nat}

theorem copied_nodup : (copied h roots).Nodup :=
  (List.reverse_perm _).nodup_iff.2 (visit_nodup h roots [] List.nodup_nil)

theorem copied_lt {a : Nat} (ha : a ∈ copied h roots) : a < h.next :=
  visit_lt h roots [] (by simp) a (List.mem_reverse.1 ha)

theorem copied_root {a : Nat} (ha : a ∈ roots) (hlt : a < h.next) : a ∈ copied h roots :=
  List.mem_reverse.2 (visit_stack h roots [] a ha hlt)

theorem copied_ref (hw : h.WF) {a b : Nat} (ha : a ∈ copied h roots) (hb : b ∈ (h.obj a).refs) :
    b ∈ copied h roots :=
  List.mem_reverse.2 (visit_closed h roots [] (by simp) a (List.mem_reverse.1 ha) b hb
    (hw a (copied_lt ha) b hb))

/-- `deepcopy` copies exactly the reachable objects. -/
theorem copied_iff (hw : h.WF) (hr : ∀ a ∈ roots, a < h.next) (a : Nat) :
    a ∈ copied h roots ↔ Reach h roots a := by
  constructor
  · intro ha
    rcases visit_reach h roots [] roots (fun a ha => .root ha) a (List.mem_reverse.1 ha) with h | h
    · simp at h
    · exact h
  · intro ha
    induction ha with
    | root ha => exact copied_root ha (hr _ ha)
    | ref _ hb ih => exact copied_ref hw ih hb

theorem deepcopy_old {b : Nat} (hb : b < h.next) : (deepcopy h roots).1.obj b = h.obj b := by
  simp [deepcopy, hb]

theorem deepcopy_new {a : Nat} (ha : a ∈ copied h roots) :
    (deepcopy h roots).1.obj (rename h roots a) =
      ⟨(h.obj a).data, (h.obj a).refs.map (rename h roots)⟩ := by
  have hi : (copied h roots)[(copied h roots).idxOf a]? = some a := by
    rw [List.getElem?_eq_getElem (List.idxOf_lt_length_iff.2 ha)]
    simp
  simp only [deepcopy, rename]
  rw [if_neg (by omega)]
  rw [show h.next + (copied h roots).idxOf a - h.next = (copied h roots).idxOf a by omega, hi]

theorem rename_lt {a : Nat} (ha : a ∈ copied h roots) :
    rename h roots a < (deepcopy h roots).1.next := by
  have := List.idxOf_lt_length_iff.2 ha
  simp only [deepcopy, rename]
  omega

/-- Every address from `h.next` on that exists after the copy is the copy of some object. -/
theorem deepcopy_fresh {b : Nat} (h1 : h.next ≤ b) (h2 : b < (deepcopy h roots).1.next) :
    ∃ a ∈ copied h roots, b = rename h roots a := by
  simp only [deepcopy] at h2
  have hlt : b - h.next < (copied h roots).length := by omega
  refine ⟨(copied h roots)[b - h.next], List.getElem_mem _, ?_⟩
  unfold rename
  rw [List.Nodup.idxOf_getElem copied_nodup]
  omega

theorem deepcopy_wf (hw : h.WF) : (deepcopy h roots).1.WF := by
  intro b hb c hc
  by_cases hlt : b < h.next
  · rw [deepcopy_old hlt] at hc
    have := hw b hlt c hc
    exact Nat.lt_of_lt_of_le this (Nat.le_add_right _ _)
  · obtain ⟨a, ha, rfl⟩ := deepcopy_fresh (Nat.le_of_not_lt hlt) hb
    rw [deepcopy_new ha] at hc
    obtain ⟨r, hr', rfl⟩ := List.mem_map.1 hc
    exact rename_lt (copied_ref hw ha hr')

/-- From the copies only copies can be reached. -/
theorem reach_copies (hw : h.WF) (hr : ∀ a ∈ roots, a < h.next) {b : Nat}
    (hb : Reach (deepcopy h roots).1 (deepcopy h roots).2 b) :
    ∃ a ∈ copied h roots, b = rename h roots a := by
  induction hb with
  | root hm =>
    obtain ⟨a, ha, rfl⟩ := List.mem_map.1 hm
    exact ⟨a, copied_root ha (hr a ha), rfl⟩
  | ref _ hc ih =>
    obtain ⟨a, ha, rfl⟩ := ih
    rw [deepcopy_new ha] at hc
    obtain ⟨r, hr', rfl⟩ := List.mem_map.1 hc
    exact ⟨r, copied_ref hw ha hr', rfl⟩

theorem view_congr {h h' : Heap} (hw : h.WF) (hsame : ∀ a < h.next, h'.obj a = h.obj a) (n : Nat) :
    ∀ a < h.next, view h' n a = view h n a := by
  induction n with
  | zero => intro a _; rfl
  | succ n ih =>
    intro a ha
    simp only [view, hsame a ha]
    congr 1
    apply List.map_congr_left
    intro r hr
    exact ih r (hw a ha r hr)

theorem view_copy (hw : h.WF) (n : Nat) :
    ∀ a ∈ copied h roots, view (deepcopy h roots).1 n (rename h roots a) = view h n a := by
  induction n with
  | zero => intro a _; rfl
  | succ n ih =>
    intro a ha
    simp only [view, deepcopy_new ha, List.map_map]
    congr 1
    apply List.map_congr_left
    intro r hr
    exact ih r (copied_ref hw ha hr)

theorem lookups_lt {N : Type} {held : N → Option Nat} {b : Nat}
    (hh : ∀ n a, held n = some a → a < b) (ns : List N) :
    ∀ rs, lookups held ns = some rs → ∀ a ∈ rs, a < b := by
  induction ns with
  | nil => intro rs h a ha; cases h; simp at ha
  | cons n ns ih =>
    intro rs h a ha
    unfold lookups at h
    split at h
    · rename_i x xs h1 h2
      cases h
      rcases List.mem_cons.1 ha with rfl | ha
      · exact hh n _ h1
      · exact ih _ h2 a ha
    · cases h

theorem store_lt {N : Type} [DecidableEq N] {b : Nat} (l : List (N × Nat)) :
    ∀ held : N → Option Nat, (∀ n a, held n = some a → a < b) → (∀ p ∈ l, p.2 < b) →
      ∀ n a, store held l n = some a → a < b := by
  induction l with
  | nil => intro held hh _ n a h; exact hh n a h
  | cons p l ih =>
    obtain ⟨k, v⟩ := p
    intro held hh hl n a h
    refine ih _ ?_ (fun q hq => hl q (List.mem_cons_of_mem _ hq)) n a h
    intro m x hx
    split at hx
    · cases hx; exact hl (k, v) List.mem_cons_self
    · exact hh m x hx

/-- One step keeps the memory well formed and changes no existing object. -/
theorem step_frame {N : Type} [DecidableEq N] {m : Mem N} (hm : m.WF) {op : Op N}
    (hc : OpConfined op) :
    (step m op).WF ∧ m.heap.next ≤ (step m op).heap.next ∧
      ∀ a < m.heap.next, (step m op).heap.obj a = m.heap.obj a := by
  cases op with
  | stage body fields outs =>
    unfold step
    simp only
    split
    · exact ⟨hm, Nat.le_refl _, fun _ _ => rfl⟩
    · rename_i roots hroots
      have hr := lookups_lt hm.2 fields roots hroots
      have hw := deepcopy_wf (roots := roots) hm.1
      have hnext : m.heap.next ≤ (deepcopy m.heap roots).1.next := Nat.le_add_right _ _
      have hr2 : ∀ a ∈ (deepcopy m.heap roots).2, a < (deepcopy m.heap roots).1.next := by
        intro a ha
        obtain ⟨b, hb, rfl⟩ := List.mem_map.1 ha
        exact rename_lt (copied_root hb (hr b hb))
      obtain ⟨c1, c2, c3, c4⟩ := hc _ _ hw hr2
      have hframe : ∀ a < m.heap.next,
          (body (deepcopy m.heap roots).1 (deepcopy m.heap roots).2).1.obj a = m.heap.obj a := by
        intro a ha
        rw [c3 a (Nat.lt_of_lt_of_le ha hnext), deepcopy_old ha]
        intro hreach
        obtain ⟨b, hb, rfl⟩ := reach_copies hm.1 hr hreach
        simp only [rename] at ha
        omega
      have hle := Nat.le_trans hnext c2
      split
      · exact ⟨⟨c1, fun n a h => Nat.lt_of_lt_of_le (hm.2 n a h) hle⟩, hle, hframe⟩
      · rename_i vs hvs
        refine ⟨⟨c1, store_lt _ _ (fun n a h => Nat.lt_of_lt_of_le (hm.2 n a h) hle) ?_⟩, hle, hframe⟩
        intro p hp
        exact c4 vs hvs p.2 (List.of_mem_zip hp).2
  | new name data refs =>
    unfold step
    simp only
    split
    · exact ⟨hm, Nat.le_refl _, fun _ _ => rfl⟩
    · rename_i rs hrs
      have hr := lookups_lt hm.2 refs rs hrs
      refine ⟨⟨?_, ?_⟩, Nat.le_succ _, ?_⟩
      · intro a ha b hb
        simp only at ha hb ⊢
        split at hb
        · exact Nat.lt_succ_of_lt (hr b hb)
        · exact Nat.lt_succ_of_lt (hm.1 a (by omega) b hb)
      · intro n a h
        simp only at h ⊢
        split at h
        · cases h; exact Nat.lt_succ_self _
        · exact Nat.lt_succ_of_lt (hm.2 n a h)
      · intro a ha
        simp only
        rw [if_neg (by omega)]

theorem steps_frame {N : Type} [DecidableEq N] (ops : List (Op N)) : ∀ {m : Mem N}, m.WF →
    (∀ op ∈ ops, OpConfined op) →
    (ops.foldl step m).WF ∧ m.heap.next ≤ (ops.foldl step m).heap.next ∧
      ∀ a < m.heap.next, (ops.foldl step m).heap.obj a = m.heap.obj a := by
  induction ops with
  | nil => intro m hm _; exact ⟨hm, Nat.le_refl _, fun _ _ => rfl⟩
  | cons op ops ih =>
    intro m hm hc
    obtain ⟨h1, h2, h3⟩ := step_frame hm (hc op List.mem_cons_self)
    obtain ⟨g1, g2, g3⟩ := ih h1 fun o ho => hc o (List.mem_cons_of_mem _ ho)
    exact ⟨g1, Nat.le_trans h2 g2, fun a ha => (g3 a (Nat.lt_of_lt_of_le ha h2)).trans (h3 a ha)⟩

end Verif.Isolation
