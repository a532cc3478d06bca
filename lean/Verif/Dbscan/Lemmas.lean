import Verif.Dbscan.Model
import Verif.Dbscan.Spec
import Mathlib.Tactic.Common
/-!
# Lemmas about the clustering
-/
set_option autoImplicit false
set_option linter.unusedSectionVars false

namespace Verif.Dbscan

variable {near : Nat → Nat → Bool} {m k : Nat}

theorem mem_neigh {i p : Nat} : p ∈ neigh near m i ↔ p < m ∧ near i p = true := by
  simp [neigh]

theorem neigh_length (i : Nat) : (neigh near m i).length =
    ((Finset.range m).filter fun r => near i r = true).card := by
  unfold neigh
  induction m with
  | zero => rfl
  | succ m ih =>
    rw [List.range_succ, List.filter_append, List.length_append, ih, Finset.range_add_one,
      Finset.filter_insert]
    by_cases h : near i m = true
    · simp [h]
    · simp [h]

theorem core_iff (q : Nat) : Core near m k q ↔ k + 1 ≤ (neigh near m q).length := by
  unfold Core; rw [neigh_length]

/-- The number of untouched points. -/
def untouched (m : Nat) (t : Nat → Bool) : Nat := ((Finset.range m).filter fun p => t p = false).card

theorem untouched_upd (t : Nat → Bool) (j : Nat) (hj : j < m) (h : t j = false) :
    untouched m (upd t j true) + 1 = untouched m t := by
  unfold untouched
  have : ((Finset.range m).filter fun p => upd t j true p = false) =
      ((Finset.range m).filter fun p => t p = false).erase j := by
    ext p
    simp only [Finset.mem_filter, Finset.mem_range, Finset.mem_erase, upd]
    by_cases hp : p = j
    · simp [hp]
    · simp [hp]
  rw [this, Finset.card_erase_of_mem (by simp [hj, h])]
  have : 0 < ((Finset.range m).filter fun p => t p = false).card :=
    Finset.card_pos.2 ⟨j, by simp [hj, h]⟩
  omega

theorem untouched_le_upd (t : Nat → Bool) (j : Nat) :
    untouched m (upd t j true) ≤ untouched m t := by
  unfold untouched
  apply Finset.card_le_card
  intro p
  simp only [Finset.mem_filter, Finset.mem_range, upd]
  by_cases hp : p = j
  · simp [hp]
  · simp [hp]

/-- What the loop over the neighbours does. -/
theorem visit_spec : ∀ (js list : List Nat) (s : St), (∀ j ∈ js, j < m) →
    let r := visit js list s
    r.2.no = s.no ∧
    (∀ p, r.2.touched p = (s.touched p || decide (p ∈ js))) ∧
    (∀ p, r.2.classes p = if p ∈ js ∧ s.touched p = false then (s.no : Int) else s.classes p) ∧
    (∀ p, p ∈ r.1 ↔ p ∈ list ∨ (p ∈ js ∧ s.touched p = false)) ∧
    untouched m r.2.touched + r.1.length ≤ untouched m s.touched + list.length := by
  intro js
  induction js with
  | nil => intro list s _; simp [visit]
  | cons j js ih =>
    intro list s hlt
    rw [visit]
    by_cases ht : s.touched j = false
    · rw [if_pos ht]
      obtain ⟨h1, h2, h3, h4, h5⟩ := ih (list ++ [j])
        { s with touched := upd s.touched j true, classes := upd s.classes j s.no }
        (fun j' hj' => hlt j' (List.mem_cons_of_mem _ hj'))
      refine ⟨h1, ?_, ?_, ?_, ?_⟩
      · intro p
        rw [h2]
        simp only [upd, List.mem_cons]
        by_cases hp : p = j
        · simp [hp]
        · simp [hp]
      · intro p
        rw [h3]
        simp only [upd, List.mem_cons]
        by_cases hp : p = j
        · subst hp; simp [ht]
        · simp [hp]
      · intro p
        rw [h4]
        simp only [upd, List.mem_append, List.mem_cons, List.not_mem_nil, or_false]
        by_cases hp : p = j
        · subst hp; simp [ht]
        · simp [hp]
      · have := untouched_upd s.touched j (hlt j List.mem_cons_self) ht
        refine le_trans h5 ?_
        simp only [List.length_append, List.length_singleton]
        omega
    · rw [if_neg ht]
      obtain ⟨h1, h2, h3, h4, h5⟩ := ih list s
        (fun j' hj' => hlt j' (List.mem_cons_of_mem _ hj'))
      have ht' : s.touched j = true := by simpa using ht
      refine ⟨h1, ?_, ?_, ?_, h5⟩
      · intro p
        rw [h2]
        simp only [List.mem_cons]
        by_cases hp : p = j
        · subst hp; simp [ht']
        · simp [hp]
      · intro p
        rw [h3]
        simp only [List.mem_cons]
        by_cases hp : p = j
        · subst hp; simp [ht']
        · simp [hp]
      · intro p
        rw [h4]
        simp only [List.mem_cons]
        by_cases hp : p = j
        · subst hp; simp [ht']
        · simp [hp]

section
variable (hsym : ∀ a b, a < m → b < m → near a b = near b a) (hrefl : ∀ a, a < m → near a a = true)
include hsym hrefl

/-- Invariant of the expansion of the group of `i`, started in the state `s0`. -/
structure Exp (near : Nat → Nat → Bool) (m i : Nat) (s0 : St) (list : List Nat) (s : St) : Prop where
  no : s.no = s0.no
  lt : ∀ p ∈ list, p < m
  listed : ∀ p ∈ list, Linked near m i p ∧ s.classes p = s0.no
  linked : ∀ p, p < m → s.classes p = s0.no → Linked near m i p
  fresh : ∀ p, p < m → s.touched p = true → s0.touched p = true ∨ s.classes p = s0.no
  closed : ∀ p, p < m → s.classes p = s0.no → p ∈ list ∨
    (s.touched p = true ∧ ∀ q, q < m → near p q = true → s.classes q = s0.no)
  kept : ∀ p, p < m → s.classes p = s0.no ∨
    (s.classes p = s0.classes p ∧ s.touched p = s0.touched p)
  seed : s.classes i = s0.no

theorem linked_lt {a b : Nat} (ha : a < m) (h : Linked near m a b) : b < m := by
  induction h with
  | refl => exact ha
  | tail _ hb _ => exact hb.1

theorem linked_symm {a b : Nat} (ha : a < m) (h : Linked near m a b) : Linked near m b a := by
  induction h with
  | refl => exact .refl
  | tail h1 h2 ih =>
    exact .head ⟨linked_lt hsym hrefl ha h1, by
      rw [hsym _ _ h2.1 (linked_lt hsym hrefl ha h1)]; exact h2.2⟩ ih

theorem expand_spec {i : Nat} {s0 : St} (hi : i < m) (hi0 : s0.touched i = false)
    (hcl : ∀ p q, p < m → q < m → s0.touched p = true → near p q = true → s0.touched q = true) :
    ∀ (fuel : Nat) (list : List Nat) (s : St), Exp near m i s0 list s →
      untouched m s.touched + list.length ≤ fuel →
      (expand near m fuel list s).1 = [] ∧ Exp near m i s0 [] (expand near m fuel list s).2 := by
  have hnot : ∀ p, p < m → Linked near m i p → s0.touched p = false := by
    intro p hp hl
    cases hpt : s0.touched p with
    | false => rfl
    | true =>
      exfalso
      have hl' := linked_symm hsym hrefl hi hl
      have : ∀ q, Linked near m p q → q < m ∧ s0.touched q = true := by
        intro q hq
        induction hq with
        | refl => exact ⟨hp, hpt⟩
        | tail _ h2 ih => exact ⟨h2.1, hcl _ _ ih.1 h2.1 ih.2 h2.2⟩
      rw [(this i hl').2] at hi0; cases hi0
  intro fuel
  induction fuel with
  | zero =>
    intro list s h hf
    have : list = [] := List.length_eq_zero_iff.1 (by omega)
    subst this
    exact ⟨rfl, h⟩
  | succ fuel ih =>
    intro list s h hf
    cases list with
    | nil => exact ⟨rfl, h⟩
    | cons c rest =>
      have hc := h.lt c List.mem_cons_self
      obtain ⟨hlc, hcc⟩ := h.listed c List.mem_cons_self
      rw [expand]
      have hut := untouched_le_upd (m := m) s.touched c
      by_cases hlen : 1 < (neigh near m c).length
      · simp only [hlen, if_true]
        obtain ⟨v1, v2, v3, v4, v5⟩ := visit_spec (m := m) (neigh near m c) rest
          { touched := upd s.touched c true,
            classes := setAll s.classes (neigh near m c) s.no, no := s.no }
          (fun j hj => (mem_neigh.1 hj).1)
        have hln : ∀ p, p ∈ neigh near m c → Linked near m i p := fun p hp =>
          .tail hlc (mem_neigh.1 hp)
        -- the classes after the step
        have hcls : ∀ p, (visit (neigh near m c) rest
          { touched := upd s.touched c true,
            classes := setAll s.classes (neigh near m c) s.no, no := s.no }).2.classes p =
            if p ∈ neigh near m c then (s0.no : Int) else s.classes p := by
          intro p
          rw [v3]
          simp only [setAll, h.no]
          by_cases hp : p ∈ neigh near m c
          · simp [hp]
          · simp [hp]
        have hcmem : c ∈ neigh near m c := mem_neigh.2 ⟨hc, hrefl c hc⟩
        apply ih
        · refine ⟨v1.trans h.no, ?_, ?_, ?_, ?_, ?_, ?_, ?_⟩
          · intro p hp
            rcases (v4 p).1 hp with hp | ⟨hp, -⟩
            · exact h.lt p (List.mem_cons_of_mem _ hp)
            · exact (mem_neigh.1 hp).1
          · intro p hp
            rw [hcls]
            rcases (v4 p).1 hp with hp | ⟨hp, -⟩
            · obtain ⟨h1, h2⟩ := h.listed p (List.mem_cons_of_mem _ hp)
              exact ⟨h1, by split <;> [rfl; exact h2]⟩
            · exact ⟨hln p hp, by rw [if_pos hp]⟩
          · intro p hp hpc
            rw [hcls] at hpc
            by_cases hm : p ∈ neigh near m c
            · exact hln p hm
            · rw [if_neg hm] at hpc
              exact h.linked p hp hpc
          · intro p hp hpt
            rw [hcls]
            rw [v2] at hpt
            by_cases hm : p ∈ neigh near m c
            · exact .inr (by rw [if_pos hm])
            · rw [if_neg hm]
              have hpc : p ≠ c := by rintro rfl; exact hm hcmem
              have hpt' : s.touched p = true := by simpa [upd, hpc, hm] using hpt
              exact h.fresh p hp hpt'
          · intro p hp hpc
            rw [hcls] at hpc
            by_cases hpeq : p = c
            · subst hpeq
              refine .inr ⟨by rw [v2]; simp [upd], ?_⟩
              intro q hq hpq
              rw [hcls, if_pos (mem_neigh.2 ⟨hq, hpq⟩)]
            · -- was it already in the group?
              by_cases hold : s.classes p = s0.no
              · rcases h.closed p hp hold with hin | ⟨ht, hn⟩
                · rcases List.mem_cons.1 hin with hin | hin
                  · exact absurd hin hpeq
                  · exact .inl ((v4 p).2 (.inl hin))
                · refine .inr ⟨by rw [v2]; simp [upd, hpeq, ht], ?_⟩
                  intro q hq hpq
                  rw [hcls]
                  split
                  · rfl
                  · exact hn q hq hpq
              · have hm : p ∈ neigh near m c := by
                  by_contra hm
                  rw [if_neg hm] at hpc
                  exact hold hpc
                refine .inl ((v4 p).2 (.inr ⟨hm, ?_⟩))
                show upd s.touched c true p = false
                simp only [upd, hpeq, if_false]
                cases hpt : s.touched p with
                | false => rfl
                | true =>
                  rcases h.fresh p hp hpt with h1 | h1
                  · rw [hnot p hp (hln p hm)] at h1; cases h1
                  · exact absurd h1 hold
          · intro p hp
            rw [hcls]
            by_cases hm : p ∈ neigh near m c
            · exact .inl (by rw [if_pos hm])
            · rw [if_neg hm]
              have hpc : p ≠ c := by rintro rfl; exact hm hcmem
              rcases h.kept p hp with h1 | ⟨h1, h2⟩
              · exact .inl h1
              · refine .inr ⟨h1, ?_⟩
                rw [v2]
                simp [upd, hpc, hm, h2]
          · rw [hcls]
            split
            · rfl
            · exact h.seed
        · have v5' : untouched m _ + _ ≤ untouched m (upd s.touched c true) + rest.length := v5
          simp only [List.length_cons] at hf
          omega
      · simp only [hlen, if_false]
        -- `c` has no other neighbour
        have honly : ∀ q, q < m → near c q = true → q = c := by
          intro q hq hcq
          have h1 : q ∈ neigh near m c := mem_neigh.2 ⟨hq, hcq⟩
          have h2 : c ∈ neigh near m c := mem_neigh.2 ⟨hc, hrefl c hc⟩
          rcases hL : neigh near m c with _ | ⟨x, _ | ⟨y, L⟩⟩
          · rw [hL] at h1; cases h1
          · rw [hL] at h1 h2
            simp only [List.mem_cons, List.not_mem_nil, or_false] at h1 h2
            rw [h1, h2]
          · rw [hL] at hlen; simp at hlen
        apply ih
        · refine ⟨h.no, fun p hp => h.lt p (List.mem_cons_of_mem _ hp),
            fun p hp => h.listed p (List.mem_cons_of_mem _ hp), h.linked, ?_, ?_, ?_, h.seed⟩
          · intro p hp hpt
            by_cases hpc : p = c
            · exact .inr (by rw [hpc]; exact hcc)
            · exact h.fresh p hp (by simpa [upd, hpc] using hpt)
          · intro p hp hpc
            by_cases hpeq : p = c
            · subst hpeq
              refine .inr ⟨by simp [upd], ?_⟩
              intro q hq hpq
              rw [honly q hq hpq]; exact hcc
            · rcases h.closed p hp hpc with hin | ⟨ht, hn⟩
              · rcases List.mem_cons.1 hin with hin | hin
                · exact absurd hin hpeq
                · exact .inl hin
              · exact .inr ⟨by simp [upd, ht], hn⟩
          · intro p hp
            by_cases hpeq : p = c
            · exact .inl (by rw [hpeq]; exact hcc)
            · rcases h.kept p hp with h1 | ⟨h1, h2⟩
              · exact .inl h1
              · exact .inr ⟨h1, by simp [upd, hpeq, h2]⟩
        · show untouched m (upd s.touched c true) + rest.length ≤ fuel
          simp only [List.length_cons] at hf
          omega

/-- Invariant of the loop over the points, after the points below `n`. -/
structure Inv (near : Nat → Nat → Bool) (m k n : Nat) (s : St) : Prop where
  no : 1 ≤ s.no
  closed : ∀ p q, p < m → q < m → s.touched p = true → near p q = true → s.touched q = true
  fresh : ∀ p, p < m → s.touched p = false → s.classes p = 0
  done : ∀ p, p < m → s.touched p = true →
    (s.classes p = -1 ∧ ¬ Clustered near m k p) ∨
    (0 < s.classes p ∧ s.classes p < s.no ∧ Clustered near m k p)
  same : ∀ p q, p < m → q < m → 0 < s.classes p →
    (s.classes q = s.classes p ↔ Linked near m p q)
  hit : ∀ c : Nat, 1 ≤ c → c < s.no → ∃ p, p < m ∧ s.classes p = c
  seen : ∀ p, p < n → p < m → Core near m k p → s.touched p = true

theorem point_inv {n : Nat} {s : St} (hn : n < m) (h : Inv near m k n s) :
    Inv near m k (n + 1) (point near m k s n) := by
  unfold point
  by_cases ht : s.touched n = false
  swap
  · have ht' : s.touched n = true := by simpa using ht
    rw [if_neg ht]
    refine ⟨h.no, h.closed, h.fresh, h.done, h.same, h.hit, ?_⟩
    intro p hp hpm hc
    rcases Nat.lt_succ_iff_lt_or_eq.1 hp with hp | rfl
    · exact h.seen p hp hpm hc
    · exact ht'
  rw [if_pos ht]
  have hself : n ∈ neigh near m n := mem_neigh.2 ⟨hn, hrefl n hn⟩
  have hpos : 1 ≤ (neigh near m n).length := List.length_pos_of_mem hself
  have hc0 : s.classes n = 0 := h.fresh n hn ht
  have hupd0 : upd s.classes n 0 = s.classes := by
    funext p
    unfold upd
    split
    · next hp => rw [hp, hc0]
    · rfl
  by_cases hcore : k + 1 ≤ (neigh near m n).length
  · -- a core point: its group is expanded
    have hncore : ¬ (1 < (neigh near m n).length ∧ (neigh near m n).length < k + 1) := by omega
    simp only [hncore, if_false, hcore, if_true]
    -- the state after the branch for isolated points
    generalize hs1 : (if (neigh near m n).length = 1 then
      ({ s with classes := upd s.classes n (-1), touched := upd s.touched n true } : St) else s) = s1
    have hno1 : s1.no = s.no := by rw [← hs1]; split <;> rfl
    have ht1 : ∀ p, p ≠ n → s1.touched p = s.touched p := by
      intro p hp; rw [← hs1]; split <;> simp [upd, hp]
    have hc1 : ∀ p, p ≠ n → s1.classes p = s.classes p := by
      intro p hp; rw [← hs1]; split <;> simp [upd, hp]
    have hnone : ∀ p, p < m → s.classes p ≠ s.no := by
      intro p hp heq
      cases hpt : s.touched p with
      | false =>
        rw [h.fresh p hp hpt] at heq
        have := h.no
        omega
      | true => rcases h.done p hp hpt with ⟨h1, -⟩ | ⟨h1, h2, -⟩ <;> omega
    have hut : untouched m s1.touched + (neigh near m n).length ≤ 2 * m := by
      have h1 : untouched m s1.touched ≤ m :=
        le_trans (Finset.card_filter_le _ _) (by simp)
      have h2 : (neigh near m n).length ≤ m := by
        unfold neigh; exact le_trans (List.length_filter_le _ _) (by simp)
      omega
    obtain ⟨-, e⟩ := expand_spec hsym hrefl (i := n) (s0 := s) hn ht h.closed (2 * m)
      (neigh near m n)
      { s1 with classes := setAll s1.classes (neigh near m n) s1.no } (by
        have hset : ∀ p, setAll s1.classes (neigh near m n) s1.no p =
            if p ∈ neigh near m n then (s.no : Int) else s.classes p := by
          intro p
          unfold setAll
          rw [hno1]
          by_cases hp : p ∈ neigh near m n
          · simp [hp]
          · have : p ≠ n := by rintro rfl; exact hp hself
            simp [hp, hc1 p this]
        have hin : ∀ p, p < m → setAll s1.classes (neigh near m n) s1.no p = s.no →
            p ∈ neigh near m n := by
          intro p hp hpc
          by_contra hm
          rw [hset, if_neg hm] at hpc
          exact hnone p hp hpc
        refine ⟨hno1, fun p hp => (mem_neigh.1 hp).1, ?_, ?_, ?_, ?_, ?_, ?_⟩
        · intro p hp
          exact ⟨.single (mem_neigh.1 hp), (hset p).trans (if_pos hp)⟩
        · intro p hp hpc
          exact .single (mem_neigh.1 (hin p hp hpc))
        · intro p hp hpt
          by_cases hpn : p = n
          · exact .inr ((hset p).trans (if_pos (hpn ▸ hself)))
          · exact .inl (by rw [← ht1 p hpn]; exact hpt)
        · intro p hp hpc
          exact .inl (hin p hp hpc)
        · intro p hp
          by_cases hm : p ∈ neigh near m n
          · exact .inl ((hset p).trans (if_pos hm))
          · have hpn : p ≠ n := by rintro rfl; exact hm hself
            exact .inr ⟨(hset p).trans (if_neg hm), ht1 p hpn⟩
        · exact (hset n).trans (if_pos hself)) hut
    generalize (expand near m (2 * m) (neigh near m n)
      { s1 with classes := setAll s1.classes (neigh near m n) s1.no }).2 = t at e
    -- the new group is exactly the group of `n`
    have hgrp : ∀ p, p < m → (t.classes p = s.no ↔ Linked near m n p) := by
      intro p hp
      refine ⟨e.linked p hp, ?_⟩
      intro hl
      induction hl with
      | refl => exact e.seed
      | tail h1 h2 ih =>
        have hb := linked_lt hsym hrefl hn h1
        rcases e.closed _ hb (ih hb) with hm | ⟨-, hq⟩
        · cases hm
        · exact hq _ h2.1 h2.2
    have hgt : ∀ p, p < m → t.classes p = s.no → t.touched p = true := by
      intro p hp hpc
      rcases e.closed p hp hpc with hm | ⟨hm, -⟩
      · cases hm
      · exact hm
    have hold : ∀ p, p < m → ¬ Linked near m n p → t.classes p = s.classes p ∧
        t.touched p = s.touched p := by
      intro p hp hl
      rcases e.kept p hp with h1 | h1
      · exact absurd (e.linked p hp h1) hl
      · exact h1
    have hclu : ∀ p, p < m → Linked near m n p → Clustered near m k p := fun p hp hl =>
      ⟨n, linked_symm hsym hrefl hn hl, (core_iff n).2 hcore⟩
    have hsno := h.no
    refine ⟨by show 1 ≤ t.no + 1; omega, ?_, ?_, ?_, ?_, ?_, ?_⟩
    · intro p q hp hq hpt hpq
      by_cases hl : Linked near m n p
      · exact hgt q hq ((hgrp q hq).2 (.tail hl ⟨hq, hpq⟩))
      · have hlq : ¬ Linked near m n q := fun hlq =>
          hl (.tail hlq ⟨hp, by rw [hsym q p hq hp]; exact hpq⟩)
        show t.touched q = true
        rw [(hold q hq hlq).2]
        exact h.closed p q hp hq (by rw [← (hold p hp hl).2]; exact hpt) hpq
    · intro p hp hpt
      by_cases hl : Linked near m n p
      · have : t.touched p = true := hgt p hp ((hgrp p hp).2 hl)
        have hpt : t.touched p = false := hpt
        rw [this] at hpt; cases hpt
      · show t.classes p = 0
        rw [(hold p hp hl).1]
        exact h.fresh p hp (by rw [← (hold p hp hl).2]; exact hpt)
    · intro p hp hpt
      show (t.classes p = -1 ∧ _) ∨ (0 < t.classes p ∧ t.classes p < ((t.no + 1 : Nat) : Int) ∧ _)
      rw [e.no]
      by_cases hl : Linked near m n p
      · refine .inr ⟨?_, ?_, hclu p hp hl⟩ <;> rw [(hgrp p hp).2 hl] <;> omega
      · rw [(hold p hp hl).1]
        rcases h.done p hp (by rw [← (hold p hp hl).2]; exact hpt) with h1 | ⟨h1, h2, h3⟩
        · exact .inl h1
        · exact .inr ⟨h1, by omega, h3⟩
    · intro p q hp hq hpc
      show t.classes q = t.classes p ↔ _
      have hpc : 0 < t.classes p := hpc
      by_cases hl : Linked near m n p
      · rw [(hgrp p hp).2 hl, hgrp q hq]
        exact ⟨fun h => (linked_symm hsym hrefl hn hl).trans h, fun h => hl.trans h⟩
      · have hpold := (hold p hp hl).1
        by_cases hlq : Linked near m n q
        · constructor
          · intro heq
            rw [(hgrp q hq).2 hlq, hpold] at heq
            exact absurd heq.symm (hnone p hp)
          · intro hpq
            exact absurd (hlq.trans (linked_symm hsym hrefl hp hpq)) hl
        · rw [hpold] at hpc
          rw [hpold, (hold q hq hlq).1]
          exact h.same p q hp hq hpc
    · intro c hc1 hc2
      have hc2 : c < t.no + 1 := hc2
      rw [e.no] at hc2
      show ∃ p, p < m ∧ t.classes p = c
      by_cases hcn : c = s.no
      · exact ⟨n, hn, by rw [hcn]; exact e.seed⟩
      · obtain ⟨p, hp, hpc⟩ := h.hit c hc1 (by omega)
        refine ⟨p, hp, ?_⟩
        by_cases hl : Linked near m n p
        · exfalso
          -- `p` was labelled before, so `n` was as well
          have h1 := (h.same p n hp hn (by omega)).2 (linked_symm hsym hrefl hn hl)
          omega
        · rw [(hold p hp hl).1, hpc]
    · intro p hp hpm hc
      show t.touched p = true
      by_cases hl : Linked near m n p
      · exact hgt p hpm ((hgrp p hpm).2 hl)
      · rw [(hold p hpm hl).2]
        rcases Nat.lt_succ_iff_lt_or_eq.1 hp with hp | rfl
        · exact h.seen p hp hpm hc
        · exact absurd Relation.ReflTransGen.refl hl
  · -- not a core point
    have hnc : ¬ Core near m k n := fun hc => hcore ((core_iff n).1 hc)
    simp only [hcore, if_false]
    by_cases hone : (neigh near m n).length = 1
    · simp only [hone, lt_irrefl, false_and, if_false, if_true]
      have honly : ∀ q, q < m → near n q = true → q = n := by
        intro q hq hnq
        have h1 : q ∈ neigh near m n := mem_neigh.2 ⟨hq, hnq⟩
        obtain ⟨x, hx⟩ := List.length_eq_one_iff.1 hone
        rw [hx] at h1 hself
        simp only [List.mem_cons, List.not_mem_nil, or_false] at h1 hself
        rw [h1, hself]
      have hlink : ∀ q, Linked near m n q → q = n := by
        intro q hq
        induction hq with
        | refl => rfl
        | tail _ h2 ih => exact honly _ h2.1 (ih ▸ h2.2)
      refine ⟨h.no, ?_, ?_, ?_, ?_, ?_, ?_⟩
      · intro p q hp hq hpt hpq
        show upd s.touched n true q = true
        unfold upd
        split
        · rfl
        · next hqn =>
          have hpn : p ≠ n := by rintro rfl; exact hqn (honly q hq hpq)
          exact h.closed p q hp hq (by simpa [upd, hpn] using hpt) hpq
      · intro p hp hpt
        have hpn : p ≠ n := by rintro rfl; simp [upd] at hpt
        have : s.touched p = false := by simpa [upd, hpn] using hpt
        show upd s.classes n (-1) p = 0
        simpa [upd, hpn] using h.fresh p hp this
      · intro p hp hpt
        by_cases hpn : p = n
        · refine .inl ⟨by simp [upd, hpn], ?_⟩
          rintro ⟨q, hq, hqc⟩
          rw [hpn] at hq
          rw [hlink q hq] at hqc
          exact hnc hqc
        · have hpt' : s.touched p = true := by simpa [upd, hpn] using hpt
          simpa [upd, hpn] using h.done p hp hpt'
      · intro p q hp hq hpc
        have hpn : p ≠ n := by rintro rfl; simp [upd] at hpc
        have hpc' : 0 < s.classes p := by simpa [upd, hpn] using hpc
        by_cases hqn : q = n
        · have h1 : ¬ Linked near m p n := fun hl =>
            hpn (hlink p (linked_symm hsym hrefl hp hl))
          rw [hqn]
          simp only [upd, hpn, if_true, if_false, h1, iff_false]
          omega
        · simpa [upd, hpn, hqn] using h.same p q hp hq hpc'
      · intro c hc1 hc2
        obtain ⟨p, hp, hpc⟩ := h.hit c hc1 hc2
        have hpn : p ≠ n := by rintro rfl; omega
        exact ⟨p, hp, by simpa [upd, hpn] using hpc⟩
      · intro p hp hpm hc
        show upd s.touched n true p = true
        unfold upd
        split
        · rfl
        · next hpn => exact h.seen p (by omega) hpm hc
    · have h1 : 1 < (neigh near m n).length ∧ (neigh near m n).length < k + 1 := by omega
      simp only [h1, and_self, if_true, hone, if_false, hupd0]
      refine ⟨h.no, h.closed, h.fresh, h.done, h.same, h.hit, ?_⟩
      intro p hp hpm hc
      rcases Nat.lt_succ_iff_lt_or_eq.1 hp with hp | rfl
      · exact h.seen p hp hpm hc
      · exact absurd hc hnc

theorem loop_inv : Inv near m k m (loop near m k) := by
  have key : ∀ n, n ≤ m → Inv near m k n
      ((List.range n).foldl (point near m k) ⟨fun _ => false, fun _ => 0, 1⟩) := by
    intro n
    induction n with
    | zero =>
      intro _
      refine ⟨le_refl _, ?_, ?_, ?_, ?_, ?_, ?_⟩
      · intro p q _ _ h; cases h
      · intro p _ _; rfl
      · intro p _ h; cases h
      · intro p q _ _ h; exact absurd h (lt_irrefl _)
      · intro c h1 h2
        have h2 : c < 1 := h2
        omega
      · intro p h; omega
    | succ n ih =>
      intro hn
      rw [List.range_succ, List.foldl_append]
      exact point_inv hsym hrefl (by omega) (ih (by omega))
  exact key m (le_refl m)

/-- What the loop over the points has computed. -/
theorem loop_spec (p : Nat) (hp : p < m) :
    ((0 < (loop near m k).classes p ∧ Clustered near m k p) ∨
      (((loop near m k).classes p = 0 ∨ (loop near m k).classes p = -1) ∧
        ¬ Clustered near m k p)) := by
  have h := loop_inv (k := k) hsym hrefl
  cases ht : (loop near m k).touched p with
  | true =>
    rcases h.done p hp ht with ⟨h1, h2⟩ | ⟨h1, -, h2⟩
    · exact .inr ⟨.inr h1, h2⟩
    · exact .inl ⟨h1, h2⟩
  | false =>
    refine .inr ⟨.inl (h.fresh p hp ht), ?_⟩
    rintro ⟨q, hq, hc⟩
    have hqm := linked_lt hsym hrefl hp hq
    have hqt := h.seen q hqm hqm hc
    have : ∀ r, Linked near m q r → r < m ∧ (loop near m k).touched r = true := by
      intro r hr
      induction hr with
      | refl => exact ⟨hqm, hqt⟩
      | tail _ h2 ih => exact ⟨h2.1, h.closed _ _ ih.1 h2.1 ih.2 h2.2⟩
    rw [(this p (linked_symm hsym hrefl hp hq)).2] at ht
    cases ht
end

end Verif.Dbscan
