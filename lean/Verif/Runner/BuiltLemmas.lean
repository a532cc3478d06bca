import Verif.Runner.Lemmas3
import Verif.Builder.Props
/-! Helper lemmas connecting built schedules with runs. -/
set_option autoImplicit false
set_option linter.unusedSectionVars false

namespace Verif.Runner

open Verif.Builder

variable {S N V E T : Type} [DecidableEq S] [DecidableEq N] [DecidableEq T]

theorem forall₂_right {α β : Type} {R : α → β → Prop} {l₁ : List α} {l₂ : List β}
    (h : List.Forall₂ R l₁ l₂) (y : β) (hy : y ∈ l₂) : ∃ x ∈ l₁, R x y := by
  induction h with
  | nil => simp at hy
  | @cons x z _ _ hxz _ ih =>
    rcases List.mem_cons.1 hy with rfl | hy
    · exact ⟨x, List.mem_cons_self, hxz⟩
    · obtain ⟨w, hw, h⟩ := ih hy
      exact ⟨w, List.mem_cons_of_mem _ hw, h⟩

theorem forall₂_left {α β : Type} {R : α → β → Prop} {l₁ : List α} {l₂ : List β}
    (h : List.Forall₂ R l₁ l₂) (x : α) (hx : x ∈ l₁) : ∃ y ∈ l₂, R x y := by
  induction h with
  | nil => simp at hx
  | @cons w z _ _ hwz _ ih =>
    rcases List.mem_cons.1 hx with rfl | hx
    · exact ⟨z, List.mem_cons_self, hwz⟩
    · obtain ⟨y, hy, h⟩ := ih hx
      exact ⟨y, List.mem_cons_of_mem _ hy, h⟩

theorem runnable_cons {A : Type} {ins outs : S → List A} {init : List A} {s : S} {ss : List S}
    (h : Runnable ins outs init (s :: ss)) :
    (∀ a ∈ ins s, a ∈ init) ∧ Runnable ins outs (init ++ outs s) ss := by
  constructor
  · intro a ha
    rcases h 0 s rfl a ha with h | ⟨j, t, hj, -⟩
    · exact h
    · omega
  · intro i t ht a ha
    rcases h (i + 1) t (by simpa using ht) a ha with h | ⟨j, u, hj, hu, hau⟩
    · exact .inl (List.mem_append_left _ h)
    · cases j with
      | zero =>
        simp only [List.getElem?_cons_zero, Option.some.injEq] at hu
        subst hu
        exact .inl (List.mem_append_right _ hau)
      | succ j => exact .inr ⟨j, u, by omega, by simpa using hu, hau⟩

/-- Every stage of a runnable order finds its inputs. -/
theorem applyAll_not_missing {P : Pipeline S N V E} {ins outs : S → List (N × T)}
    (hf : ∀ s, P.fields s = (ins s).map Prod.fst) (l : List S) :
    ∀ (avail : List (N × T)) (d : Dict N V) (k : Nat), Runnable ins outs avail l →
      (∀ s ∈ l, ∀ k vs out, P.run k s vs = .ok out → ∀ a ∈ outs s, a.1 ∈ out.map Prod.fst) →
      (∀ a ∈ avail, (d a.1).isSome) → ∀ n, applyAll P k l d ≠ .error (.missingArgument n) := by
  induction l with
  | nil => intro avail d k _ _ _ n h; cases h
  | cons s ss ih =>
    intro avail d k hrun hout hd n h
    obtain ⟨h1, h2⟩ := runnable_cons hrun
    unfold applyAll applyStage at h
    have hfind : (P.fields s).find? (fun n => (d n).isNone) = none := by
      rw [List.find?_eq_none, hf]
      intro m hm
      obtain ⟨a, ha, rfl⟩ := List.mem_map.1 hm
      have := hd a (h1 a ha)
      cases hx : d a.1 <;> simp_all
    rw [hfind] at h
    simp only at h
    cases hr : P.run k s ((P.fields s).filterMap d) with
    | error e => rw [hr] at h; simp at h
    | ok out =>
      rw [hr] at h
      simp only at h
      refine ih (avail ++ outs s) (override d out) (k + 1) h2
        (fun t ht => hout t (List.mem_cons_of_mem _ ht)) ?_ n h
      intro a ha
      by_cases hm : a.1 ∈ out.map Prod.fst
      · obtain ⟨v, -, hv⟩ := override_of_mem (d := d) hm
        rw [hv]; rfl
      · rw [override_of_not_mem hm]
        rcases List.mem_append.1 ha with ha | ha
        · exact hd a ha
        · exact absurd (hout s List.mem_cons_self _ _ _ hr a ha) hm

/-- Values carry the declared types when every name has one type. -/
theorem applyEvents_typed {P : Pipeline S N V E} {ins outs : S → List (N × T)}
    (hasType : T → V → Prop)
    (hf : ∀ s, P.fields s = (ins s).map Prod.fst) (l : List S) :
    ∀ (avail : List (N × T)) (d : Dict N V) (k : Nat), Runnable ins outs avail l →
      (∀ s ∈ l, ∀ k vs out, P.run k s vs = .ok out →
        List.Forall₂ (fun a v => hasType a.2 v) (ins s) vs →
        List.Forall₂ (fun a p => p.1 = a.1 ∧ hasType a.2 p.2) (outs s) out) →
      (∀ a ∈ avail ++ l.flatMap outs, ∀ b ∈ avail ++ l.flatMap outs, a.1 = b.1 → a.2 = b.2) →
      (∀ a ∈ avail, ∃ v, d a.1 = some v ∧ hasType a.2 v) →
      ∀ ev ∈ applyEvents P k l d,
        List.Forall₂ (fun a v => hasType a.2 v) (ins ev.stage) ev.inputs := by
  induction l with
  | nil => intro avail d k _ _ _ _ ev h; simp [applyEvents] at h
  | cons s ss ih =>
    intro avail d k hrun hout huniq hd ev hev
    obtain ⟨h1, h2⟩ := runnable_cons hrun
    have hin : ∀ l' : List (N × T), (∀ a ∈ l', a ∈ avail) →
        List.Forall₂ (fun a v => hasType a.2 v) l' ((l'.map Prod.fst).filterMap d) := by
      intro l' hl'
      induction l' with
      | nil => exact .nil
      | cons a l' ih' =>
        obtain ⟨v, hv, ht⟩ := hd a (hl' a List.mem_cons_self)
        simp only [List.map_cons, List.filterMap_cons, hv]
        exact .cons ht (ih' fun b hb => hl' b (List.mem_cons_of_mem _ hb))
    have hvs : List.Forall₂ (fun a v => hasType a.2 v) (ins s) ((P.fields s).filterMap d) := by
      rw [hf]
      exact hin _ h1
    unfold applyEvents at hev
    split at hev
    · simp at hev
    · split at hev
      · simp only [List.mem_singleton] at hev
        subst hev
        exact hvs
      · rename_i out hr
        rcases List.mem_cons.1 hev with rfl | hev
        · exact hvs
        · have ho := hout s List.mem_cons_self _ _ _ hr hvs
          refine ih (avail ++ outs s) (override d out) (k + 1) h2
            (fun t ht => hout t (List.mem_cons_of_mem _ ht)) ?_ ?_ ev hev
          · intro a ha b hb
            exact huniq a (by simpa using ha) b (by simpa using hb)
          · intro a ha
            by_cases hm : a.1 ∈ out.map Prod.fst
            · obtain ⟨v, hmem, hv⟩ := override_of_mem (d := d) hm
              refine ⟨v, hv, ?_⟩
              -- the pair written under this name was declared with the same type
              obtain ⟨b, hb, hbn, hbt⟩ : ∃ b ∈ outs s, a.1 = b.1 ∧ hasType b.2 v := by
                obtain ⟨b, hb, h⟩ := forall₂_right ho _ hmem
                exact ⟨b, hb, h.1, h.2⟩
              have : a.2 = b.2 := huniq a (by
                  rcases List.mem_append.1 ha with h | h
                  · exact List.mem_append_left _ h
                  · exact List.mem_append_right _ (List.mem_flatMap.2 ⟨s, List.mem_cons_self, h⟩))
                b (List.mem_append_right _ (List.mem_flatMap.2 ⟨s, List.mem_cons_self, hb⟩)) hbn
              rw [this]
              exact hbt
            · rw [override_of_not_mem hm]
              rcases List.mem_append.1 ha with ha | ha
              · exact hd a ha
              · exfalso
                obtain ⟨p, hp, h⟩ := forall₂_left ho _ ha
                exact hm (List.mem_map.2 ⟨p, hp, h.1⟩)

/-! ### Independent stages commute -/

/-- Neither stage reads or writes what the other writes. -/
def Independent (P : Pipeline S N V E) (s t : S) : Prop :=
  ∀ n, (Writes P s n → n ∉ P.fields t ∧ ¬ Writes P t n) ∧
    (Writes P t n → n ∉ P.fields s ∧ ¬ Writes P s n)

theorem applyStage_ok {P : Pipeline S N V E} {k : Nat} {s : S} {d d' : Dict N V}
    (h : applyStage P k s d = .ok d') :
    (∀ n ∈ P.fields s, (d n).isSome) ∧ ∃ out, P.run k s ((P.fields s).filterMap d) = .ok out ∧
      d' = override d out := by
  unfold applyStage at h
  split at h
  · cases h
  · rename_i hn
    split at h
    · cases h
    · rename_i out hr
      cases h
      refine ⟨?_, out, hr, rfl⟩
      intro n hn'
      have := List.find?_eq_none.1 hn n hn'
      cases hx : d n <;> simp_all

theorem applyStage_of {P : Pipeline S N V E} {k : Nat} {s : S} {d : Dict N V}
    {out : List (N × V)} (h1 : ∀ n ∈ P.fields s, (d n).isSome)
    (h2 : P.run k s ((P.fields s).filterMap d) = .ok out) :
    applyStage P k s d = .ok (override d out) := by
  unfold applyStage
  have : (P.fields s).find? (fun n => (d n).isNone) = none := by
    rw [List.find?_eq_none]
    intro n hn
    have := h1 n hn
    cases hx : d n <;> simp_all
  rw [this]
  simp only [h2]

theorem applyStage_comm {P : Pipeline S N V E} (hdet : P.Deterministic) {s t : S}
    (hi : Independent P s t) {k : Nat} {d d₁ d₂ : Dict N V} (h₁ : applyStage P k s d = .ok d₁)
    (h₂ : applyStage P (k + 1) t d₁ = .ok d₂) :
    ∃ d₁', applyStage P k t d = .ok d₁' ∧ applyStage P (k + 1) s d₁' = .ok d₂ := by
  obtain ⟨hs, outs, hrs, rfl⟩ := applyStage_ok h₁
  obtain ⟨ht, outt, hrt, rfl⟩ := applyStage_ok h₂
  have hws : ∀ n, n ∈ outs.map Prod.fst → Writes P s n := fun n hn => ⟨_, _, _, hrs, hn⟩
  have hwt : ∀ n, n ∈ outt.map Prod.fst → Writes P t n := fun n hn => ⟨_, _, _, hrt, hn⟩
  have ht' : ∀ n ∈ P.fields t, override d outs n = d n := fun n hn =>
    override_of_not_mem fun hm => ((hi n).1 (hws n hm)).1 hn
  have hs' : ∀ n ∈ P.fields s, override d outt n = d n := fun n hn =>
    override_of_not_mem fun hm => ((hi n).2 (hwt n hm)).1 hn
  have et : (P.fields t).filterMap (override d outs) = (P.fields t).filterMap d :=
    List.filterMap_congr ht'
  have es : (P.fields s).filterMap (override d outt) = (P.fields s).filterMap d :=
    List.filterMap_congr hs'
  refine ⟨override d outt, applyStage_of ?_ ?_, ?_⟩
  · intro n hn
    rw [← ht' n hn]
    exact ht n hn
  · rw [← et, hdet k (k + 1)]
    exact hrt
  · have : override (override d outs) outt = override (override d outt) outs := by
      funext n
      by_cases h1 : n ∈ outt.map Prod.fst
      · have h2 : n ∉ outs.map Prod.fst := fun h => ((hi n).1 (hws n h)).2 (hwt n h1)
        rw [override_of_not_mem h2]
        exact override_congr (override_of_not_mem h2)
      · rw [override_of_not_mem h1]
        exact (override_congr (override_of_not_mem h1)).symm
    rw [this]
    refine applyStage_of ?_ ?_
    · intro n hn
      rw [hs' n hn]
      exact hs n hn
    · rw [es, hdet (k + 1) k]
      exact hrs

theorem applyAll_perm {P : Pipeline S N V E} (hdet : P.Deterministic) {l₁ l₂ : List S}
    (hp : l₁.Perm l₂) : ∀ (_ : ∀ s ∈ l₁, ∀ t ∈ l₁, s ≠ t → Independent P s t) (_ : l₁.Nodup)
      (k : Nat) (d d' : Dict N V),
      applyAll P k l₁ d = .ok d' → applyAll P k l₂ d = .ok d' := by
  induction hp with
  | nil => intro _ _ k d d' h; exact h
  | cons s _ ih =>
    intro hi hnd k d d' h
    unfold applyAll at h ⊢
    cases ha : applyStage P k s d with
    | error e => rw [ha] at h; cases h
    | ok d₁ =>
      rw [ha] at h
      exact ih (fun a ha b hb => hi a (List.mem_cons_of_mem _ ha) b (List.mem_cons_of_mem _ hb))
        (List.nodup_cons.1 hnd).2 _ _ _ h
  | swap s t l =>
    intro hi hnd k d d' h
    have hst : t ≠ s := by
      rintro rfl
      simp at hnd
    simp only [applyAll] at h ⊢
    cases ha : applyStage P k t d with
    | error e => rw [ha] at h; cases h
    | ok d₁ =>
      rw [ha] at h
      simp only at h
      cases hb : applyStage P (k + 1) s d₁ with
      | error e => rw [hb] at h; cases h
      | ok d₂ =>
        rw [hb] at h
        obtain ⟨d₁', g1, g2⟩ := applyStage_comm hdet (hi t (by simp) s (by simp) hst) ha hb
        simp only [g1, g2]
        exact h
  | trans h12 _ ih1 ih2 =>
    intro hi hnd k d d' h
    refine ih2 ?_ (h12.nodup_iff.1 hnd) k d d' (ih1 hi hnd k d d' h)
    intro a ha b hb
    exact hi a (h12.mem_iff.2 ha) b (h12.mem_iff.2 hb)

theorem applyAll_elements {P : Pipeline S N V E} (hdet : P.Deterministic)
    {o₁ o₂ : List (List S)} (hp : List.Forall₂ List.Perm o₁ o₂) :
    ∀ (_ : ∀ e ∈ o₁, ∀ s ∈ e, ∀ t ∈ e, s ≠ t → Independent P s t) (_ : ∀ e ∈ o₁, e.Nodup)
      (k : Nat) (d d' : Dict N V),
      applyAll P k o₁.flatten d = .ok d' → applyAll P k o₂.flatten d = .ok d' := by
  induction hp with
  | nil => intro _ _ k d d' h; exact h
  | @cons e f o₁ o₂ hef _ ih =>
    intro hi hnd k d d' h
    rw [List.flatten_cons, applyAll_append] at h ⊢
    cases ha : applyAll P k e d with
    | error x => rw [ha] at h; cases h
    | ok d₁ =>
      rw [ha] at h
      rw [applyAll_perm hdet hef (hi e List.mem_cons_self) (hnd e List.mem_cons_self) k d d₁ ha]
      simp only at h ⊢
      rw [← hef.length_eq]
      exact ih (fun g hg => hi g (List.mem_cons_of_mem _ hg))
        (fun g hg => hnd g (List.mem_cons_of_mem _ hg)) _ _ _ h

end Verif.Runner
