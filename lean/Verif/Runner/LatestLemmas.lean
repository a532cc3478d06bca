import Verif.Runner.Lemmas3
import Verif.Runner.SpecLatest
/-! Helper lemmas: the values held after a list of executions. -/
set_option autoImplicit false
set_option linter.unusedSectionVars false

namespace Verif.Runner

variable {S N V E : Type} [DecidableEq S] [DecidableEq N]

/-- The dictionary after the successful executions of a list. -/
def heldAfter (d : Dict N V) : List (Event S N V E) → Dict N V
  | [] => d
  | ev :: evs =>
    match ev.result with
    | .ok out => heldAfter (override d out) evs
    | .error _ => heldAfter d evs

theorem heldAfter_append (d : Dict N V) (l₁ l₂ : List (Event S N V E)) :
    heldAfter d (l₁ ++ l₂) = heldAfter (heldAfter d l₁) l₂ := by
  induction l₁ generalizing d with
  | nil => rfl
  | cons ev l ih =>
    simp only [List.cons_append, heldAfter]
    split <;> exact ih _

theorem heldAfter_none {d : Dict N V} {l : List (Event S N V E)} {n : N}
    (h : ∀ ev ∈ l, ¬ ev.Wrote n) : heldAfter d l n = d n := by
  induction l generalizing d with
  | nil => rfl
  | cons ev l ih =>
    have h' : ∀ ev ∈ l, ¬ ev.Wrote n := fun e he => h e (List.mem_cons_of_mem _ he)
    cases hr : ev.result with
    | ok out =>
      simp only [heldAfter, hr]
      rw [ih h']
      exact override_of_not_mem fun hm => h ev List.mem_cons_self ⟨out, hr, hm⟩
    | error e =>
      simp only [heldAfter, hr]
      exact ih h'

theorem override_iff {d : Dict N V} {out : List (N × V)} {n : N} {v : V}
    (hm : n ∈ out.map Prod.fst) : override d out n = some v ↔ LastPair out n v := by
  unfold override LastPair
  have hex : ∃ p, out.reverse.find? (fun p => decide (p.1 = n)) = some p := by
    obtain ⟨p, hp, rfl⟩ := List.mem_map.1 hm
    rw [← Option.isSome_iff_exists, List.find?_isSome]
    exact ⟨p, by simpa using hp, by simp⟩
  obtain ⟨p, hp⟩ := hex
  rw [hp]
  simp only [Option.some.injEq]
  rw [List.find?_eq_some_iff_append] at hp
  obtain ⟨h1, as, bs, h2, h3⟩ := hp
  have h1' : p.1 = n := by simpa using h1
  have hout : out = bs.reverse ++ p :: as.reverse := by
    have := congrArg List.reverse h2
    simpa using this
  constructor
  · rintro rfl
    refine ⟨bs.reverse, as.reverse, ?_, ?_⟩
    · rw [hout, ← h1']
    · intro hmem
      obtain ⟨q, hq, hqn⟩ := List.mem_map.1 hmem
      have := h3 q (by simpa using hq)
      simp [hqn] at this
  · rintro ⟨pre, post, h4, h5⟩
    have hrev : out.reverse = post.reverse ++ (n, v) :: pre.reverse := by
      rw [h4]; simp
    have hfind : out.reverse.find? (fun p => decide (p.1 = n)) = some (n, v) := by
      rw [hrev, List.find?_append]
      have : post.reverse.find? (fun p => decide (p.1 = n)) = none := by
        rw [List.find?_eq_none]
        intro q hq
        simp only [decide_eq_true_eq]
        intro hqn
        exact h5 (List.mem_map.2 ⟨q, by simpa using hq, hqn⟩)
      rw [this]
      simp
    have hfind2 : out.reverse.find? (fun p => decide (p.1 = n)) = some p := by
      rw [List.find?_eq_some_iff_append]
      exact ⟨h1, as, bs, h2, h3⟩
    rw [hfind] at hfind2
    cases hfind2
    rfl

theorem latest_iff {d : Dict N V} {evs : List (Event S N V E)} {n : N} {v : V} :
    Latest d evs n v ↔ heldAfter d evs n = some v := by
  constructor
  · rintro (⟨pre, ev, post, out, rfl, hr, hl, hpost⟩ | ⟨hno, hd⟩)
    · rw [heldAfter_append]
      simp only [heldAfter, hr]
      rw [heldAfter_none hpost]
      refine (override_iff ?_).2 hl
      obtain ⟨a, b, rfl, _⟩ := hl
      simp
    · rw [heldAfter_none hno]
      exact hd
  · intro h
    induction evs generalizing d with
    | nil => exact .inr ⟨by simp, h⟩
    | cons ev evs ih =>
      by_cases hw : ∃ e ∈ evs, e.Wrote n
      · have h' : ∃ d', heldAfter d' evs n = some v := by
          cases hr : ev.result with
          | ok out => simp only [heldAfter, hr] at h; exact ⟨_, h⟩
          | error e => simp only [heldAfter, hr] at h; exact ⟨_, h⟩
        obtain ⟨d', h'⟩ := h'
        rcases ih h' with ⟨pre, e, post, out, rfl, hr, hl, hpost⟩ | ⟨hno, _⟩
        · exact .inl ⟨ev :: pre, e, post, out, rfl, hr, hl, hpost⟩
        · obtain ⟨e, he, hwe⟩ := hw
          exact absurd hwe (hno e he)
      · have hno : ∀ e ∈ evs, ¬ e.Wrote n := fun e he hwe => hw ⟨e, he, hwe⟩
        by_cases hev : ev.Wrote n
        · obtain ⟨out, hr, hm⟩ := hev
          refine .inl ⟨[], ev, evs, out, rfl, hr, ?_, hno⟩
          simp only [heldAfter, hr] at h
          rw [heldAfter_none hno] at h
          exact (override_iff hm).1 h
        · have hall : ∀ e ∈ ev :: evs, ¬ e.Wrote n := by
            intro e he
            rcases List.mem_cons.1 he with rfl | he
            · exact hev
            · exact hno e he
          rw [heldAfter_none hall] at h
          exact .inr ⟨hall, h⟩

theorem filterMap_present {d : Dict N V} {fs : List N}
    (h : fs.find? (fun n => (d n).isNone) = none) :
    (fs.filterMap d).length = fs.length ∧
    ∀ (j : Nat) (n : N), fs[j]? = some n → ∃ v, (fs.filterMap d)[j]? = some v ∧ d n = some v := by
  rw [List.find?_eq_none] at h
  induction fs with
  | nil => simp
  | cons f fs ih =>
    have hf := h f List.mem_cons_self
    cases hx : d f with
    | none => simp [hx] at hf
    | some v =>
      obtain ⟨h1, h2⟩ := ih fun n hn => h n (List.mem_cons_of_mem _ hn)
      rw [List.filterMap_cons, hx]
      refine ⟨by simp [h1], ?_⟩
      intro j n hj
      cases j with
      | zero =>
        simp only [List.getElem?_cons_zero, Option.some.injEq] at hj
        subst hj
        exact ⟨v, by simp, hx⟩
      | succ j =>
        simp only [List.getElem?_cons_succ] at hj ⊢
        exact h2 j n hj

theorem applyEvents_inputs {P : Pipeline S N V E} : ∀ (l : List S) (k : Nat) (d : Dict N V)
    (i : Nat) (ev : Event S N V E), (applyEvents P k l d)[i]? = some ev →
    l[i]? = some ev.stage ∧ ev.inputs.length = (P.fields ev.stage).length ∧
    ∀ (j : Nat) (n : N), (P.fields ev.stage)[j]? = some n →
      ∃ v, ev.inputs[j]? = some v ∧ heldAfter d ((applyEvents P k l d).take i) n = some v := by
  intro l
  induction l with
  | nil => intro k d i ev h; simp [applyEvents] at h
  | cons s ss ih =>
    intro k d i ev h
    unfold applyEvents at h ⊢
    split at h
    · simp at h
    · rename_i hn
      obtain ⟨f1, f2⟩ := filterMap_present hn
      split at h
      · rename_i e hr
        cases i with
        | succ i => simp at h
        | zero =>
          simp only [List.getElem?_cons_zero, Option.some.injEq] at h
          subst h
          refine ⟨rfl, f1, ?_⟩
          intro j n hj
          obtain ⟨v, h1, h2⟩ := f2 j n hj
          exact ⟨v, h1, by simpa [heldAfter] using h2⟩
      · rename_i out hr
        cases i with
        | zero =>
          simp only [List.getElem?_cons_zero, Option.some.injEq] at h
          subst h
          refine ⟨rfl, f1, ?_⟩
          intro j n hj
          obtain ⟨v, h1, h2⟩ := f2 j n hj
          exact ⟨v, h1, by simpa [heldAfter] using h2⟩
        | succ i =>
          simp only [List.getElem?_cons_succ] at h
          obtain ⟨g1, g2, g3⟩ := ih _ _ _ _ h
          refine ⟨by simpa using g1, g2, ?_⟩
          intro j n hj
          obtain ⟨v, h1, h2⟩ := g3 j n hj
          refine ⟨v, h1, ?_⟩
          rw [List.take_succ_cons]
          simpa only [heldAfter] using h2

theorem applyAll_held {P : Pipeline S N V E} : ∀ (l : List S) (k : Nat) (d dd : Dict N V),
    applyAll P k l d = .ok dd → heldAfter d (applyEvents P k l d) = dd := by
  intro l
  induction l with
  | nil => intro k d dd h; cases h; rfl
  | cons s ss ih =>
    intro k d dd h
    unfold applyAll applyStage at h
    unfold applyEvents
    split at h
    · cases h
    · rename_i d₁ hs
      split at hs
      · cases hs
      · rename_i hn
        split at hs
        · cases hs
        · rename_i out hr
          cases hs
          simp only [heldAfter]
          exact ih _ _ _ h

theorem applyEvents_result {P : Pipeline S N V E} : ∀ {l : List S} {k : Nat} {d : Dict N V}
    {ev : Event S N V E}, ev ∈ applyEvents P k l d → ∃ k vs, P.run k ev.stage vs = ev.result := by
  intro l
  induction l with
  | nil => intro k d ev h; simp [applyEvents] at h
  | cons s ss ih =>
    intro k d ev h
    unfold applyEvents at h
    split at h
    · simp at h
    · split at h
      · rename_i e hr
        rw [List.mem_singleton] at h
        subst h
        exact ⟨_, _, hr⟩
      · rename_i out hr
        rcases List.mem_cons.1 h with rfl | h
        · exact ⟨_, _, hr⟩
        · exact ih h

/-- Executions that are followed by another one succeeded. -/
theorem applyEvents_ok_before {P : Pipeline S N V E} : ∀ {l : List S} {k : Nat} {d : Dict N V}
    {i : Nat} {e : Event S N V E}, e ∈ (applyEvents P k l d).take i →
    i < (applyEvents P k l d).length → ∃ out, e.result = .ok out := by
  intro l
  induction l with
  | nil => intro k d i e h; simp [applyEvents] at h
  | cons s ss ih =>
    intro k d i e h hi
    unfold applyEvents at h hi
    split at h
    · simp at h
    · split at h
      · rename_i hn _ x hr
        simp only [hn, hr, List.length_singleton] at hi
        have : i = 0 := by omega
        subst this
        simp at h
      · rename_i hn _ out hr
        simp only [hn, hr, List.length_cons] at hi
        cases i with
        | zero => simp at h
        | succ i =>
          rw [List.take_succ_cons] at h
          rcases List.mem_cons.1 h with rfl | h
          · exact ⟨out, rfl⟩
          · exact ih h (by omega)

end Verif.Runner
