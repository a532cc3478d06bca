import Verif.Trace.Spec
import Mathlib.Tactic.FieldSimp
import Mathlib.Tactic.Positivity
/-!
# Lemmas about the footprint analysis
-/
set_option autoImplicit false
set_option linter.unusedSectionVars false

namespace Verif.Trace

variable {G P K : Type}

theorem masked_sublist {α : Type} : ∀ (l : List α) (m : List Bool), (masked l m).Sublist l
  | [], m => by cases m <;> exact .slnil
  | a :: l, [] => by simp [masked]
  | a :: l, b :: m => by
    rw [masked]
    split
    · exact (masked_sublist l m).cons_cons a
    · exact (masked_sublist l m).cons a

theorem count_masked_le (geo : Geo G P K) (g : G) (z : List P) (y : List Bool) :
    count geo g (masked z y) ≤ count geo g z :=
  ((masked_sublist z y).filter _).length_le

theorem masked_all_false {α : Type} : ∀ (l : List α) (m : List Bool), (∀ b ∈ m, b = false) →
    masked l m = []
  | [], m, _ => by cases m <;> rfl
  | a :: l, [], _ => rfl
  | a :: l, b :: m, h => by
    rw [masked, h b List.mem_cons_self]
    exact masked_all_false l m fun b hb => h b (List.mem_cons_of_mem _ hb)

theorem masked_eq_zip {α : Type} : ∀ (l : List α) (m : List Bool),
    masked l m = ((l.zip m).filter fun q => q.2).map (·.1)
  | [], m => by cases m <;> rfl
  | a :: l, [] => rfl
  | a :: l, b :: m => by
    rw [masked, List.zip_cons_cons, List.filter_cons, masked_eq_zip l m]
    cases b <;> simp

section
variable [Field K] [LinearOrder K]

theorem inside_eq (geo : Geo G P K) (g : G) (z : List P) (y : List Bool) :
    inside geo g z y = count geo g (masked z y) := by
  unfold inside count
  rw [masked_eq_zip, List.filter_map, List.length_map, List.filter_filter]
  congr 1
  apply List.filter_congr
  intro q _
  simp [Bool.and_comm]

theorem tight_none (geo : Geo G P K) (z : List P) (g : G) (y : List Bool) (r : Option G)
    (h : tight geo z g y = .ok r) : r = none := by
  unfold tight at h
  simp only at h
  split at h
  · cases h
  · cases h; rfl

/-- All that the loop of `contra` can do in the first iteration. -/
theorem contraLoop_spec (geo : Geo G P K)
    (hl : ∀ a b, geo.isEmpty a = true → geo.isEmpty (geo.inter a b) = true)
    (z : List P) (yb yt : List Bool) (b t : G) :
    (Conflict geo z b t yb yt → ∃ e, contraLoop geo z yb yt 3 b t = .error e) ∧
    (¬ Conflict geo z b t yb yt → contraLoop geo z yb yt 3 b t = .ok (some b, some t)) := by
  unfold Conflict
  rw [inside_eq, inside_eq]
  have hb := count_masked_le geo (geo.inter b t) z yb
  have ht := count_masked_le geo (geo.inter b t) z yt
  rw [contraLoop]
  cases hc : geo.isEmpty (geo.inter b t) with
  | true => simp
  | false =>
    have hbe : geo.isEmpty b = false := by
      cases h : geo.isEmpty b with
      | false => rfl
      | true => rw [hl b t h] at hc; cases hc
    simp only [Bool.false_eq_true, if_false]
    rcases lt_trichotomy (count geo (geo.inter b t) (masked z yt))
      (count geo (geo.inter b t) (masked z yb)) with h | h | h
    · have hn : count geo (geo.inter b t) z ≠ 0 := by omega
      refine ⟨fun _ => ?_, fun hno => absurd ⟨trivial, by omega⟩ hno⟩
      simp only [hn, h, ne_eq, not_false_eq_true, and_self, if_true]
      by_cases ha : geo.area t = 0
      · exact ⟨.zeroDivision, by simp [ha]⟩
      · simp only [ha, if_false]
        cases htt : tight geo z (geo.diff t (geo.inter b t)) yt with
        | error e => exact ⟨e, by simp⟩
        | ok r =>
          have := tight_none _ _ _ _ _ htt
          subst this
          exact ⟨.attributeError, by simp [hbe]⟩
    · refine ⟨fun hyes => absurd h.symm hyes.2, fun _ => ?_⟩
      simp [h]
    · have hn : count geo (geo.inter b t) z ≠ 0 := by omega
      refine ⟨fun _ => ?_, fun hno => absurd ⟨trivial, by omega⟩ hno⟩
      have h1 : ¬ (count geo (geo.inter b t) (masked z yt) <
        count geo (geo.inter b t) (masked z yb)) := by omega
      simp only [h1, if_false, hn, h, ne_eq, not_false_eq_true, and_self, and_false, if_true]
      by_cases ha : geo.area b = 0
      · exact ⟨.zeroDivision, by simp [ha]⟩
      · simp only [ha, if_false]
        cases htt : tight geo z (geo.diff b (geo.inter b t)) yb with
        | error e => exact ⟨e, by simp⟩
        | ok r =>
          have := tight_none _ _ _ _ _ htt
          subst this
          exact ⟨.attributeError, by simp⟩

/-- A footprint as `build` and `contra` make them: missing, or the measures of its polygon for the
mask `y`. -/
def MadeFor (geo : Geo G P K) (z : List P) (y : List Bool) (f : Footprint G K) : Prop :=
  f = missing ∨ ∃ g, f = fromPolygon geo (some g) z y false

theorem fromPolygon_smooth (geo : Geo G P K) (g : G) (z : List P) (y : List Bool) :
    fromPolygon geo (some g) z y true = fromPolygon geo (some (geo.smooth g)) z y false := by
  simp [fromPolygon]

theorem build_madeFor (geo : Geo G P K) (purity : K) (z : List P) (y : List Bool) :
    MadeFor geo z y (build geo purity z y) := by
  unfold build
  simp only
  split
  · exact .inl rfl
  · exact .inr ⟨_, fromPolygon_smooth _ _ _ _⟩

theorem fromPolygon_polygon (geo : Geo G P K) (g : G) (z : List P) (y : List Bool) :
    (fromPolygon geo (some g) z y false).polygon = some g := by simp [fromPolygon]

/-- Two footprints contradict each other. -/
def FConflict (geo : Geo G P K) (z : List P) (f g : Footprint G K) (yb yt : List Bool) : Prop :=
  ∃ b t, f.polygon = some b ∧ g.polygon = some t ∧ Conflict geo z b t yb yt

theorem contra_spec (geo : Geo G P K)
    (hl : ∀ a b, geo.isEmpty a = true → geo.isEmpty (geo.inter a b) = true)
    (z : List P) (yb yt : List Bool) (f g : Footprint G K)
    (hf : MadeFor geo z yb f) (hg : MadeFor geo z yt g) :
    (FConflict geo z f g yb yt → ∃ e, contra geo z f g yb yt = .error e) ∧
    (¬ FConflict geo z f g yb yt → contra geo z f g yb yt = .ok (f, g)) := by
  rcases hf with rfl | ⟨b, rfl⟩
  · refine ⟨?_, fun _ => ?_⟩
    · rintro ⟨b, t, h, -⟩; cases h
    · simp [contra, missing]
  rcases hg with rfl | ⟨t, rfl⟩
  · refine ⟨?_, fun _ => ?_⟩
    · rintro ⟨b, t, -, h, -⟩; cases h
    · simp [contra, missing, fromPolygon]
  have hs := contraLoop_spec geo hl z yb yt b t
  have he : contra geo z (fromPolygon geo (some b) z yb false) (fromPolygon geo (some t) z yt false)
      yb yt = match contraLoop geo z yb yt 3 b t with
      | .error e => .error e
      | .ok (b, t) => .ok (fromPolygon geo b z yb false, fromPolygon geo t z yt false) := by
    unfold contra
    simp only [fromPolygon_polygon]
    cases contraLoop geo z yb yt 3 b t <;> rfl
  constructor
  · rintro ⟨b', t', hb', ht', hc⟩
    rw [fromPolygon_polygon] at hb' ht'
    cases hb'; cases ht'
    obtain ⟨e, hce⟩ := hs.1 hc
    exact ⟨e, by rw [he, hce]⟩
  · intro hno
    have hc : ¬ Conflict geo z b t yb yt := fun hc =>
      hno ⟨b, t, fromPolygon_polygon .., fromPolygon_polygon .., hc⟩
    rw [he, hs.2 hc]

variable (geo : Geo G P K) (purity : K) (z : List P) (p : List Nat)

theorem contraInner_spec
    (hl : ∀ a b, geo.isEmpty a = true → geo.isEmpty (geo.inter a b) = true) (i : Nat) :
    ∀ (js : List Nat) (best : List (Footprint G K)), i < best.length → (∀ j ∈ js, j < best.length) →
      (∀ (j : Nat) (f), best[j]? = some f → MadeFor geo z (bestMask p j) f) →
      ((∃ j ∈ js, FConflict geo z (best.getD i missing) (best.getD j missing) (bestMask p i)
        (bestMask p j)) → ∃ e, contraInner geo z p i js best = .error e) ∧
      ((¬ ∃ j ∈ js, FConflict geo z (best.getD i missing) (best.getD j missing) (bestMask p i)
        (bestMask p j)) → contraInner geo z p i js best = .ok best) := by
  intro js
  induction js with
  | nil => intro best _ _ _; simp [contraInner]
  | cons j js ih =>
    intro best hi hjs hm
    have hj := hjs j List.mem_cons_self
    have hget : ∀ a, a < best.length → best[a]? = some (best.getD a missing) := by
      intro a ha; simp [List.getD, ha]
    have hcs := contra_spec geo hl z (bestMask p i) (bestMask p j) (best.getD i missing)
      (best.getD j missing) (hm i _ (hget i hi)) (hm j _ (hget j hj))
    rw [contraInner]
    by_cases hc : FConflict geo z (best.getD i missing) (best.getD j missing) (bestMask p i)
        (bestMask p j)
    · obtain ⟨e, he⟩ := hcs.1 hc
      refine ⟨fun _ => ⟨e, by rw [he]⟩, fun hno => absurd ⟨j, List.mem_cons_self, hc⟩ hno⟩
    · rw [hcs.2 hc]
      have hset : (best.set i (best.getD i missing)).set j (best.getD j missing) = best := by
        have h1 : best.set i (best.getD i missing) = best := by
          apply List.ext_getElem?
          intro a
          rw [List.getElem?_set]
          split
          · next h => subst h; simp [hi, List.getD]
          · rfl
        rw [h1]
        apply List.ext_getElem?
        intro a
        rw [List.getElem?_set]
        split
        · next h => subst h; simp [hj, List.getD]
        · rfl
      simp only [hset]
      obtain ⟨h1, h2⟩ := ih best hi (fun j hj => hjs j (List.mem_cons_of_mem _ hj)) hm
      constructor
      · rintro ⟨j', hj', hc'⟩
        rcases List.mem_cons.1 hj' with rfl | hj'
        · exact absurd hc' hc
        · exact h1 ⟨j', hj', hc'⟩
      · intro hno
        exact h2 fun ⟨j', hj', hc'⟩ => hno ⟨j', List.mem_cons_of_mem _ hj', hc'⟩

theorem contraOuter_spec
    (hl : ∀ a b, geo.isEmpty a = true → geo.isEmpty (geo.inter a b) = true)
    (best : List (Footprint G K))
    (hm : ∀ (j : Nat) (f), best[j]? = some f → MadeFor geo z (bestMask p j) f) :
    ∀ (is : List Nat), (∀ i ∈ is, i < best.length) →
      ((∃ i ∈ is, ∃ j, i < j ∧ j < best.length ∧
        FConflict geo z (best.getD i missing) (best.getD j missing) (bestMask p i) (bestMask p j)) →
        ∃ e, contraOuter geo z p best.length is best = .error e) ∧
      ((¬ ∃ i ∈ is, ∃ j, i < j ∧ j < best.length ∧
        FConflict geo z (best.getD i missing) (best.getD j missing) (bestMask p i) (bestMask p j)) →
        contraOuter geo z p best.length is best = .ok best) := by
  intro is
  induction is with
  | nil => intro _; simp [contraOuter]
  | cons i is ih =>
    intro his
    obtain ⟨h1, h2⟩ := contraInner_spec geo z p hl i
      ((List.range best.length).filter fun j => decide (i < j)) best (his i List.mem_cons_self)
      (by intro j hj; exact List.mem_range.1 (List.mem_filter.1 hj).1) hm
    obtain ⟨i1, i2⟩ := ih (fun i hi => his i (List.mem_cons_of_mem _ hi))
    rw [contraOuter]
    by_cases hc : ∃ j ∈ (List.range best.length).filter fun j => decide (i < j),
        FConflict geo z (best.getD i missing) (best.getD j missing) (bestMask p i) (bestMask p j)
    · obtain ⟨e, he⟩ := h1 hc
      refine ⟨fun _ => ⟨e, by rw [he]⟩, fun hno => absurd ?_ hno⟩
      obtain ⟨j, hj, hc⟩ := hc
      obtain ⟨hj1, hj2⟩ := List.mem_filter.1 hj
      exact ⟨i, List.mem_cons_self, j, of_decide_eq_true hj2, List.mem_range.1 hj1, hc⟩
    · rw [h2 hc]
      simp only
      constructor
      · rintro ⟨i', hi', j, hij, hj, hf⟩
        rcases List.mem_cons.1 hi' with rfl | hi'
        · exact absurd ⟨j, List.mem_filter.2 ⟨List.mem_range.2 hj, by simpa using hij⟩, hf⟩ hc
        · exact i1 ⟨i', hi', j, hij, hj, hf⟩
      · intro hno
        exact i2 fun ⟨i', hi', h⟩ => hno ⟨i', List.mem_cons_of_mem _ hi', h⟩
end

/-- The collecting loop, in terms of what each position holds at the end. -/
theorem collect_ok {A B E : Type} (f : Nat → Except E (A × B)) (a : Nat → A) (b : Nat → B) :
    ∀ (order : List Nat), (∀ i ∈ order, f i = .ok (a i, b i)) → ∀ r : List A × List B,
      ∃ r', collect f order r = .ok r' ∧ r'.1.length = r.1.length ∧ r'.2.length = r.2.length ∧
      (∀ i : Nat, i < r.1.length → r'.1[i]? = if i ∈ order then some (a i) else r.1[i]?) ∧
      (∀ i : Nat, i < r.2.length → r'.2[i]? = if i ∈ order then some (b i) else r.2[i]?) := by
  intro order
  induction order with
  | nil => intro _ r; exact ⟨r, rfl, rfl, rfl, by simp, by simp⟩
  | cons j order ih =>
    intro h r
    obtain ⟨r', e, l1, l2, h1, h2⟩ := ih (fun i hi => h i (List.mem_cons_of_mem _ hi))
      (r.1.set j (a j), r.2.set j (b j))
    refine ⟨r', ?_, ?_, ?_, ?_, ?_⟩
    · rw [collect, h j List.mem_cons_self]; exact e
    · simpa using l1
    · simpa using l2
    · intro i hi
      rw [h1 i (by simpa using hi)]
      by_cases hm : i ∈ order
      · simp [hm]
      · by_cases hj : i = j
        · subst hj; simp [hm, hi]
        · have : j ≠ i := fun h => hj h.symm
          simp [hm, hj, List.getElem?_set_ne this]
    · intro i hi
      rw [h2 i (by simpa using hi)]
      by_cases hm : i ∈ order
      · simp [hm]
      · by_cases hj : i = j
        · subst hj; simp [hm, hi]
        · have : j ≠ i := fun h => hj h.symm
          simp [hm, hj, List.getElem?_set_ne this]

theorem collect_error {A B E : Type} (f : Nat → Except E (A × B)) :
    ∀ (order : List Nat) (r : List A × List B), (∃ i ∈ order, ∃ e, f i = .error e) →
      ∃ i ∈ order, ∃ e, f i = .error e ∧ collect f order r = .error e := by
  intro order
  induction order with
  | nil => rintro r ⟨i, hi, -⟩; cases hi
  | cons j order ih =>
    rintro r ⟨i, hi, e, he⟩
    cases hj : f j with
    | error e' => exact ⟨j, List.mem_cons_self, e', hj, by rw [collect, hj]⟩
    | ok v =>
      have hi' : i ∈ order := by
        rcases List.mem_cons.1 hi with rfl | hi
        · rw [hj] at he; cases he
        · exact hi
      obtain ⟨i', h1, e', h2, h3⟩ := ih (r.1.set j v.1, r.2.set j v.2) ⟨i, hi', e, he⟩
      exact ⟨i', List.mem_cons_of_mem _ h1, e', h2, by rw [collect, hj]; exact h3⟩

end Verif.Trace
