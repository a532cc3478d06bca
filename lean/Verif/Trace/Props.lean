import Verif.Trace.Lemmas
import Verif.Prelim.Props
/-!
# The footprint analysis: C59-C63, C94-C96
-/
set_option autoImplicit false
set_option linter.unusedSectionVars false

namespace Verif.Trace

variable {G P K : Type} [Field K] [LinearOrder K] [IsStrictOrderedRing K]

/-! ### A small geometry for the examples -/

/-- Geometries are finite sets of cells given as lists, points are cells: a model of the laws. -/
def cells (near : List Nat → Nat → Nat → Nat → Bool) : Geo (List Nat) Nat ℚ where
  empty := []
  isEmpty := List.isEmpty
  contains g p := g.contains p
  containsMulti g z := z.all fun p => g.contains p
  area g := g.length
  inter a b := a.filter fun p => b.contains p
  diff a b := a.filter fun p => !b.contains p
  union a b := a ++ b.filter fun p => !a.contains p
  geoms _ := none
  smooth g := g
  alpha l := l
  triangulate g := g.map fun p => [p]
  hull g := g
  unique l := l.eraseDups
  near := near

theorem cells_laws (near : List Nat → Nat → Nat → Nat → Bool) : Laws (cells near) where
  area_nonneg g := by simp [cells]
  area_zero g p h := by
    have h : (g.length : ℚ) = 0 := h
    have : g.length = 0 := by exact_mod_cast h
    rw [List.length_eq_zero_iff] at this
    subst this; rfl
  inter_left a b h := by
    have : a = [] := by simpa [cells] using h
    subst this; rfl
  inter_right a b h := by
    have : b = [] := by simpa [cells] using h
    subst this; simp [cells]
  diff_contains a b p h := by simpa [cells] using h
  hull_piece _ _ _ _ := rfl
  unique_length l := by
    show l.eraseDups.length ≤ l.length
    induction h : l.length using Nat.strongRecOn generalizing l with
    | _ n ih =>
      cases l with
      | nil => simp
      | cons a l =>
        rw [List.eraseDups_cons, List.length_cons]
        simp only [List.length_cons] at h
        have hf := List.length_filter_le (fun b => !b == a) l
        have := ih _ (by omega) (l.filter fun b => !b == a) rfl
        omega

/-! ### C59 -/

/-- The measures of a footprint made from a polygon are consistent. -/
theorem C59_from_polygon (geo : Geo G P K) (laws : Laws geo) (g : G) (z : List P) (y : List Bool)
    (smoothen : Bool) : Consistent (fromPolygon geo (some g) z y smoothen) ∧
    ∃ q, (fromPolygon geo (some g) z y smoothen).polygon = some q ∧
      (fromPolygon geo (some g) z y smoothen).elements = (z.filter (geo.contains q)).length ∧
      (fromPolygon geo (some g) z y smoothen).good = inside geo q z y := by
  have key : ∀ q, Consistent (fromPolygon geo (some q) z y false) := by
    intro q
    have hle := count_masked_le geo q z y
    have hle' : (count geo q (masked z y) : K) ≤ (count geo q z : K) := by exact_mod_cast hle
    have hn : ∀ n : Nat, (0 : K) ≤ n := fun n => Nat.cast_nonneg n
    have ha := laws.area_nonneg q
    refine ⟨hle, ?_, ?_, ?_, ?_, ?_⟩
    · simp only [fromPolygon, Bool.false_eq_true, if_false]
      split
      · exact div_nonneg (hn _) (hn _)
      · exact le_refl _
    · simp only [fromPolygon, Bool.false_eq_true, if_false]
      split
      · exact div_le_one_of_le₀ hle' (hn _)
      · exact zero_le_one
    · simp only [fromPolygon, Bool.false_eq_true, if_false]
      by_cases h : count geo q z = 0
      · have : count geo q (masked z y) = 0 := by omega
        simp [h, this]
      · have h' : (count geo q z : K) ≠ 0 := by exact_mod_cast h
        simp only [ne_eq, h, not_false_eq_true, if_true]
        exact div_mul_cancel₀ _ h'
    · simp only [fromPolygon, Bool.false_eq_true, if_false]
      split
      · exact div_nonneg (hn _) ha
      · exact le_refl _
    · simp only [fromPolygon, Bool.false_eq_true, if_false]
      by_cases h : geo.area q = 0
      · have : count geo q z = 0 := by
          unfold count
          rw [List.length_eq_zero_iff, List.filter_eq_nil_iff]
          intro p _
          simp [laws.area_zero q p h]
        simp [h, this]
      · simp only [ne_eq, h, not_false_eq_true, if_true]
        exact div_mul_cancel₀ _ h
  cases smoothen with
  | false => exact ⟨key g, g, by simp [fromPolygon], by simp [fromPolygon, count],
      by simp [fromPolygon, inside_eq]⟩
  | true =>
    rw [fromPolygon_smooth]
    exact ⟨key _, geo.smooth g, by simp [fromPolygon], by simp [fromPolygon, count],
      by simp [fromPolygon, inside_eq]⟩

/-- The missing footprint has all measures zero, also when made by `from_polygon`, and is
consistent. -/
theorem C59_missing (geo : Geo G P K) (z : List P) (y : List Bool) (smoothen : Bool)
    (f : Footprint G K) (h : f = missing ∨ f = fromPolygon geo none z y smoothen) :
    f.polygon = none ∧ f.area = 0 ∧ f.elements = 0 ∧ f.good = 0 ∧ f.density = 0 ∧ f.purity = 0 ∧
      Consistent f := by
  have : f = missing := by rcases h with h | h <;> exact h
  subst this
  refine ⟨rfl, rfl, rfl, rfl, rfl, rfl, ⟨le_refl _, le_refl _, zero_le_one, ?_, le_refl _, ?_⟩⟩ <;>
    simp [missing]

/-- Every footprint made by `build` is consistent. -/
theorem C59_build (geo : Geo G P K) (laws : Laws geo) (purity : K) (z : List P) (y : List Bool) :
    Consistent (build geo purity z y) := by
  rcases build_madeFor geo purity z y with h | ⟨g, h⟩
  · rw [h]; exact (C59_missing geo z y false missing (.inl rfl)).2.2.2.2.2.2
  · rw [h]; exact (C59_from_polygon geo laws g z y false).1

/-- Non-vacuity for C59: five instances, three of them in the polygon and two of these good. -/
example : Laws (cells fun _ _ _ _ => true) ∧
    fromPolygon (cells fun _ _ _ _ => true) (some [1, 2, 3, 8]) [1, 2, 3, 4, 5]
      [true, false, true, true, false] true = ⟨some [1, 2, 3, 8], 4, 3, 2, 3/4, 2/3⟩ :=
  ⟨cells_laws _, by decide +kernel⟩

/-! ### C60 -/

/-- Entry `i` of both lists is computed for algorithm `i`, whatever the order of completion. -/
theorem C60_order {A B E : Type} (a0 : A) (b0 : B) (f : Nat → Except E (A × B)) (n : Nat)
    (order : List Nat) (ho : order.Perm (List.range n)) (a : Nat → A) (b : Nat → B)
    (hf : ∀ i, i < n → f i = .ok (a i, b i)) :
    computeQualities a0 b0 f n order = .ok ((List.range n).map a, (List.range n).map b) := by
  have hmem : ∀ i, i ∈ order ↔ i < n := fun i => by rw [ho.mem_iff, List.mem_range]
  obtain ⟨r', e, l1, l2, h1, h2⟩ := collect_ok f a b order (fun i hi => hf i ((hmem i).1 hi))
    (List.replicate n a0, List.replicate n b0)
  unfold computeQualities
  rw [e]
  congr 1
  have hl : ∀ i : Nat, i < n → (List.range n)[i]? = some i := fun i hi => by simp [hi]
  refine Prod.ext ?_ ?_
  · apply List.ext_getElem?
    intro i
    by_cases hi : i < n
    · rw [h1 i (by simpa using hi), if_pos ((hmem i).2 hi), List.getElem?_map, hl i hi]; rfl
    · rw [List.getElem?_eq_none (by simp at l1; omega), List.getElem?_eq_none (by simp; omega)]
  · apply List.ext_getElem?
    intro i
    by_cases hi : i < n
    · rw [h2 i (by simpa using hi), if_pos ((hmem i).2 hi), List.getElem?_map, hl i hi]; rfl
    · rw [List.getElem?_eq_none (by simp at l2; omega), List.getElem?_eq_none (by simp; omega)]

/-- If the computation for some algorithm raises, so does the whole, with the exception of one of
the algorithms. -/
theorem C60_raises {A B E : Type} (a0 : A) (b0 : B) (f : Nat → Except E (A × B)) (n : Nat)
    (order : List Nat) (ho : order.Perm (List.range n)) (h : ∃ i, i < n ∧ ∃ e, f i = .error e) :
    ∃ i, i < n ∧ ∃ e, f i = .error e ∧ computeQualities a0 b0 f n order = .error e := by
  have hmem : ∀ i, i ∈ order ↔ i < n := fun i => by rw [ho.mem_iff, List.mem_range]
  obtain ⟨i, hi, he⟩ := h
  obtain ⟨i', hi', e, h1, h2⟩ := collect_error f order
    (List.replicate n a0, List.replicate n b0) ⟨i, (hmem i).2 hi, he⟩
  exact ⟨i', (hmem i').1 hi', e, h1, h2⟩

/-- Non-vacuity for C60: three algorithms completing in the order 2, 0, 1. -/
example : [2, 0, 1].Perm (List.range 3) ∧
    computeQualities (E := String) 0 0 (fun i => .ok (10 * i, i + 7)) 3 [2, 0, 1] =
      .ok ([0, 10, 20], [7, 8, 9]) := ⟨by decide, rfl⟩

example : ∃ i, i < 3 ∧ ∃ e, (fun i => if i = 1 then Except.error "x" else .ok (i, i)) i =
    .error e := ⟨1, by decide, "x", rfl⟩

/-! ### C61, experimental data -/

/-- The instances whose best algorithm is the one with position `i`, for performance rows `ys`:
the mask that the property asks for (ties go to the first of the best, as in PRELIM). -/
def BestAt (maxPerf : Bool) (r : List Num) (i : Nat) : Prop :=
  ∃ b, Prelim.IsBest maxPerf r b ∧ r[i]? = some b ∧ ∀ k, k < i → r[k]? ≠ some b

/-- The property with UseSim off: the mask from which the best footprint of algorithm `i` is built
selects exactly the instances whose best algorithm is `i`. -/
def MaskRight : Prop :=
  ∀ (o : Prelim.Opts) (ys : List (List Num)) (outs : List Prelim.Row),
    Prelim.rows o ys = some outs → (∀ r ∈ ys, ∀ v ∈ r, ∃ q : ℚ, v = .fin q ∧ 0 < q) →
    ∀ i (k : Nat) (r : List Num), ys[k]? = some r → i < r.length →
      ((bestMask (outs.map (·.p)) i)[k]? = some true ↔ BestAt o.maxPerf r i)

theorem isBest_ne_worst {m : Bool} {row : List Num} {b : Num} (h : Prelim.IsBest m row b)
    (hf : ∀ v ∈ row, ∃ q : ℚ, v = .fin q ∧ 0 < q) : b ≠ Prelim.worst m ∧ b ≠ 0 := by
  obtain ⟨q, rfl, hq⟩ := hf b h.mem
  constructor
  · cases m <;> simp [Prelim.worst]
  · intro h0
    have : (Num.fin q) = Num.fin 0 := h0
    cases this
    exact lt_irrefl _ hq

theorem rows_get {o : Prelim.Opts} : ∀ {ys : List (List Num)} {outs : List Prelim.Row},
    Prelim.rows o ys = some outs → ∀ (k : Nat) (r : List Num), ys[k]? = some r →
      ∃ out, outs[k]? = some out ∧ Prelim.rowStep o r = some out := by
  intro ys
  induction ys with
  | nil => intro outs _ k r h; simp at h
  | cons y ys ih =>
    intro outs h k r hk
    rw [Prelim.rows] at h
    cases hy : Prelim.rowStep o y with
    | none => rw [hy] at h; cases h
    | some out =>
      rw [hy] at h
      cases hys : Prelim.rows o ys with
      | none => rw [hys] at h; cases h
      | some outs' =>
        rw [hys] at h
        cases h
        cases k with
        | zero =>
          simp only [List.getElem?_cons_zero, Option.some.injEq] at hk
          subst hk
          exact ⟨out, rfl, hy⟩
        | succ k => exact ih hys k r hk

/-- What holds instead with UseSim off: the mask of algorithm `i` selects the instances whose best
algorithm is the one *before* `i`.  (Performances are positive numbers, which excludes the
exceptions of C38.) -/
theorem C61_exact_partial (o : Prelim.Opts) (ys : List (List Num)) (outs : List Prelim.Row)
    (h : Prelim.rows o ys = some outs) (hpos : ∀ r ∈ ys, ∀ v ∈ r, ∃ q : ℚ, v = .fin q ∧ 0 < q)
    (k : Nat) (r : List Num) (hk : ys[k]? = some r) (j : Nat) (hj : BestAt o.maxPerf r j) (i : Nat) :
    (bestMask (outs.map (·.p)) i)[k]? = some (decide (i = j + 1)) := by
  obtain ⟨out, ho, hr⟩ := rows_get h k r hk
  obtain ⟨b, hb, hrj, hfirst⟩ := hj
  obtain ⟨hw, h0⟩ := isBest_ne_worst hb (hpos r (List.mem_of_getElem? hk))
  obtain ⟨p1, p2, p3, p4, -⟩ := Prelim.C38_partial o r out b hr hb hw (.inr (.inr (.inl h0)))
  have hpj : out.p - 1 = j := by
    rcases lt_trichotomy (out.p - 1) j with hlt | heq | hgt
    · exact absurd p3 (hfirst _ hlt)
    · exact heq
    · exact absurd hrj (p4 _ hgt)
  unfold bestMask
  rw [List.getElem?_map, List.getElem?_map, ho]
  simp only [Option.map_some, Option.some.injEq, decide_eq_decide]
  omega

/-- **C61** is false with UseSim off: instance 0 is best for algorithm 1 but used for the footprint
of algorithm 2 (which does not exist). -/
theorem C61_refuted : ¬ MaskRight := by
  intro h
  have hrows : Prelim.rows ⟨true, true, 1, 1, false, false⟩ [[1, 2]] =
    some [⟨[true, true], 2, 2, 2, false, [1, 2], [1, 2]⟩] := by decide +kernel
  have hpos : ∀ r ∈ [[(1 : Num), 2]], ∀ v ∈ r, ∃ q : ℚ, v = .fin q ∧ 0 < q := by
    intro r hr v hv
    simp only [List.mem_cons, List.not_mem_nil, or_false] at hr
    subst hr
    simp only [List.mem_cons, List.not_mem_nil, or_false] at hv
    rcases hv with rfl | rfl
    · exact ⟨1, rfl, by norm_num⟩
    · exact ⟨2, rfl, by norm_num⟩
  have hbest : BestAt true [1, 2] 1 := by
    refine ⟨2, ⟨by simp, by decide, ?_⟩, rfl, ?_⟩
    · intro c hc _
      simp only [List.mem_cons, List.not_mem_nil, or_false] at hc
      rcases hc with rfl | rfl
      · show Num.le 1 2 = true; decide +kernel
      · show Num.le 2 2 = true; decide +kernel
    · intro k hk
      have : k = 0 := by omega
      subst this
      decide
  have := (h _ [[1, 2]] _ hrows hpos 1 0 [1, 2] rfl (by decide)).2 hbest
  revert this
  decide

/-- With UseSim off the best footprint of the first algorithm is always missing. -/
theorem C61_first_missing_partial (geo : Geo G P K) (laws : Laws geo) (purity : K) (z : List P)
    (yBin : List (List Bool)) (o : Prelim.Opts) (ys : List (List Num)) (outs : List Prelim.Row)
    (h : Prelim.rows o ys = some outs) :
    (processAlgorithm geo purity z yBin (outs.map (·.p)) 0).2 = missing := by
  have hp : ∀ (ys : List (List Num)) (outs : List Prelim.Row), Prelim.rows o ys = some outs →
      ∀ out ∈ outs, out.p ≠ 0 := by
    intro ys
    induction ys with
    | nil => intro outs h out ho; cases h; cases ho
    | cons y ys ih =>
      intro outs h out ho
      rw [Prelim.rows] at h
      cases hy : Prelim.rowStep o y with
      | none => rw [hy] at h; cases h
      | some out' =>
        rw [hy] at h
        cases hys : Prelim.rows o ys with
        | none => rw [hys] at h; cases h
        | some outs' =>
          rw [hys] at h
          cases h
          rcases List.mem_cons.1 ho with rfl | ho
          · unfold Prelim.rowStep at hy
            split at hy
            · cases hy
            · simp only [Option.some.injEq] at hy
              rw [← hy]
              simp only
              split <;> split <;> exact Nat.succ_ne_zero _
          · exact ih outs' hys out ho
  have hm : ∀ b ∈ bestMask (outs.map (·.p)) 0, b = false := by
    intro b hb
    unfold bestMask at hb
    simp only [List.map_map, List.mem_map, Function.comp] at hb
    obtain ⟨out, ho, rfl⟩ := hb
    simpa using hp ys outs h out ho
  show build geo purity z _ = missing
  unfold build
  rw [masked_all_false z _ hm]
  have := laws.unique_length []
  simp only [List.length_nil, Nat.le_zero] at this
  simp [this]

/-- Non-vacuity for C61: two instances that are best for the algorithms 1 and 0 are used for the
footprints of the algorithms 2 and 1. -/
example : (Prelim.rows ⟨true, true, 1, 1, false, false⟩ [[1, 2, 1], [5, 4, 4]]).map
    (fun outs => (List.range 3).map (bestMask (outs.map (·.p)))) =
      some [[false, false], [false, true], [true, false]] := by decide +kernel

/-! ### C62 -/

/-- The property: whenever two footprints overlap, `contra` returns with the overlap removed from
the less pure one. -/
def ContraResolves : Prop :=
  ∀ (geo : Geo (List Nat) Nat ℚ), Laws geo → ∀ (z : List Nat) (b t : List Nat) (yb yt : List Bool),
    yb.length = z.length → yt.length = z.length →
    geo.isEmpty (geo.inter b t) = false →
    ∃ r, contra geo z (fromPolygon geo (some b) z yb false) (fromPolygon geo (some t) z yt false)
        yb yt = .ok r ∧ Resolved geo z b t yb yt r

/-- **C62** is false: two overlapping footprints with different purity make `contra` raise
`AttributeError`. -/
theorem C62_refuted : ¬ ContraResolves := by
  intro h
  obtain ⟨r, hr, -⟩ := h (cells fun _ _ _ _ => true) (cells_laws _) [0, 1, 2, 3, 4, 5]
    [0, 1, 2, 3] [2, 3, 4, 5] [true, true, true, true, false, false]
    [false, false, false, false, true, true] rfl rfl rfl
  have he : contra (cells fun _ _ _ _ => true) [0, 1, 2, 3, 4, 5]
      (fromPolygon (cells fun _ _ _ _ => true) (some [0, 1, 2, 3]) [0, 1, 2, 3, 4, 5]
        [true, true, true, true, false, false] false)
      (fromPolygon (cells fun _ _ _ _ => true) (some [2, 3, 4, 5]) [0, 1, 2, 3, 4, 5]
        [false, false, false, false, true, true] false)
      [true, true, true, true, false, false] [false, false, false, false, true, true] =
      .error .attributeError := rfl
  rw [he] at hr
  cases hr

/-- What holds instead, for every geometry in which only non-empty geometries overlap: if the
polygons overlap and the overlap contains more instances of one algorithm than of the other,
`contra` raises; in all other cases it returns both footprints unchanged.  So nothing is ever
removed. -/
theorem C62_exact_partial (geo : Geo G P K) (laws : Laws geo) (z : List P) (b t : G)
    (yb yt : List Bool) :
    let f := fromPolygon geo (some b) z yb false
    let g := fromPolygon geo (some t) z yt false
    (Conflict geo z b t yb yt → ∃ e, contra geo z f g yb yt = .error e) ∧
    (¬ Conflict geo z b t yb yt → contra geo z f g yb yt = .ok (f, g)) := by
  intro f g
  obtain ⟨h1, h2⟩ := contra_spec geo laws.inter_left z yb yt f g (.inr ⟨b, rfl⟩) (.inr ⟨t, rfl⟩)
  constructor
  · intro hc
    exact h1 ⟨b, t, fromPolygon_polygon .., fromPolygon_polygon .., hc⟩
  · intro hc
    refine h2 ?_
    rintro ⟨b', t', hb, ht, hc'⟩
    rw [fromPolygon_polygon] at hb ht
    cases hb; cases ht
    exact hc hc'

/-- Non-vacuity for C62: a conflict, and an overlap without one. -/
example : Conflict (cells fun _ _ _ _ => true) [0, 1, 2, 3] [0, 1, 2] [2, 3]
    [true, true, true, false] [false, false, false, true] ∧
  ¬ Conflict (cells fun _ _ _ _ => true) [0, 1, 2, 3] [0, 1, 7] [7, 3]
    [true, true, true, false] [false, false, false, true] := by
  unfold Conflict; decide

/-! ### C94: when the whole analysis completes -/

/-- For every order of completion, TRACE completes exactly when no two of the best footprints
overlap in a region with more instances of one algorithm than of the other, and then the best
footprints are the ones that were built, unchanged. -/
theorem C94_completes (geo : Geo G P K) (laws : Laws geo) (purity : K) (z : List P)
    (yBin : List (List Bool)) (p : List Nat) (beta : List Bool) (n : Nat) (order : List Nat)
    (ho : order.Perm (List.range n)) :
    ∃ quals, computeQualities (E := Err) missing missing
        (fun i => .ok (processAlgorithm geo purity z yBin p i)) n order = .ok quals ∧
      ((∃ out, trace geo purity z p beta n quals = .ok out) ↔
        ∀ i j b t, i < j → j < n → (build geo purity z (bestMask p i)).polygon = some b →
          (build geo purity z (bestMask p j)).polygon = some t →
          ¬ Conflict geo z b t (bestMask p i) (bestMask p j)) ∧
      ∀ out, trace geo purity z p beta n quals = .ok out →
        out.space = build geo purity z (List.replicate z.length true) ∧
        out.hard = build geo purity z (beta.map not) ∧
        out.good = (List.range n).map (fun i => build geo purity z (goodMask yBin i)) ∧
        out.best = (List.range n).map fun i => build geo purity z (bestMask p i) := by
  refine ⟨_, C60_order missing missing _ n order ho
    (fun i => build geo purity z (goodMask yBin i)) (fun i => build geo purity z (bestMask p i))
    (fun _ _ => rfl), ?_⟩
  have hget : ∀ i, i < n → (((List.range n).map fun i => build geo purity z (bestMask p i)).getD i
      missing) = build geo purity z (bestMask p i) := by
    intro i hi; simp [List.getD, hi]
  obtain ⟨h1, h2⟩ := contraOuter_spec geo z p laws.inter_left
    ((List.range n).map fun i => build geo purity z (bestMask p i)) (by
      intro j f hf
      rw [List.getElem?_map] at hf
      obtain ⟨q, hq, rfl⟩ := Option.map_eq_some_iff.1 hf
      obtain ⟨hlt, hq⟩ := List.getElem?_eq_some_iff.1 hq
      rw [List.getElem_range] at hq
      subst hq
      exact build_madeFor geo purity z _) (List.range n) (by simp)
  simp only [List.length_map, List.length_range] at h1 h2
  unfold trace
  by_cases hc : ∃ i ∈ List.range n, ∃ j, i < j ∧ j < n ∧
      FConflict geo z (((List.range n).map fun i => build geo purity z (bestMask p i)).getD i missing)
        (((List.range n).map fun i => build geo purity z (bestMask p i)).getD j missing)
        (bestMask p i) (bestMask p j)
  · obtain ⟨e, he⟩ := h1 hc
    simp only [he]
    refine ⟨⟨?_, ?_⟩, ?_⟩
    · rintro ⟨_, h⟩; cases h
    · intro hno
      exfalso
      obtain ⟨i, hi, j, hij, hj, b, t, hb, ht, hcf⟩ := hc
      rw [hget i (List.mem_range.1 hi)] at hb
      rw [hget j hj] at ht
      exact hno i j b t hij hj hb ht hcf
    · rintro _ h; cases h
  · rw [h2 hc]
    refine ⟨⟨?_, fun _ => ⟨_, rfl⟩⟩, ?_⟩
    · intro _ i j b t hij hj hb ht hcf
      refine hc ⟨i, List.mem_range.2 (by omega), j, hij, hj, b, t, ?_, ?_, hcf⟩
      · rw [hget i (by omega)]; exact hb
      · rw [hget j hj]; exact ht
    · intro out h
      cases h
      refine ⟨?_, rfl, rfl, rfl⟩
      simp [List.map_const']

/-- The polygons of the best footprints, for the examples. -/
def bestPolygons : Except Err (Out (List Nat) ℚ) → Option (List (Option (List Nat)))
  | .ok o => some (o.best.map (·.polygon))
  | .error _ => none

/-- Non-vacuity for C94: two algorithms, eight instances.  The analysis completes; with a geometry
in which both footprints contain the first instance it raises. -/
example : [1, 0].Perm (List.range 2) ∧ Laws (cells fun _ _ _ _ => true) ∧
    (let geo := cells fun _ _ _ _ => true
     let p := [0, 0, 0, 0, 1, 1, 1, 1]
     bestPolygons (trace geo (1/2) (List.range 8) p [] 2
       ([], (List.range 2).map fun i => build geo (1/2) (List.range 8) (bestMask p i)))) =
      some [some [0, 1, 2, 3], some [4, 5, 6, 7]] ∧
    (let geo := { cells fun _ _ _ _ => true with alpha := fun l => 0 :: l, triangulate := fun _ => [] }
     let p := [0, 0, 0, 0, 1, 1, 1, 1]
     bestPolygons (trace geo (1/2) (List.range 8) p [] 2
       ([], (List.range 2).map fun i => build geo (1/2) (List.range 8) (bestMask p i)))) =
      none :=
  ⟨by decide, cells_laws _, by decide +kernel, by decide +kernel⟩

/-! ### C95: triangles that are not pure enough are cut out -/

theorem prune_foldl (geo : Geo G P K) (laws : Laws geo) (purity : K) (z : List P) (y : List Bool)
    (p : P) : ∀ (ts : List G) (g : G),
      geo.contains (ts.foldl (prune geo purity z y) g) p = true →
      geo.contains g p = true ∧ ∀ t ∈ ts,
        0 < count geo (geo.hull t) z →
        (count geo (geo.hull t) (masked z y) : K) / (count geo (geo.hull t) z : K) < purity →
        geo.contains t p = false := by
  intro ts
  induction ts with
  | nil => intro g h; exact ⟨h, by simp⟩
  | cons t ts ih =>
    intro g h
    rw [List.foldl_cons] at h
    obtain ⟨h1, h2⟩ := ih _ h
    unfold prune at h1
    simp only at h1
    split at h1
    · obtain ⟨h3, h4⟩ := laws.diff_contains _ _ _ h1
      refine ⟨h3, fun t' ht' => ?_⟩
      rcases List.mem_cons.1 ht' with rfl | ht'
      · exact fun _ _ => h4
      · exact h2 t' ht'
    · next hn =>
      refine ⟨h1, fun t' ht' => ?_⟩
      rcases List.mem_cons.1 ht' with rfl | ht'
      · exact fun a b => absurd ⟨a, b⟩ hn
      · exact h2 t' ht'

/-- A point in the polygon fitted to a cluster lies in the alpha shape of the cluster and in no
triangle whose purity (good instances among the instances in it) is below the option, unless all
instances are good. -/
theorem C95_pure_triangles (geo : Geo G P K) (laws : Laws geo) (purity : K) (z polydata : List P)
    (y : List Bool) (g : G) (h : fitPoly geo purity z polydata y = some g)
    (hy : ∃ b ∈ y, b = false) (p : P) (hp : geo.contains g p = true) :
    geo.contains (geo.alpha polydata) p = true ∧
    ∀ t ∈ geo.triangulate (geo.alpha polydata), geo.contains t p = true →
      purity * (z.filter (geo.contains t)).length ≤ inside geo t z y := by
  have hall : y.all id = false := by
    obtain ⟨b, hb, rfl⟩ := hy
    rw [List.all_eq_false]
    exact ⟨false, hb, by simp⟩
  unfold fitPoly at h
  split at h
  · cases h
  · simp only [hall, Bool.false_eq_true, if_false] at h
    split at h
    · cases h
    · simp only [Option.some.injEq] at h
      subst h
      obtain ⟨h1, h2⟩ := prune_foldl geo laws purity z y p _ _ hp
      refine ⟨h1, fun t ht htp => ?_⟩
      have hcount : ∀ l, count geo (geo.hull t) l = count geo t l := by
        intro l
        unfold count
        congr 1
        exact List.filter_congr fun q _ => laws.hull_piece _ t q ht
      have h3 := h2 t ht
      rw [hcount, hcount] at h3
      rw [inside_eq]
      show purity * (count geo t z : K) ≤ _
      rcases Nat.eq_zero_or_pos (count geo t z) with h0 | hpos
      · have hle := count_masked_le geo t z y
        have h00 : count geo t (masked z y) = 0 := by omega
        rw [h0, h00]; simp
      · have hpos' : (0 : K) < count geo t z := by exact_mod_cast hpos
        by_contra hlt
        rw [not_le] at hlt
        have := h3 hpos ((div_lt_iff₀ hpos').2 hlt)
        rw [this] at htp
        cases htp

/-- Non-vacuity for C95: the cell 3 is cut out because its only instance is not good. -/
example : fitPoly (cells fun _ _ _ _ => true) (1/2) [1, 2, 3, 4] [1, 2, 3] [true, true, false, true] =
    some [1, 2] := by decide +kernel

/-! ### C96: missing footprints -/

/-- A footprint is missing exactly when fewer than three distinct instances are selected. -/
theorem C96_missing (geo : Geo G P K) (purity : K) (z : List P) (y : List Bool) :
    (build geo purity z y).polygon = none ↔ (geo.unique (masked z y)).length < 3 := by
  unfold build
  simp only
  split
  · simp_all [missing]
  · simp_all [fromPolygon]

/-- Non-vacuity for C96: two and three distinct instances. -/
example : (build (cells fun _ _ _ _ => true) (1/2) [1, 2, 1, 3] [true, true, true, false]).polygon =
    none ∧
  (build (cells fun _ _ _ _ => true) (1/2) [1, 2, 1, 3, 4] [true, true, true, true, true]).polygon =
    some [1, 2, 3, 4] := by decide +kernel

/-! ### C63 -/

/-- All five numbers of a summary row are there and none is NaN. -/
theorem C63_present (area density purity spaceArea spaceDensity : Num) :
    (summary area density purity spaceArea spaceDensity).length = 5 ∧
    ∀ v ∈ summary area density purity spaceArea spaceDensity, v ≠ .nan := by
  refine ⟨by simp [summary], ?_⟩
  intro v hv
  unfold summary at hv
  obtain ⟨w, -, rfl⟩ := List.mem_map.1 hv
  split
  · intro h; cases h
  · next h => intro h'; rw [h'] at h; exact h rfl

/-- What the second part of the property asks for: a ratio with denominator 0 is reported as 0. -/
def UndefinedAsZero : Prop :=
  ∀ area density purity spaceArea spaceDensity : ℚ, ∀ l,
    summary (.fin area) (.fin density) (.fin purity) (.fin spaceArea) (.fin spaceDensity) = l →
    (spaceArea = 0 → l[1]? = some 0) ∧ (spaceDensity = 0 → l[3]? = some 0)

/-- **C63** is false in its second part: with space area 0 the area itself is reported. -/
theorem C63_refuted : ¬ UndefinedAsZero := by
  intro h
  have := (h 5 1 1 0 1 _ rfl).1 rfl
  revert this
  decide +kernel

/-- Every entry of a summary of numbers: the measures themselves, and their ratios to those of the
space when these are not 0, else the measures once more.  Missing for the full property: an
undefined ratio is reported as the measure instead of 0. -/
theorem C63_partial (area density purity spaceArea spaceDensity : ℚ) :
    summary (.fin area) (.fin density) (.fin purity) (.fin spaceArea) (.fin spaceDensity) =
      [.fin area, .fin (if spaceArea = 0 then area else area / spaceArea),
       .fin density, .fin (if spaceDensity = 0 then density else density / spaceDensity),
       .fin purity] := by
  have heq : ∀ q : ℚ, Num.eq (.fin q) 0 = decide (q = 0) := by
    intro q
    show decide (Num.fin q = Num.fin 0) = _
    rw [decide_eq_decide]
    constructor
    · intro h; cases h; rfl
    · rintro rfl; rfl
  have hdiv : ∀ a b : ℚ, b ≠ 0 → (Num.fin a / Num.fin b) = .fin (a / b) := by
    intro a b hb
    show Num.div (.fin a) (.fin b) = _
    simp [Num.div, hb]
  unfold summary
  simp only [heq]
  by_cases h1 : spaceArea = 0 <;> by_cases h2 : spaceDensity = 0 <;>
    simp [h1, h2, hdiv, Num.isNan]

/-- Non-vacuity for C63: NaN is replaced, and an ordinary row. -/
example : summary 2 .nan 1 4 8 = [2, .fin (1/2), 0, 0, 1] ∧
    summary 2 3 1 4 8 = [2, .fin (1/2), 3, .fin (3/8), 1] := by decide +kernel

end Verif.Trace
