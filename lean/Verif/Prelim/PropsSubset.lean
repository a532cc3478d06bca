import Verif.Prelim.Subset
import Verif.Preprocessing.Lemmas
import Verif.Filter.Props
import Mathlib.Tactic.ByContra
/-!
# Subsetting in PRELIM: properties C43 - C45
-/
set_option autoImplicit false
set_option linter.unusedSectionVars false

namespace Verif.Prelim

open Verif.Preprocessing (pick Lists pick_all lists_filter)

variable {X Y B N T P L S : Type}

/-- One entry per instance in every array. -/
structure Arrays.Fits (a : Arrays X Y B N T P L S) (n : Nat) : Prop where
  x : a.x.length = n
  y : a.y.length = n
  xRaw : a.xRaw.length = n
  yRaw : a.yRaw.length = n
  yBin : a.yBin.length = n
  beta : a.beta.length = n
  numGood : a.numGood.length = n
  yBest : a.yBest.length = n
  p : a.p.length = n
  inst : a.inst.length = n
  s : ∀ s, a.s = some s → s.length = n

/-- Every array of `b` holds the entries of the same array of `a` at the positions `is`. -/
structure SamePicks (is : List Nat) (a b : Arrays X Y B N T P L S) : Prop where
  x : b.x = pick a.x is
  y : b.y = pick a.y is
  xRaw : b.xRaw = pick a.xRaw is
  yRaw : b.yRaw = pick a.yRaw is
  yBin : b.yBin = pick a.yBin is
  beta : b.beta = pick a.beta is
  numGood : b.numGood = pick a.numGood is
  yBest : b.yBest = pick a.yBest is
  p : b.p = pick a.p is
  inst : b.inst = pick a.inst is
  s : b.s = a.s.map fun s => pick s is

/-- Positions where a mask is true. -/
def trues (m : List Bool) : List Nat := (List.range m.length).filter fun i => m[i]? == some true

theorem mask_trues {α : Type} (l : List α) (m : List Bool) (h : l.length = m.length) :
    mask l m = pick l (trues m) := by
  have h1 : mask l m = Preprocessing.mask l (m.map not) := by
    unfold mask Preprocessing.mask
    rw [List.zip_map_right, List.filter_map, List.map_map]
    have e1 : ((fun p : α × Bool => !p.2) ∘ Prod.map id not) = fun p : α × Bool => p.2 := by
      funext p; simp
    have e2 : (Prod.fst ∘ Prod.map (id : α → α) not) = Prod.fst := by funext p; rfl
    rw [e1, e2]
  rw [h1, Preprocessing.mask_pick _ _ (by simpa using h)]
  unfold trues
  rw [List.length_map]
  congr 1
  apply List.filter_congr
  intro i hi
  rw [List.mem_range] at hi
  rw [List.getElem?_map, List.getElem?_eq_getElem hi]
  cases m[i] <;> rfl

theorem trues_increasing (m : List Bool) : (trues m).Pairwise (· < ·) :=
  List.Pairwise.filter _ List.pairwise_lt_range

theorem trues_lists (m : List Bool) (Q : Nat → Prop)
    (h : ∀ i, i < m.length → (m[i]? = some true ↔ Q i)) : Lists (trues m) m.length Q := by
  apply lists_filter
  intro i hi
  rw [← h i hi]
  simp

theorem setTrue_spec {n : Nat} {idx : List Int} {m : List Bool} (h : setTrue n idx = some m) :
    m.length = n ∧ ∀ i : Nat, i < n →
      (m[i]? = some true ↔ (i : Int) ∈ idx ∨ (i : Int) - n ∈ idx) := by
  unfold setTrue at h
  split at h
  · cases h
    refine ⟨by simp, ?_⟩
    intro i hi
    rw [List.getElem?_map, List.getElem?_range hi]
    simp only [Option.map_some, Option.some.injEq, List.any_eq_true, Bool.or_eq_true,
      decide_eq_true_eq]
    constructor
    · rintro ⟨j, hj, rfl | h⟩
      · exact .inl hj
      · have : j = (i : Int) - n := by omega
        exact .inr (this ▸ hj)
    · rintro (h | h)
      · exact ⟨_, h, .inl rfl⟩
      · exact ⟨_, h, .inr (by omega)⟩
  · cases h

theorem subsetIndex_length {o : SubsetOpts} {tests : Filter.Tests (X × Y × B)} {nfeats : Nat}
    {split : Option (List Nat)} {file : Option (List Int)} {a : Arrays X Y B N T P L S} {n : Nat}
    (ha : a.Fits n) {m : List Bool} (h : subsetIndex o tests nfeats split file a = .ok m) :
    m.length = n := by
  unfold subsetIndex at h
  split at h
  · split at h
    · cases h
    · split at h
      · cases h
      · next hs => cases h; rw [(setTrue_spec hs).1, ha.x]
  · split at h
    · split at h
      · cases h
      · split at h
        · cases h
        · next hs => cases h; rw [(setTrue_spec hs).1, ha.x]
    · split at h
      · split at h
        · cases h
        · next hs =>
          cases h
          obtain ⟨-, t, -, rfl⟩ := ((Filter.C31_call _ _ _ _).1 _).1 hs
          simp [Filter.filterInstance, ha.x, ha.y, ha.yBin]
      · cases h
        simpa using ha.x

/-- Everything about a successful call in terms of its mask. -/
theorem filter_ok {o : SubsetOpts} {tests : Filter.Tests (X × Y × B)} {nfeats : Nat}
    {split : Option (List Nat)} {file : Option (List Int)} {a b : Arrays X Y B N T P L S} {n : Nat}
    {dd : Option (Arrays X Y B N T P L S)} (ha : a.Fits n)
    (h : filter o tests nfeats split file a = .ok (b, dd)) :
    ∃ m, subsetIndex o tests nfeats split file a = .ok m ∧ m.length = n ∧
      SamePicks (trues m) a b ∧ dd = if o.byDensity then some a else none := by
  unfold filter at h
  cases hm : subsetIndex o tests nfeats split file a with
  | error e => rw [hm] at h; cases h
  | ok m =>
    rw [hm] at h
    have hl := subsetIndex_length ha hm
    refine ⟨m, rfl, hl, ?_⟩
    simp only at h
    split at h
    · cases h
      refine ⟨⟨?_, ?_, ?_, ?_, ?_, ?_, ?_, ?_, ?_, ?_, ?_⟩, rfl⟩
      · exact mask_trues _ _ (by rw [ha.x, hl])
      · exact mask_trues _ _ (by rw [ha.y, hl])
      · exact mask_trues _ _ (by rw [ha.xRaw, hl])
      · exact mask_trues _ _ (by rw [ha.yRaw, hl])
      · exact mask_trues _ _ (by rw [ha.yBin, hl])
      · exact mask_trues _ _ (by rw [ha.beta, hl])
      · exact mask_trues _ _ (by rw [ha.numGood, hl])
      · exact mask_trues _ _ (by rw [ha.yBest, hl])
      · exact mask_trues _ _ (by rw [ha.p, hl])
      · exact mask_trues _ _ (by rw [ha.inst, hl])
      · cases hs : a.s with
        | none => rfl
        | some s =>
          simp only [Option.map_some, Option.some.injEq]
          exact mask_trues _ _ (by rw [ha.s s hs, hl])
    · next hc =>
      cases h
      simp only [Bool.or_eq_true, not_or, Bool.not_eq_true] at hc
      obtain ⟨⟨h1, h2⟩, h3⟩ := hc
      have hm' : m = List.replicate n true := by
        unfold subsetIndex at hm
        rw [h1, h2, h3] at hm
        simp only [Bool.false_eq_true, if_false, Except.ok.injEq] at hm
        subst hm
        rw [List.map_const', ha.x]
      have hr : trues m = List.range n := by
        unfold trues
        rw [hl, List.filter_eq_self]
        intro i hi
        rw [List.mem_range] at hi
        simp [hm', hi]
      have key : ∀ {α : Type} (l : List α), l.length = n → l = pick l (trues m) := by
        intro α l h
        rw [hr, pick_all l _ (by rw [h])]
      refine ⟨⟨key _ ha.x, key _ ha.y, key _ ha.xRaw, key _ ha.yRaw, key _ ha.yBin, key _ ha.beta,
        key _ ha.numGood, key _ ha.yBest, key _ ha.p, key _ ha.inst, ?_⟩, by rw [h3]; rfl⟩
      cases hs : a.s with
      | none => rfl
      | some s =>
        simp only [Option.map_some, Option.some.injEq]
        exact key _ (ha.s s hs)

/-- **C43** Whatever options are active, one increasing list of instance positions is applied to
every per-instance array. -/
theorem C43_one_selection (o : SubsetOpts) (tests : Filter.Tests (X × Y × B)) (nfeats : Nat)
    (split : Option (List Nat)) (file : Option (List Int)) (a b : Arrays X Y B N T P L S) (n : Nat)
    (dd : Option (Arrays X Y B N T P L S)) (ha : a.Fits n)
    (h : filter o tests nfeats split file a = .ok (b, dd)) :
    ∃ is : List Nat, is.Pairwise (· < ·) ∧ (∀ i ∈ is, i < n) ∧ SamePicks is a b := by
  obtain ⟨m, -, hl, hp, -⟩ := filter_ok ha h
  refine ⟨trues m, trues_increasing m, ?_, hp⟩
  intro i hi
  unfold trues at hi
  rw [List.mem_filter, List.mem_range, hl] at hi
  exact hi.1

/-- The random fraction is used: requested and of fractional size. -/
def UsesFraction (o : SubsetOpts) : Prop := o.smallScaleFlag = true ∧ o.smallScaleIsFloat = true

/-- The index file is used: no fraction, requested and present. -/
def UsesFile (o : SubsetOpts) : Prop :=
  ¬ UsesFraction o ∧ o.fileIdxFlag = true ∧ o.fileExists = true

/-- The density filter is requested, with options of the declared types. -/
def AsksDensity (o : SubsetOpts) : Prop :=
  o.densityFlag = true ∧ o.minDistanceIsFloat = true ∧ o.typeIsStr = true

/-- The density filter is used. -/
def UsesDensity (o : SubsetOpts) : Prop := ¬ UsesFraction o ∧ ¬ UsesFile o ∧ AsksDensity o

theorem fractional_iff (o : SubsetOpts) : o.fractional = true ↔ UsesFraction o := by
  simp [SubsetOpts.fractional, UsesFraction]

theorem byDensity_iff (o : SubsetOpts) : o.byDensity = true ↔ AsksDensity o := by
  simp [SubsetOpts.byDensity, AsksDensity]

/-- **C44** A requested fraction wins: exactly the instances of the split are kept. -/
theorem C44_fraction (o : SubsetOpts) (tests : Filter.Tests (X × Y × B)) (nfeats : Nat)
    (split : Option (List Nat)) (file : Option (List Int)) (a b : Arrays X Y B N T P L S) (n : Nat)
    (dd : Option (Arrays X Y B N T P L S)) (ha : a.Fits n) (ho : UsesFraction o)
    (h : filter o tests nfeats split file a = .ok (b, dd)) :
    ∃ js is, split = some js ∧ Lists is n (· ∈ js) ∧ SamePicks is a b := by
  obtain ⟨m, hm, hl, hp, -⟩ := filter_ok ha h
  unfold subsetIndex at hm
  rw [(fractional_iff o).2 ho] at hm
  simp only [if_true] at hm
  cases split with
  | none => cases hm
  | some js =>
    refine ⟨js, trues m, rfl, ?_, hp⟩
    simp only at hm
    cases hs : setTrue a.x.length (js.map Int.ofNat) with
    | none => rw [hs] at hm; cases hm
    | some m' =>
      rw [hs] at hm
      cases hm
      have := (setTrue_spec hs).2
      rw [ha.x] at this
      rw [← hl]
      apply trues_lists
      intro i hi
      rw [hl] at hi
      rw [this i hi]
      simp only [List.mem_map, Int.ofNat_eq_natCast]
      constructor
      · rintro (⟨j, hj, h⟩ | ⟨j, hj, h⟩)
        · have : j = i := by omega
          exact this ▸ hj
        · omega
      · intro h
        exact .inl ⟨i, h, rfl⟩

/-- **C44** Otherwise, without an index file, a requested density filter decides: exactly the
instances that the filter does not exclude are kept. -/
theorem C44_density (o : SubsetOpts) (tests : Filter.Tests (X × Y × B)) (nfeats : Nat)
    (split : Option (List Nat)) (file : Option (List Int)) (a b : Arrays X Y B N T P L S) (n : Nat)
    (dd : Option (Arrays X Y B N T P L S)) (ha : a.Fits n) (ho : UsesDensity o)
    (h : filter o tests nfeats split file a = .ok (b, dd)) :
    ∃ flags is, Filter.filterCall tests nfeats o.selvarsType (a.x.zip (a.y.zip a.yBin)) = .ok flags ∧
      Lists is n (fun i => ∃ f, flags[i]? = some f ∧ f.excluded = false) ∧ SamePicks is a b := by
  obtain ⟨m, hm, hl, hp, -⟩ := filter_ok ha h
  obtain ⟨h1, h2, h3⟩ := ho
  have e1 : o.fractional = false := by
    rw [← Bool.not_eq_true, fractional_iff]; exact h1
  have e2 : o.fileIndexed = false := by
    rw [← Bool.not_eq_true]
    intro h
    simp only [SubsetOpts.fileIndexed, Bool.and_eq_true] at h
    exact h2 ⟨h1, h⟩
  unfold subsetIndex at hm
  rw [e1, e2, (byDensity_iff o).2 h3] at hm
  simp only [Bool.false_eq_true, if_false, if_true] at hm
  cases hf : Filter.filterCall tests nfeats o.selvarsType (a.x.zip (a.y.zip a.yBin)) with
  | error e => rw [hf] at hm; cases hm
  | ok flags =>
    rw [hf] at hm
    cases hm
    refine ⟨flags, _, rfl, ?_, hp⟩
    rw [← hl]
    apply trues_lists
    intro i hi
    rw [List.length_map] at hi
    rw [List.getElem?_map, List.getElem?_eq_getElem hi]
    simp

/-- **C44** Otherwise all instances are kept. -/
theorem C44_all (o : SubsetOpts) (tests : Filter.Tests (X × Y × B)) (nfeats : Nat)
    (split : Option (List Nat)) (file : Option (List Int)) (a : Arrays X Y B N T P L S)
    (h1 : ¬ UsesFraction o) (h2 : ¬ UsesFile o) (h3 : ¬ UsesDensity o) :
    filter o tests nfeats split file a = .ok (a, none) := by
  have e1 : o.fractional = false := by
    rw [← Bool.not_eq_true, fractional_iff]; exact h1
  have e2 : o.fileIndexed = false := by
    rw [← Bool.not_eq_true]
    intro h
    simp only [SubsetOpts.fileIndexed, Bool.and_eq_true] at h
    exact h2 ⟨h1, h⟩
  have e3 : o.byDensity = false := by
    rw [← Bool.not_eq_true, byDensity_iff]
    intro h
    exact h3 ⟨h1, h2, h⟩
  unfold filter subsetIndex
  rw [e1, e2, e3]
  rfl

/-- **C44** `data_dense` is returned exactly when the density filter is requested, even if another
option took precedence, and then it is the complete data. -/
theorem C44_dense (o : SubsetOpts) (tests : Filter.Tests (X × Y × B)) (nfeats : Nat)
    (split : Option (List Nat)) (file : Option (List Int)) (a b : Arrays X Y B N T P L S) (n : Nat)
    (dd : Option (Arrays X Y B N T P L S)) (ha : a.Fits n)
    (h : filter o tests nfeats split file a = .ok (b, dd)) :
    (AsksDensity o → dd = some a) ∧ (¬ AsksDensity o → dd = none) := by
  obtain ⟨m, -, -, -, rfl⟩ := filter_ok ha h
  constructor
  · intro h
    rw [(byDensity_iff o).2 h]
    rfl
  · intro h
    rw [← byDensity_iff, Bool.not_eq_true] at h
    rw [h]
    rfl

/-- **C45** exactly: instance `i` (from 0) is kept when its one-based number is listed and is not
the last one, or when its number minus the number of instances is listed (so the entry 0 selects
the last instance); the call fails exactly when an entry below `n` is `≤ -n`. -/
theorem C45_exact_partial (o : SubsetOpts) (tests : Filter.Tests (X × Y × B)) (nfeats : Nat)
    (split : Option (List Nat)) (nums : List Int) (a : Arrays X Y B N T P L S) (n : Nat)
    (ha : a.Fits n) (ho : UsesFile o) :
    ((∃ r, filter o tests nfeats split (some nums) a = .ok r) ↔ ∀ k ∈ nums, k < n → -(n : Int) < k) ∧
    ∀ b dd, filter o tests nfeats split (some nums) a = .ok (b, dd) →
      ∃ is, SamePicks is a b ∧ Lists is n (fun i =>
        ((i : Int) + 1 ∈ nums ∧ i + 1 < n) ∨ (i : Int) + 1 - n ∈ nums) := by
  have e1 : o.fractional = false := by
    rw [← Bool.not_eq_true, fractional_iff]; exact ho.1
  have e2 : o.fileIndexed = true := by
    simp only [SubsetOpts.fileIndexed, Bool.and_eq_true]
    exact ho.2
  have hm : subsetIndex o tests nfeats split (some nums) a =
      match fromFile n nums with
      | none => .error .indexError
      | some m => .ok m := by
    unfold subsetIndex
    rw [e1, e2, ha.x]
    rfl
  constructor
  · have : (∃ m, fromFile n nums = some m) ↔ ∀ k ∈ nums, k < n → -(n : Int) < k := by
      unfold fromFile setTrue
      constructor
      · rintro ⟨m, hm⟩ k hk hkn
        split at hm
        · next h =>
          rw [List.all_eq_true] at h
          by_contra hc
          have := h (k - 1) (List.mem_map.2 ⟨k, List.mem_filter.2 ⟨hk, by simp; omega⟩, rfl⟩)
          simp at this
          omega
        · cases hm
      · intro h
        rw [if_pos]
        · exact ⟨_, rfl⟩
        · rw [List.all_eq_true]
          intro k hk
          obtain ⟨j, hj, rfl⟩ := List.mem_map.1 hk
          rw [List.mem_filter] at hj
          have h2 := hj.2
          simp only [decide_eq_true_eq] at h2
          have h1 := h j hj.1 h2
          simp only [Bool.and_eq_true, decide_eq_true_eq]
          omega
    rw [← this]
    unfold filter
    rw [hm, e2]
    cases fromFile n nums with
    | none => simp
    | some m => simp
  · intro b dd h
    obtain ⟨m, hm', hl, hp, -⟩ := filter_ok ha h
    refine ⟨trues m, hp, ?_⟩
    rw [hm] at hm'
    cases hf : fromFile n nums with
    | none => rw [hf] at hm'; cases hm'
    | some m' =>
      rw [hf] at hm'
      cases hm'
      have hs := (setTrue_spec (show setTrue n _ = some m from hf)).2
      conv => enter [2]; rw [← hl]
      apply trues_lists
      intro i hi
      rw [hl] at hi
      rw [hs i hi]
      simp only [List.mem_map, List.mem_filter, decide_eq_true_eq]
      constructor
      · rintro (⟨j, ⟨hj, hj'⟩, h⟩ | ⟨j, ⟨hj, hj'⟩, h⟩)
        · have e : j = (i : Int) + 1 := by omega
          subst e
          exact .inl ⟨hj, by omega⟩
        · have e : j = (i : Int) + 1 - n := by omega
          subst e
          exact .inr hj
      · rintro (⟨h, h'⟩ | h)
        · exact .inl ⟨_, ⟨h, by omega⟩, by omega⟩
        · exact .inr ⟨_, ⟨h, by omega⟩, by omega⟩

/-- The full claim of C45 for a file of valid numbers: exactly the listed instances are kept. -/
def FileSelectsListed : Prop :=
  ∀ (o : SubsetOpts) (nums : List Int) (a b : Arrays Nat Nat Nat Nat Nat Nat Nat Nat) (n : Nat)
    (dd : Option (Arrays Nat Nat Nat Nat Nat Nat Nat Nat)),
    a.Fits n → UsesFile o → (∀ k ∈ nums, 1 ≤ k ∧ k ≤ n) →
    filter o ⟨fun _ _ => false, fun _ _ => false, fun _ _ => false⟩ 1 none (some nums) a =
      .ok (b, dd) →
    ∃ is, SamePicks is a b ∧ Lists is n (fun i => (i : Int) + 1 ∈ nums)

/-- **C45**, the part that holds: numbers from 1 to `n - 1` are selected as listed.  Missing: the
last instance, which cannot be selected by its number. -/
theorem C45_partial (o : SubsetOpts) (tests : Filter.Tests (X × Y × B)) (nfeats : Nat)
    (split : Option (List Nat)) (nums : List Int) (a : Arrays X Y B N T P L S) (n : Nat)
    (ha : a.Fits n) (ho : UsesFile o) (hn : ∀ k ∈ nums, 1 ≤ k ∧ k < n) :
    ∃ b dd is, filter o tests nfeats split (some nums) a = .ok (b, dd) ∧ SamePicks is a b ∧
      Lists is n (fun i => (i : Int) + 1 ∈ nums) := by
  obtain ⟨h1, h2⟩ := C45_exact_partial o tests nfeats split nums a n ha ho
  obtain ⟨⟨b, dd⟩, h⟩ := h1.2 (fun k hk _ => by have := hn k hk; omega)
  obtain ⟨is, hp, hi⟩ := h2 b dd h
  refine ⟨b, dd, is, h, hp, hi.increasing, ?_⟩
  intro i
  rw [hi.exact]
  constructor
  · rintro ⟨h1, ⟨h2, -⟩ | h2⟩
    · exact ⟨h1, h2⟩
    · have := hn _ h2
      omega
  · rintro ⟨h1, h2⟩
    exact ⟨h1, .inl ⟨h2, by have := hn _ h2; omega⟩⟩

/-- Three instances, used in the examples below. -/
def sample : Arrays Nat Nat Nat Nat Nat Nat Nat Nat :=
  ⟨[10, 11, 12], [20, 21, 22], [30, 31, 32], [40, 41, 42], [1, 0, 1], [true, false, true],
   [2, 1, 2], [5, 6, 7], [1, 2, 1], [100, 101, 102], some [7, 8, 9]⟩

theorem sample_fits : sample.Fits 3 :=
  ⟨rfl, rfl, rfl, rfl, rfl, rfl, rfl, rfl, rfl, rfl, fun _ h => by cases h; rfl⟩

/-- Options that use the index file. -/
def fileOpts : SubsetOpts := ⟨false, true, true, true, false, true, true, "Ftr"⟩

theorem fileOpts_uses : UsesFile fileOpts := ⟨fun h => Bool.noConfusion h.1, rfl, rfl⟩

/-- **C45** is false: with three instances, a file listing the number 3 selects nothing. -/
theorem C45_refuted : ¬ FileSelectsListed := by
  intro h
  obtain ⟨is, hp, hi⟩ := h fileOpts [3] sample
    ⟨[], [], [], [], [], [], [], [], [], [], some []⟩ 3 none sample_fits fileOpts_uses
    (by simp) rfl
  have : (2 : Nat) ∈ is := (hi.exact 2).2 ⟨by omega, by simp⟩
  have hx := hp.x
  have : sample.x[2]? = some 12 := rfl
  have : (12 : Nat) ∈ pick sample.x is := by
    unfold Preprocessing.pick
    exact List.mem_filterMap.2 ⟨2, ‹_›, rfl⟩
  rw [← hx] at this
  simp at this

-- The number 2 selects the second instance; 0 selects the last one.
example : filter fileOpts (⟨fun _ _ => false, fun _ _ => false, fun _ _ => false⟩) 1 none
    (some [2, 0]) sample =
    .ok (⟨[11, 12], [21, 22], [31, 32], [41, 42], [0, 1], [false, true], [1, 2], [6, 7], [2, 1],
      [101, 102], some [8, 9]⟩, none) := rfl

-- A fraction takes precedence over the file, and density still asks for `data_dense`.
example : filter ⟨true, true, true, true, true, true, true, "Ftr"⟩
    (⟨fun _ _ => true, fun _ _ => false, fun _ _ => false⟩) 1 (some [2, 0]) (some [2]) sample =
    .ok (⟨[10, 12], [20, 22], [30, 32], [40, 42], [1, 1], [true, true], [2, 2], [5, 7], [1, 1],
      [100, 102], some [7, 9]⟩, some sample) := rfl

-- The density filter with every instance near every other keeps only the first.
example : filter ⟨false, true, true, false, true, true, true, "Ftr"⟩
    (⟨fun _ _ => true, fun _ _ => false, fun _ _ => false⟩) 1 none none sample =
    .ok (⟨[10], [20], [30], [40], [1], [true], [2], [5], [1], [100], some [7]⟩, some sample) := rfl

end Verif.Prelim
