import Verif.Trace.Props
import Mathlib.Data.List.Sort
import Mathlib.Data.List.Forall2
import Mathlib.Data.Fintype.Perm
import Mathlib.Tactic.FinCases
/-!
# Orders are irrelevant to TRACE: C183 (instances), C184 (algorithms)
-/
set_option autoImplicit false
set_option linter.unusedSectionVars false

namespace Verif.Trace

variable {G P K : Type} [Field K] [LinearOrder K] [IsStrictOrderedRing K]

/-- What TRACE knows about one instance: its position in the space, the verdicts on the algorithms,
the number standing for the best algorithm, and whether it is easy (`z`, `y_bin`, `p`, `beta`,
trace.py:206-225). -/
structure Instance (P : Type) where
  z : P
  y : List Bool
  p : Nat
  beta : Bool

/-- TRACE on a list of instances, trace.py:378-518: the footprints of the `n` algorithms, computed
by threads that finish in the order `order`, and what `_trace` makes of them. -/
def analyse (geo : Geo G P K) (purity : K) (n : Nat) (order : List Nat) (l : List (Instance P)) :
    Except Err (Out G K) :=
  match computeQualities (E := Err) missing missing
      (fun i => .ok (processAlgorithm geo purity (l.map (·.z)) (l.map (·.y)) (l.map (·.p)) i)) n
      order with
  | .error e => .error e
  | .ok quals => trace geo purity (l.map (·.z)) (l.map (·.p)) (l.map (·.beta)) n quals

/-- What the theorem about the order of the instances needs of the libraries: `np.unique` returns
the distinct rows in ascending order, whatever their order and however often they occur. -/
def UniqueSorts (geo : Geo G P K) : Prop :=
  ∀ l l' : List P, (∀ q, q ∈ l ↔ q ∈ l') → geo.unique l = geo.unique l'

theorem masked_map {α β : Type} (f : α → β) (b : α → Bool) : ∀ l : List α,
    masked (l.map f) (l.map b) = (l.filter b).map f
  | [] => rfl
  | a :: l => by
    simp only [List.map_cons, masked, masked_map f b l, List.filter_cons]
    split <;> simp_all

theorem count_perm (geo : Geo G P K) (g : G) {l l' : List P} (h : l.Perm l') :
    count geo g l = count geo g l' := (h.filter _).length_eq

section
variable {α : Type} (geo : Geo G P K) (purity : K) (f : α → P) (b : α → Bool) {l l' : List α}

theorem count_masked_perm (g : G) (h : l.Perm l') :
    count geo g (masked (l.map f) (l.map b)) = count geo g (masked (l'.map f) (l'.map b)) := by
  rw [masked_map, masked_map]
  exact count_perm geo g ((h.filter b).map f)

theorem fromPolygon_perm (h : l.Perm l') (g : Option G) (s : Bool) :
    fromPolygon geo g (l.map f) (l.map b) s = fromPolygon geo g (l'.map f) (l'.map b) s := by
  unfold fromPolygon
  cases g with
  | none => rfl
  | some g => simp only [count_perm geo _ (h.map f), count_masked_perm geo f b _ h]

theorem prune_perm (h : l.Perm l') :
    prune geo purity (l.map f) (l.map b) = prune geo purity (l'.map f) (l'.map b) := by
  funext polygon piece
  unfold prune
  simp only [count_perm geo _ (h.map f), count_masked_perm geo f b _ h]

theorem fitPoly_perm (h : l.Perm l') (polydata : List P) :
    fitPoly geo purity (l.map f) polydata (l.map b) =
      fitPoly geo purity (l'.map f) polydata (l'.map b) := by
  unfold fitPoly
  have ha : (l.map b).all id = (l'.map b).all id := by
    rw [Bool.eq_iff_iff]
    simp only [List.all_eq_true, List.mem_map, forall_exists_index, and_imp, forall_apply_eq_imp_iff₂]
    exact ⟨fun hh a ha => hh a (h.mem_iff.2 ha), fun hh a ha => hh a (h.mem_iff.1 ha)⟩
  rw [ha, prune_perm geo purity f b h]

theorem body_perm (h : l.Perm l') (pts : List P) (labels : List Int) : ∀ (is : List Nat)
    (acc : Option G), body geo purity (l.map f) (l.map b) pts labels is acc =
      body geo purity (l'.map f) (l'.map b) pts labels is acc
  | [], _ => rfl
  | i :: is, acc => by
    simp only [body]
    rw [fitPoly_perm geo purity f b h]
    cases fitPoly geo purity (l'.map f) (labelled pts labels i) (l'.map b) with
    | none => exact body_perm h pts labels is acc
    | some aux =>
      simp only
      rw [body_perm h pts labels is acc]
      cases acc with
      | none => simp only [body_perm h pts labels is (some aux)]
      | some c => simp only [body_perm h pts labels is (some (geo.union c aux))]

theorem build_perm (hu : UniqueSorts geo) (h : l.Perm l') :
    build geo purity (l.map f) (l.map b) = build geo purity (l'.map f) (l'.map b) := by
  unfold build
  have h1 : geo.unique (masked (l.map f) (l.map b)) = geo.unique (masked (l'.map f) (l'.map b)) := by
    rw [masked_map, masked_map]
    exact hu _ _ fun q => ((h.filter b).map f).mem_iff
  have h2 : minPoints (l.map b) = minPoints (l'.map b) := by
    unfold minPoints
    rw [(h.map b).count_eq]
  simp only [h1, h2, fromPolygon_perm geo f b h, body_perm geo purity f b h]

end

theorem analyse_spec (geo : Geo G P K) (laws : Laws geo) (purity : K) (n : Nat) (order : List Nat)
    (ho : order.Perm (List.range n)) (l : List (Instance P)) (out : Out G K) :
    analyse geo purity n order l = .ok out ↔
      (∀ i j b t, i < j → j < n →
        (build geo purity (l.map (·.z)) (l.map fun a => decide (a.p = i))).polygon = some b →
        (build geo purity (l.map (·.z)) (l.map fun a => decide (a.p = j))).polygon = some t →
        ¬ Conflict geo (l.map (·.z)) b t (l.map fun a => decide (a.p = i))
          (l.map fun a => decide (a.p = j))) ∧
      out.space = build geo purity (l.map (·.z)) (l.map fun _ => true) ∧
      out.hard = build geo purity (l.map (·.z)) (l.map fun a => !a.beta) ∧
      out.good = (List.range n).map (fun i =>
        build geo purity (l.map (·.z)) (l.map fun a => a.y.getD i false)) ∧
      out.best = (List.range n).map fun i =>
        build geo purity (l.map (·.z)) (l.map fun a => decide (a.p = i)) := by
  obtain ⟨quals, hq, hok, hout⟩ := C94_completes geo laws purity (l.map (·.z)) (l.map (·.y))
    (l.map (·.p)) (l.map (·.beta)) n order ho
  have hb : ∀ i, bestMask (l.map (·.p)) i = l.map fun a => decide (a.p = i) := by
    intro i; simp [bestMask, Function.comp_def]
  have hg : ∀ i, goodMask (l.map (·.y)) i = l.map fun a => a.y.getD i false := by
    intro i; simp [goodMask, Function.comp_def]
  have hs : List.replicate (l.map (·.z)).length true = l.map fun _ => true := by
    simp [List.map_const']
  have hn : (l.map (·.beta)).map not = l.map fun a => !a.beta := by simp [Function.comp_def]
  simp only [hb, hg, hs, hn] at hok hout
  unfold analyse
  rw [hq]
  simp only
  constructor
  · intro h
    exact ⟨hok.1 ⟨out, h⟩, hout out h⟩
  · rintro ⟨h, h1, h2, h3, h4⟩
    obtain ⟨out', h'⟩ := hok.2 h
    obtain ⟨g1, g2, g3, g4⟩ := hout out' h'
    rw [h']
    cases out; cases out'
    simp_all

/-! ### C183: the order of the instances -/

/-- Listing the instances in another order changes nothing: TRACE completes for one order exactly
if it does for the other, and returns the same footprints with the same measures, in whatever
order the threads finish. -/
theorem C183_instances (geo : Geo G P K) (laws : Laws geo) (hu : UniqueSorts geo) (purity : K)
    (n : Nat) (order order' : List Nat) (ho : order.Perm (List.range n))
    (ho' : order'.Perm (List.range n)) (l l' : List (Instance P)) (h : l.Perm l') (out : Out G K) :
    analyse geo purity n order l = .ok out ↔ analyse geo purity n order' l' = .ok out := by
  rw [analyse_spec geo laws purity n order ho, analyse_spec geo laws purity n order' ho']
  simp only [build_perm geo purity (fun a : Instance P => a.z) _ hu h, Conflict, inside_eq,
    count_masked_perm geo (fun a : Instance P => a.z) _ _ h]

/-- The cells of `cells` with `np.unique` sorting: another model of the laws. -/
def sortedCells (near : List Nat → Nat → Nat → Nat → Bool) : Geo (List Nat) Nat ℚ :=
  { cells near with unique := fun l => l.eraseDups.insertionSort (· ≤ ·) }

theorem nodup_eraseDups {α : Type} [BEq α] [LawfulBEq α] (l : List α) : l.eraseDups.Nodup := by
  induction h : l.length using Nat.strongRecOn generalizing l with
  | _ n ih =>
    cases l with
    | nil => simp
    | cons a l =>
      rw [List.eraseDups_cons, List.nodup_cons]
      simp only [List.length_cons] at h
      have hf := List.length_filter_le (fun b => !b == a) l
      exact ⟨by simp [List.mem_eraseDups], ih _ (by omega) (l.filter fun b => !b == a) rfl⟩

theorem sortedCells_laws (near : List Nat → Nat → Nat → Nat → Bool) :
    Laws (sortedCells near) ∧ UniqueSorts (sortedCells near) := by
  have h := cells_laws near
  refine ⟨⟨h.area_nonneg, h.area_zero, h.inter_left, h.inter_right, h.diff_contains, ?_,
    h.hull_piece⟩, ?_⟩
  · intro l
    show (l.eraseDups.insertionSort (· ≤ ·)).length ≤ l.length
    rw [List.length_insertionSort]
    exact h.unique_length l
  · intro l l' hl
    show l.eraseDups.insertionSort (· ≤ ·) = l'.eraseDups.insertionSort (· ≤ ·)
    have hp : l.eraseDups.Perm l'.eraseDups := by
      rw [List.perm_ext_iff_of_nodup (nodup_eraseDups l) (nodup_eraseDups l')]
      intro q
      simp only [List.mem_eraseDups]
      exact hl q
    apply List.Perm.eq_of_pairwise' (r := (· ≤ ·))
    · exact List.pairwise_insertionSort _ _
    · exact List.pairwise_insertionSort _ _
    · exact (List.perm_insertionSort _ _).trans (hp.trans (List.perm_insertionSort _ _).symm)

/-- The footprints of a result, for the examples. -/
def shapes : Except Err (Out (List Nat) ℚ) → Option (List (Option (List Nat)) × List (Option (List Nat)))
  | .ok o => some (o.good.map (·.polygon), o.best.map (·.polygon))
  | .error _ => none

/-- Eight instances in two groups; each algorithm is good and best on one group. -/
def eightInstances : List (Instance Nat) :=
  [⟨0, [true, false], 1, true⟩, ⟨1, [true, false], 1, true⟩, ⟨2, [true, false], 1, false⟩,
   ⟨3, [false, true], 2, true⟩, ⟨4, [false, true], 2, true⟩, ⟨5, [false, true], 2, false⟩,
   ⟨6, [true, true], 1, false⟩, ⟨7, [true, true], 2, false⟩]

/-- Non-vacuity for C183: eight instances in two orders, the same footprints. -/
example : (sortedCells fun _ _ _ _ => true).unique [3, 1, 3] = [1, 3] ∧
    eightInstances.Perm eightInstances.reverse ∧
    shapes (analyse (sortedCells fun _ _ _ _ => true) (1 / 2) 2 [1, 0] eightInstances) =
      some ([some [0, 1, 2, 6, 7], some [3, 4, 5, 6, 7]], [none, some [0, 1, 2, 6]]) ∧
    shapes (analyse (sortedCells fun _ _ _ _ => true) (1 / 2) 2 [0, 1] eightInstances.reverse) =
      some ([some [0, 1, 2, 6, 7], some [3, 4, 5, 6, 7]], [none, some [0, 1, 2, 6]]) :=
  ⟨by decide +kernel, (List.reverse_perm _).symm, by decide +kernel, by decide +kernel⟩

/-! ### C184: the order of the algorithms -/

/-- `b` is the instance `a` after the algorithms have been renumbered by `σ`, but for the number of
the best algorithm. -/
structure Renumbered {n : Nat} (σ : Equiv.Perm (Fin n)) (a b : Instance P) : Prop where
  z : b.z = a.z
  beta : b.beta = a.beta
  y : ∀ i : Fin n, b.y.getD (σ i) false = a.y.getD i false

/-- `p` and `q` name the same algorithm before and after the renumbering, counting from one as
PRELIM does. -/
def SameFromOne {n : Nat} (σ : Equiv.Perm (Fin n)) (p q : Nat) : Prop :=
  ∃ i : Fin n, p = i + 1 ∧ q = σ i + 1

/-- The same, counting from zero as PYTHIA's `selection0` does. -/
def SameFromZero {n : Nat} (σ : Equiv.Perm (Fin n)) (p q : Nat) : Prop :=
  ∃ i : Fin n, p = i ∧ q = σ i

/-- Overlaps do not depend on which geometry is named first. -/
structure InterComm (geo : Geo G P K) : Prop where
  isEmpty : ∀ a b, geo.isEmpty (geo.inter a b) = geo.isEmpty (geo.inter b a)
  contains : ∀ a b q, geo.contains (geo.inter a b) q = geo.contains (geo.inter b a) q

/-- The footprints belong to the same algorithms as before. -/
structure SameFootprints {n : Nat} (σ : Equiv.Perm (Fin n)) (out out' : Out G K) : Prop where
  space : out'.space = out.space
  hard : out'.hard = out.hard
  good : ∀ i : Fin n, out'.good[(σ i : Nat)]? = out.good[(i : Nat)]?
  best : ∀ i : Fin n, out'.best[(σ i : Nat)]? = out.best[(i : Nat)]?

theorem map_forall₂ {α β : Type} {f g : α → β} {l l' : List α}
    (h : List.Forall₂ (fun a b => g b = f a) l l') : l'.map g = l.map f := by
  induction h with
  | nil => rfl
  | cons h _ ih => rw [List.map_cons, List.map_cons, h, ih]

theorem sortedCells_comm (near : List Nat → Nat → Nat → Nat → Bool) :
    InterComm (sortedCells near) where
  isEmpty a b := by
    show (a.filter fun p => b.contains p).isEmpty = (b.filter fun p => a.contains p).isEmpty
    rw [Bool.eq_iff_iff]
    simp only [List.isEmpty_iff, List.filter_eq_nil_iff, List.contains_iff_mem]
    exact ⟨fun h p hb ha => h p ha hb, fun h p ha hb => h p hb ha⟩
  contains a b q := by
    show (a.filter fun p => b.contains p).contains q = (b.filter fun p => a.contains p).contains q
    rw [Bool.eq_iff_iff]
    simp only [List.contains_iff_mem, List.mem_filter]
    exact and_comm

/-- `eightInstances` with the two algorithms exchanged. -/
def exchanged : List (Instance Nat) := eightInstances.map fun a => ⟨a.z, a.y.reverse, 3 - a.p, a.beta⟩

theorem exchanged_renumbered : List.Forall₂ (fun a b => Renumbered (Equiv.swap (0 : Fin 2) 1) a b ∧
    SameFromOne (Equiv.swap (0 : Fin 2) 1) a.p b.p) eightInstances exchanged := by
  unfold exchanged
  rw [List.forall₂_map_right_iff, List.forall₂_same]
  intro a ha
  have h : ∀ a ∈ eightInstances, (∃ u v, a.y = [u, v]) ∧ (a.p = 1 ∨ a.p = 2) := by
    intro a ha
    simp only [eightInstances, List.mem_cons, List.not_mem_nil, or_false] at ha
    rcases ha with h | h | h | h | h | h | h | h <;> subst h <;> exact ⟨⟨_, _, rfl⟩, by decide⟩
  obtain ⟨⟨u, v, hy⟩, hp⟩ := h a ha
  refine ⟨⟨rfl, rfl, ?_⟩, ?_⟩
  · intro i
    rw [hy]
    fin_cases i <;> rfl
  · rcases hp with hp | hp
    · exact ⟨0, hp, by simp [hp]⟩
    · exact ⟨1, hp, by simp [hp]⟩

/-- The property with the numbers of the best algorithms as PRELIM makes them. -/
def AlgorithmOrderIrrelevant : Prop :=
  ∀ (geo : Geo (List Nat) Nat ℚ), Laws geo → InterComm geo → ∀ (purity : ℚ) (n : Nat)
    (σ : Equiv.Perm (Fin n)) (l l' : List (Instance Nat)),
    List.Forall₂ (fun a b => Renumbered σ a b ∧ SameFromOne σ a.p b.p) l l' → ∀ out,
    analyse geo purity n (List.range n) l = .ok out →
    ∃ out', analyse geo purity n (List.range n) l' = .ok out' ∧ SameFootprints σ out out'

/-- **C184 is false.**  `p` counts from one and TRACE compares it with positions counted from zero
(C61), so the instances on which the last algorithm is best are in no best footprint: with two
algorithms exchanged another one loses its footprint. -/
theorem C184_refuted : ¬ AlgorithmOrderIrrelevant := by
  intro h
  let geo := sortedCells fun _ _ _ _ => true
  have h1 : shapes (analyse geo (1 / 2) 2 (List.range 2) eightInstances) =
      some ([some [0, 1, 2, 6, 7], some [3, 4, 5, 6, 7]], [none, some [0, 1, 2, 6]]) := by
    decide +kernel
  have h2 : shapes (analyse geo (1 / 2) 2 (List.range 2) exchanged) =
      some ([some [3, 4, 5, 6, 7], some [0, 1, 2, 6, 7]], [none, some [3, 4, 5, 7]]) := by
    decide +kernel
  cases ha : analyse geo (1 / 2) 2 (List.range 2) eightInstances with
  | error e => rw [ha] at h1; cases h1
  | ok out =>
    obtain ⟨out', hb, hs⟩ := h geo (sortedCells_laws _).1 (sortedCells_comm _) (1 / 2) 2
      (Equiv.swap 0 1) eightInstances exchanged exchanged_renumbered out ha
    rw [ha] at h1
    rw [hb] at h2
    simp only [shapes, Option.some.injEq, Prod.mk.injEq] at h1 h2
    have h3 := congrArg (Option.map (·.polygon)) (hs.best 1)
    rw [← List.getElem?_map, ← List.getElem?_map, h1.2, h2.2] at h3
    revert h3
    decide

/-- **C184, the true part**, whatever the numbers of the best algorithms are: if TRACE completes
for both orders, the space, the hard instances and the good performance have the same footprints. -/
theorem C184_good_partial (geo : Geo G P K) (laws : Laws geo) (purity : K) {n : Nat}
    (order order' : List Nat) (ho : order.Perm (List.range n)) (ho' : order'.Perm (List.range n))
    (σ : Equiv.Perm (Fin n)) (l l' : List (Instance P)) (hl : List.Forall₂ (Renumbered σ) l l')
    (out out' : Out G K) (h : analyse geo purity n order l = .ok out)
    (h' : analyse geo purity n order' l' = .ok out') :
    out'.space = out.space ∧ out'.hard = out.hard ∧
      ∀ i : Fin n, out'.good[(σ i : Nat)]? = out.good[(i : Nat)]? := by
  obtain ⟨-, h1, h2, h3, -⟩ := (analyse_spec geo laws purity n order ho l out).1 h
  obtain ⟨-, g1, g2, g3, -⟩ := (analyse_spec geo laws purity n order' ho' l' out').1 h'
  have hz : l'.map (·.z) = l.map (·.z) := map_forall₂ (hl.imp fun _ _ r => r.z)
  refine ⟨?_, ?_, fun i => ?_⟩
  · rw [g1, h1, hz]
    congr 1
    exact map_forall₂ (hl.imp fun _ _ _ => rfl)
  · rw [g2, h2, hz]
    congr 1
    exact map_forall₂ (hl.imp fun _ _ r => by rw [r.beta])
  · rw [g3, h3, hz, List.getElem?_map, List.getElem?_map,
      List.getElem?_range (σ i).2, List.getElem?_range i.2]
    simp only [Option.map_some, Option.some.injEq]
    congr 1
    exact map_forall₂ (hl.imp fun _ _ r => r.y i)

/-- **C184, the true part for PYTHIA's results** (`use_sim`, every instance with a recommendation
that counts from zero): TRACE completes for one order exactly if it does for the other, and every
footprint belongs to the same algorithm as before. -/
theorem C184_sim_partial (geo : Geo G P K) (laws : Laws geo) (comm : InterComm geo) (purity : K)
    {n : Nat} (order order' : List Nat) (ho : order.Perm (List.range n))
    (ho' : order'.Perm (List.range n)) (σ : Equiv.Perm (Fin n)) (l l' : List (Instance P))
    (hl : List.Forall₂ (fun a b => Renumbered σ a b ∧ SameFromZero σ a.p b.p) l l') :
    ((∃ out, analyse geo purity n order l = .ok out) ↔
      ∃ out', analyse geo purity n order' l' = .ok out') ∧
    ∀ out out', analyse geo purity n order l = .ok out →
      analyse geo purity n order' l' = .ok out' → SameFootprints σ out out' := by
  have hz : l'.map (·.z) = l.map (·.z) := map_forall₂ (hl.imp fun _ _ r => r.1.z)
  have hp : ∀ i : Fin n, (l'.map fun a => decide (a.p = (σ i : Nat))) =
      l.map fun a => decide (a.p = (i : Nat)) := by
    intro i
    refine map_forall₂ (hl.imp ?_)
    rintro a b ⟨-, k, hk, hk'⟩
    rw [hk, hk', decide_eq_decide, Fin.val_inj, Fin.val_inj, σ.injective.eq_iff]
  have key : ∀ i : Fin n, build geo purity (l'.map (·.z)) (l'.map fun a => decide (a.p = (σ i : Nat))) =
      build geo purity (l.map (·.z)) (l.map fun a => decide (a.p = (i : Nat))) := by
    intro i; rw [hp, hz]
  have hcomm : ∀ z b t y1 y2, Conflict geo z b t y1 y2 → Conflict geo z t b y2 y1 := by
    rintro z b t y1 y2 ⟨h1, h2⟩
    refine ⟨by rw [comm.isEmpty]; exact h1, ?_⟩
    have : ∀ y, inside geo (geo.inter t b) z y = inside geo (geo.inter b t) z y := by
      intro y
      unfold inside
      congr 1
      exact List.filter_congr fun q _ => by rw [comm.contains]
    rw [this, this]
    exact h2.symm
  have clash : ∀ (m : List (Instance P)), (∀ i j b t, i < j → j < n →
        (build geo purity (m.map (·.z)) (m.map fun a => decide (a.p = i))).polygon = some b →
        (build geo purity (m.map (·.z)) (m.map fun a => decide (a.p = j))).polygon = some t →
        ¬ Conflict geo (m.map (·.z)) b t (m.map fun a => decide (a.p = i))
          (m.map fun a => decide (a.p = j))) ↔
      ∀ (i j : Fin n) b t, i ≠ j →
        (build geo purity (m.map (·.z)) (m.map fun a => decide (a.p = (i : Nat)))).polygon = some b →
        (build geo purity (m.map (·.z)) (m.map fun a => decide (a.p = (j : Nat)))).polygon = some t →
        ¬ Conflict geo (m.map (·.z)) b t (m.map fun a => decide (a.p = (i : Nat)))
          (m.map fun a => decide (a.p = (j : Nat))) := by
    intro m
    constructor
    · intro h i j b t hij hb ht hc
      rcases lt_or_gt_of_ne (Fin.val_ne_of_ne hij) with hlt | hlt
      · exact h i j b t hlt j.2 hb ht hc
      · exact h j i t b hlt i.2 ht hb (hcomm _ _ _ _ _ hc)
    · intro h i j b t hij hj hb ht
      exact h ⟨i, by omega⟩ ⟨j, hj⟩ b t (by simp; omega) hb ht
  constructor
  · have e : ∀ (order : List Nat) (ho : order.Perm (List.range n)) (m : List (Instance P)),
        (∃ out, analyse geo purity n order m = .ok out) ↔
        ∀ (i j : Fin n) b t, i ≠ j →
        (build geo purity (m.map (·.z)) (m.map fun a => decide (a.p = (i : Nat)))).polygon = some b →
        (build geo purity (m.map (·.z)) (m.map fun a => decide (a.p = (j : Nat)))).polygon = some t →
        ¬ Conflict geo (m.map (·.z)) b t (m.map fun a => decide (a.p = (i : Nat)))
          (m.map fun a => decide (a.p = (j : Nat))) := by
      intro order ho m
      rw [← clash]
      constructor
      · rintro ⟨out, h⟩
        exact ((analyse_spec geo laws purity n order ho m out).1 h).1
      · intro h
        exact ⟨⟨_, _, _, _⟩, (analyse_spec geo laws purity n order ho m _).2 ⟨h, rfl, rfl, rfl, rfl⟩⟩
    rw [e order ho l, e order' ho' l']
    constructor
    · intro h i j b t hij hb ht
      obtain ⟨i, rfl⟩ := σ.surjective i
      obtain ⟨j, rfl⟩ := σ.surjective j
      rw [key] at hb ht
      rw [hz, hp, hp]
      exact h i j b t (fun he => hij (by rw [he])) hb ht
    · intro h i j b t hij hb ht
      have := h (σ i) (σ j) b t (fun he => hij (σ.injective he))
      rw [key, key, hz, hp, hp] at this
      exact this hb ht
  · intro out out' h h'
    obtain ⟨s1, s2, s3⟩ := C184_good_partial geo laws purity order order' ho ho' σ l l'
      (hl.imp fun _ _ r => r.1) out out' h h'
    refine ⟨s1, s2, s3, fun i => ?_⟩
    obtain ⟨-, -, -, -, h4⟩ := (analyse_spec geo laws purity n order ho l out).1 h
    obtain ⟨-, -, -, -, g4⟩ := (analyse_spec geo laws purity n order' ho' l' out').1 h'
    rw [g4, h4, List.getElem?_map, List.getElem?_map, List.getElem?_range (σ i).2,
      List.getElem?_range i.2]
    simp only [Option.map_some, Option.some.injEq]
    exact key i

/-- Non-vacuity for C184: with the numbers counted from zero, exchanging the two algorithms
exchanges all the footprints. -/
example : List.Forall₂ (fun a b => Renumbered (Equiv.swap (0 : Fin 2) 1) a b ∧
      SameFromZero (Equiv.swap (0 : Fin 2) 1) a.p b.p)
      (eightInstances.map fun a => { a with p := a.p - 1 })
      (exchanged.map fun a => { a with p := a.p - 1 }) ∧
    shapes (analyse (sortedCells fun _ _ _ _ => true) (1 / 2) 2 [1, 0]
      (eightInstances.map fun a => { a with p := a.p - 1 })) =
      some ([some [0, 1, 2, 6, 7], some [3, 4, 5, 6, 7]], [some [0, 1, 2, 6], some [3, 4, 5, 7]]) ∧
    shapes (analyse (sortedCells fun _ _ _ _ => true) (1 / 2) 2 [0, 1]
      (exchanged.map fun a => { a with p := a.p - 1 })) =
      some ([some [3, 4, 5, 6, 7], some [0, 1, 2, 6, 7]], [some [3, 4, 5, 7], some [0, 1, 2, 6]]) := by
  refine ⟨?_, by decide +kernel, by decide +kernel⟩
  rw [List.forall₂_map_left_iff, List.forall₂_map_right_iff]
  refine exchanged_renumbered.imp ?_
  rintro a b ⟨r, i, h1, h2⟩
  exact ⟨⟨r.z, r.beta, r.y⟩, i, by simp [h1], by simp [h2]⟩

end Verif.Trace
