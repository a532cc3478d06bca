import Verif.EndToEnd.SpecLowest
import Verif.EndToEnd.PropsAgain
import Verif.Prelim.PropsInfinite
/-!
# C231: builds with an infinitely bad performance
-/
set_option autoImplicit false
set_option linter.unusedSectionVars false

namespace Verif.EndToEnd

open Verif (Num)
open Verif.Pipeline (Stg Name runner defaultStages buildDefault inputs outputs)
open Verif.Metadata (Meta)
open Verif.Preprocessing (Data Mat)
open Verif.Runner (Dict Op exec runAll contents RunError applyAll)

/-- What becomes of the array passed in. -/
private def passed (o : Prelim.Opts) (r : List Num) : List Num := if o.absPerf then r else r.map Prelim.fixZero

private theorem rows_passed {o : Prelim.Opts} {m : List (List Num)} :
    ∀ {outs : List Prelim.Row}, Prelim.rows o m = some outs → outs.map Prelim.Row.yIn = m.map (passed o) := by
  induction m with
  | nil => intro outs h; cases h; rfl
  | cons r m ih =>
    intro outs h
    rw [Prelim.rows_iff] at h
    cases outs with
    | nil => cases h
    | cons u us =>
      simp only [List.map_cons, List.cons.injEq] at h
      rw [← Prelim.rows_iff] at h
      rw [List.map_cons, List.map_cons, ih h.2]
      congr 1
      have := h.1
      unfold Prelim.rowStep at this
      split at this
      · cases this
      · cases this
        rfl

private theorem fix_lowest (v : Num) : Prelim.fixZero v = .ninf ↔ v = .ninf := by
  unfold Prelim.fixZero
  split
  · rename_i h
    constructor
    · intro h; cases h
    · rintro rfl; cases h
  · exact Iff.rfl

private theorem fix_present {v : Num} (h : v ≠ .nan) : Prelim.fixZero v ≠ .nan := by
  unfold Prelim.fixZero
  split
  · simp
  · exact h

private theorem passed_length (o : Prelim.Opts) (r : List Num) : (passed o r).length = r.length := by
  unfold passed
  split <;> simp

private theorem passed_lowest (o : Prelim.Opts) {r : List Num} {j : Nat} :
    (passed o r).getD j .nan = .ninf ↔ r.getD j .nan = .ninf := by
  unfold passed
  split
  · exact Iff.rfl
  · simp only [List.getD, List.getElem?_map]
    cases r[j]? with
    | none => exact Iff.rfl
    | some v => exact fix_lowest v

private theorem passed_present (o : Prelim.Opts) {r : List Num} (h : ∀ v ∈ r, v ≠ .nan) : ∀ v ∈ passed o r, v ≠ .nan := by
  unfold passed
  split
  · exact h
  · intro v hv
    obtain ⟨w, hw, rfl⟩ := List.mem_map.1 hv
    exact fix_present (h w hw)

private theorem columns_present {n : Nat} {m : List (List Num)} (hl : ∀ r ∈ m, r.length = n)
    (hp : ∀ r ∈ m, ∀ v ∈ r, v ≠ .nan) : ∀ c ∈ Prelim.columns n m, Prelim.Present c := by
  intro c hc v hv
  obtain ⟨j, hj, rfl⟩ := List.mem_map.1 hc
  obtain ⟨r, hr, rfl⟩ := List.mem_map.1 hv
  have hj' : j < r.length := by rw [hl r hr]; exact List.mem_range.1 hj
  simp only [List.getD, List.getElem?_eq_getElem hj', Option.getD_some]
  exact hp r hr _ (List.getElem_mem hj')

private theorem columns_lowest {n : Nat} {m m' : List (List Num)}
    (h : List.Forall₂ (fun r r' => ∀ j : Nat, r.getD j .nan = .ninf ↔ r'.getD j .nan = .ninf) m m') :
    List.Forall₂ Prelim.SameLowest (Prelim.columns n m) (Prelim.columns n m') := by
  unfold Prelim.columns
  generalize List.range n = js
  induction js with
  | nil => exact .nil
  | cons j js ih =>
    refine .cons ?_ ih
    clear ih
    unfold Prelim.SameLowest
    induction h with
    | nil => exact .nil
    | cons h _ ih => exact .cons (h j) ih

private theorem alike_entry {V : Type} {num : V → Num} {r r' : List V}
    (h : List.Forall₂ (fun v v' => num v = .ninf ↔ num v' = .ninf) r r') :
    ∀ j : Nat, (r.map num).getD j .nan = .ninf ↔ (r'.map num).getD j .nan = .ninf := by
  induction h with
  | nil => intro j; exact Iff.rfl
  | cons h _ ih =>
    intro j
    cases j with
    | zero => exact h
    | succ j => exact ih j

private theorem alike_rows {V : Type} {num : V → Num} (o : Prelim.Opts) {t t' : List (List V)} (h : LowestAlike num t t') :
    List.Forall₂ (fun r r' => ∀ j : Nat, r.getD j .nan = .ninf ↔ r'.getD j .nan = .ninf)
      ((t.map (·.map num)).map (passed o)) ((t'.map (·.map num)).map (passed o)) := by
  unfold LowestAlike at h
  induction h with
  | nil => exact .nil
  | cons h _ ih =>
    exact .cons (fun j => by rw [passed_lowest, passed_lowest]; exact alike_entry h j) ih

private theorem filter_y {X Y B N T P L S : Type} {o : Prelim.SubsetOpts} (hden : o.byDensity = false)
    {tests : Filter.Tests (X × Y × B)} {n : Nat} {split : Option (List Nat)} {file : Option (List Int)}
    {a a' : Prelim.Arrays X Y B N T P L S} (hx : a'.x = a.x) (hy : a'.y = a.y) {r r'}
    (h : Prelim.filter o tests n split file a = .ok r) (h' : Prelim.filter o tests n split file a' = .ok r') :
    r'.1.y = r.1.y := by
  have hidx : Prelim.subsetIndex o tests n split file a' = Prelim.subsetIndex o tests n split file a := by
    unfold Prelim.subsetIndex
    simp only [hden, hx]
    rfl
  unfold Prelim.filter at h h'
  rw [hidx] at h'
  cases e : Prelim.subsetIndex o tests n split file a with
  | error e' => rw [e] at h; cases h
  | ok m =>
    rw [e] at h h'
    dsimp only at h h'
    split at h
    · rename_i hb
      rw [if_pos hb] at h'
      cases h
      cases h'
      dsimp only
      rw [hy]
    · rename_i hb
      rw [if_neg hb] at h'
      cases h
      cases h'
      exact hy

variable {V W : Type}

private theorem low_schedule {order : List Stg} {π : Builder.SetOrder Stg} {sched : List (List Stg)}
    (horder : order.Perm defaultStages) (hs : buildDefault order π = .ok sched) :
    ∃ rest, sched.flatten = .preprocessing :: .prelim :: .sifted :: rest ∧
      ∀ s ∈ rest, s = Stg.pilot ∨ s = .pythia ∨ s = .cloister ∨ s = .trace := by
  rcases Pipeline.C10_default_schedule order horder π with h | h <;>
    · rw [hs] at h
      obtain rfl := Except.ok.inj h
      exact ⟨_, rfl, by decide⟩

private theorem low_full {num : V → Num} {m : Meta V} {l : List V} {s : Option (List V)} (hv : NothingMissing num m) :
    (received num l s m).x.Full Num.isNan ∧ (received num l s m).y.Full Num.isNan := by
  have key : ∀ {t : List (List V)}, (∀ r ∈ t, ∀ v ∈ r, num v ≠ .nan) →
      ∀ r ∈ t.map (·.map num), ∀ v ∈ r, Num.isNan v = false := by
    intro t ht r hr v hv
    obtain ⟨r', hr', rfl⟩ := List.mem_map.1 hr
    obtain ⟨v', hv', rfl⟩ := List.mem_map.1 hv
    have := ht r' hr' v' hv'
    cases h : num v' <;> simp_all [Num.isNan]
  exact ⟨key hv.1, key hv.2⟩

/-- **C231, builds.** If no value is missing, normalisation is on, all algorithms are used and the density option is
off: one performance of −∞ erases all performances. Two builds on metadata that differ in the performances only, with
−∞ in the same places, return the same performances `y`. -/
theorem C231_build_partial {num : V → Num} {env : Env V W} {m : Meta V} {l : List V} {s : Option (List V)}
    {t : List (List V)} (hm : Fitting l s m) (hm' : Fitting l s (withPerformances t m)) (full : NothingMissing num m)
    (full' : NothingMissing num (withPerformances t m)) (sparse : env.subset.byDensity = false)
    (all : env.algos = none) (norm : env.prelim.norm = true)
    (tuples : ∀ k s vs out, env.rest k s vs = .ok out → out.map Prod.fst = (outputs s).map Prod.fst)
    (low : ∃ r ∈ m.algorithms, ∃ v ∈ r, num v = .ninf) (alike : LowestAlike num m.algorithms t)
    {order : List Stg} {π : Builder.SetOrder Stg} {sched : List (List Stg)}
    (horder : order.Perm defaultStages) (hs : buildDefault order π = .ok sched)
    (ops ops' : List (Op Stg Name (Val V W))) {d d' : Dict Name (Val V W)}
    (h : contents (runAll (runner order sched (run env)) (exec (runner order sched (run env)) ops).st
      (args env num m)) = .ok d)
    (h' : contents (runAll (runner order sched (run env)) (exec (runner order sched (run env)) ops').st
      (args env num (withPerformances t m))) = .ok d') : ∃ y, d .y = some (.table y) ∧ d' .y = some (.table y) := by
  rw [contents_apply horder hs] at h h'
  obtain ⟨rest, e, hrest⟩ := low_schedule horder hs
  rw [e] at h h'
  have hkeep : ∀ s ∈ rest, (s = Stg.pilot ∨ s = .pythia ∨ s = .cloister ∨
      s = .trace) ∧ Name.y ∉ (outputs s).map Prod.fst := fun s hs => ⟨hrest s hs, by
    rcases hrest s hs with rfl | rfl | rfl | rfl <;> decide⟩
  obtain ⟨o, outs, ys, a, dense, c, q, r1, r2, r3, r4, r5, r6, hlast⟩ := front hm h
  obtain ⟨o', outs', ys', a', dense', c', q', r1', r2', r3', r4', r5', r6', hlast'⟩ := front hm' h'
  have f1 := low_full (l := l) (s := s) full
  have f1' := low_full (l := l) (s := s) full'
  obtain ⟨x, feat, y, al, e1, e2, rfl, fo⟩ := Preprocessing.run_full (received_fits hm) rfl f1.1 f1.2 r1
  obtain ⟨x', feat', y', al', e1', e2', rfl, fo'⟩ := Preprocessing.run_full (received_fits hm') rfl f1'.1 f1'.2 r1'
  have ex : Preprocessing.select (received num l s m).x (received num l s m).feat env.feats = .ok (x', feat') := e1'
  rw [e1] at ex
  cases ex
  rw [all] at e2 e2'
  cases e2
  cases e2'
  dsimp only at r2 r2' r3 r3' r4 r4' hlast hlast'
  have hy : ys' = ys := by
    unfold Prelim.outY at r3 r3'
    rw [r2] at r3
    rw [r2'] at r3'
    simp only [norm, if_true, Option.map_some, Option.some.injEq] at r3 r3'
    rw [← r3, ← r3', rows_passed r2, rows_passed r2']
    have width : ∀ {m : Meta V}, Fitting l s m → ∀ r ∈ (m.algorithms.map (·.map num)).map (passed env.prelim),
        r.length = (received num l s m).y.ncols := by
      intro m hm r hr
      obtain ⟨r', hr', rfl⟩ := List.mem_map.1 hr
      obtain ⟨r'', hr'', rfl⟩ := List.mem_map.1 hr'
      rw [passed_length, List.length_map]
      exact hm.algorithms r'' hr''
    have there : ∀ {m : Meta V}, NothingMissing num m →
        ∀ r ∈ (m.algorithms.map (·.map num)).map (passed env.prelim), ∀ v ∈ r, v ≠ .nan := by
      intro m hm r hr
      obtain ⟨r', hr', rfl⟩ := List.mem_map.1 hr
      obtain ⟨r'', hr'', rfl⟩ := List.mem_map.1 hr'
      apply passed_present
      intro v hv
      obtain ⟨w, hw, rfl⟩ := List.mem_map.1 hv
      exact hm.2 r'' hr'' w hw
    refine (Prelim.C231_performances_partial env.tr _ _ (columns_present (width hm) (there full))
      (columns_present (width hm') (there full')) ?_ (columns_lowest (alike_rows env.prelim alike))).symm
    obtain ⟨r, hr, v, hv, hlow⟩ := low
    obtain ⟨j, hj, rfl⟩ := List.getElem_of_mem hv
    refine ⟨_, List.mem_map.2 ⟨j, List.mem_range.2 (by rw [hm.algorithms r hr] at hj; exact hj), rfl⟩, ?_⟩
    refine List.mem_map.2 ⟨_, List.mem_map_of_mem (List.mem_map_of_mem hr), ?_⟩
    rw [passed_lowest]
    simp only [List.getD, List.getElem?_map, List.getElem?_eq_getElem hj, Option.map_some, Option.getD_some]
    exact hlow
  have hn : t.length = m.algorithms.length := (List.Forall₂.length_eq alike).symm
  have ha : a'.y = a.y := by
    refine filter_y sparse ?_ ?_ r4 r4'
    · rfl
    · simp only [arrays, hy, received, withPerformances, List.length_map, hn]
  refine ⟨_, (rest_keeps tuples hkeep hlast).trans rfl, (rest_keeps tuples hkeep hlast').trans ?_⟩
  rw [← ha]
  rfl

/-! ### A case -/

/-- The number 0 stands for −∞. -/
def abyssNum (n : Nat) : Num := if n = 0 then .ninf else .fin n

/-- Three instances, on the second of which the second algorithm is infinitely bad. -/
def abyssMeta : Meta Nat where
  featureNames := ["feature_a", "feature_b"]
  algorithmNames := ["algo_p", "algo_q"]
  labels := .series [10, 11, 12]
  sources := none
  features := [[1, 2], [3, 1], [2, 5]]
  algorithms := [[4, 2], [1, 0], [5, 3]]

/-- The small options with normalisation; the transformation leaves the numbers alone. -/
def abyssEnv : Env Nat Unit :=
  { smallEnv noSubset none with prelim := ⟨true, true, .fin 2, .fin 1, false, true⟩, tr := id }

/-- The performances in an output. -/
def performancesIn (r : Except (RunError Name Err) (Dict Name (Val Nat Unit))) : Option (List (List Num)) :=
  match r with
  | .ok d =>
    match d .y with
    | some (.table t) => some t.rows
    | _ => none
  | _ => none

-- The hypotheses of `C231_build_partial` hold: the performances 4, 2, 1, 5, 3 and 1, 7, 9, 2, 2 give the same output.
example : Fitting [10, 11, 12] none abyssMeta ∧ Fitting [10, 11, 12] none (withPerformances [[1, 7], [9, 0], [2, 2]] abyssMeta) ∧
    NothingMissing abyssNum abyssMeta ∧ NothingMissing abyssNum (withPerformances [[1, 7], [9, 0], [2, 2]] abyssMeta) ∧
    abyssEnv.subset.byDensity = false ∧ abyssEnv.algos = none ∧ abyssEnv.prelim.norm = true ∧
    (∀ k s vs out, abyssEnv.rest k s vs = .ok out → out.map Prod.fst = (outputs s).map Prod.fst) ∧
    (∃ r ∈ abyssMeta.algorithms, ∃ v ∈ r, abyssNum v = .ninf) ∧
    LowestAlike abyssNum abyssMeta.algorithms [[1, 7], [9, 0], [2, 2]] ∧
    performancesIn (contents (runAll (runner defaultStages Pipeline.defaultSchedule (run abyssEnv)) Runner.State.init
      (args abyssEnv abyssNum abyssMeta))) = some [[.pinf, .pinf], [.pinf, .nan], [.pinf, .pinf]] ∧
    performancesIn (contents (runAll (runner defaultStages Pipeline.defaultSchedule (run abyssEnv)) Runner.State.init
      (args abyssEnv abyssNum (withPerformances [[1, 7], [9, 0], [2, 2]] abyssMeta)))) =
      some [[.pinf, .pinf], [.pinf, .nan], [.pinf, .pinf]] :=
  ⟨⟨rfl, rfl, by decide, by decide, rfl, rfl, by rintro _ ⟨⟩⟩, ⟨rfl, rfl, by decide, by decide, rfl, rfl, by rintro _ ⟨⟩⟩,
    (by constructor <;> intro r _ v _ h <;> unfold abyssNum at h <;> split at h <;> cases h),
    (by constructor <;> intro r _ v _ h <;> unfold abyssNum at h <;> split at h <;> cases h), rfl, rfl, rfl,
    (by intro k s vs out h; cases h; rw [List.map_map]; rfl), ⟨[1, 0], by decide, 0, by decide, rfl⟩,
    .cons (.cons (by decide) (.cons (by decide) .nil)) (.cons (.cons (by decide) (.cons (by decide) .nil))
      (.cons (.cons (by decide) (.cons (by decide) .nil)) .nil)), by decide +kernel, by decide +kernel⟩

/-- All stages, with normalisation; like the z-score, the transformation has no number for an infinite value. -/
def scoreEnv : Env Nat (Kept (List (ℚ × ℚ))) :=
  { allEnv false with
    prelim := ⟨true, true, .fin 2, .fin 1, false, true⟩
    tr := fun l => l.map fun v => match v with
      | .fin q => .fin q
      | _ => .nan }

/-- Six instances, on the second of which the second algorithm is infinitely bad. -/
def deepMeta : Meta Nat where
  featureNames := ["feature_a", "feature_b"]
  algorithmNames := ["algo_p", "algo_q"]
  labels := .series [10, 11, 12, 13, 14, 15]
  sources := none
  features := [[1, 1], [2, 5], [3, 2], [1, 4], [2, 1], [5, 3]]
  algorithms := [[4, 2], [1, 0], [5, 1], [3, 1], [3, 2], [4, 1]]

-- With the late stages as they are modelled, which take missing but not infinite performances, both builds complete.
example : (∀ k s vs out, scoreEnv.rest k s vs = .ok out → out.map Prod.fst = (outputs s).map Prod.fst) ∧
    (∃ r ∈ deepMeta.algorithms, ∃ v ∈ r, abyssNum v = .ninf) ∧
    raisedIn (contents (runAll (runner defaultStages Pipeline.defaultSchedule (run scoreEnv)) Runner.State.init
      (args scoreEnv abyssNum deepMeta))) = 0 ∧
    raisedIn (contents (runAll (runner defaultStages Pipeline.defaultSchedule (run scoreEnv)) Runner.State.init
      (args scoreEnv abyssNum (withPerformances [[1, 7], [9, 0], [2, 2], [1, 3], [4, 1], [2, 6]] deepMeta)))) = 0 :=
  ⟨(all_complete false).complete.tuples, ⟨[1, 0], by decide, 0, by decide, rfl⟩, by decide +kernel, by decide +kernel⟩

end Verif.EndToEnd
