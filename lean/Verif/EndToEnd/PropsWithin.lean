import Verif.EndToEnd.SpecWithin
import Verif.EndToEnd.PropsTrace
import Verif.Trace.WithinLemmas
/-!
# C223: the footprints and the boundary in the Model
-/
set_option autoImplicit false
set_option linter.unusedSectionVars false

namespace Verif.EndToEnd

open Verif (Num)
open Verif.Pipeline (Stg Name inputs outputs defaultStages runner)
open Verif.Metadata (Table Squeezed fromDataFrame)
open Verif.Runner (Dict)

variable {V G : Type} {lower : String → String} {numeric : Squeezed V → Bool} {str : V → V}
  {num : V → Num} {env : Env V (Kept G)} {le : Nat → Late V (Kept G)} {te : Nat → TraceEnv G} {t : Table V}
  {d : Dict Name (Val V (Kept G))}

theorem place_row {z : Preprocessing.Mat Num} (hf : isFinite z = true) (h2 : z.ncols = 2) {r : List Num}
    (hr : r ∈ z.rows) : r = [.fin (place r 0), .fin (place r 1)] := by
  obtain ⟨h3, h4⟩ := isFinite_mem hf
  have hl := h3 r hr
  rw [h2] at hl
  match r, hl with
  | [u, v], _ =>
    obtain ⟨a, rfl⟩ := h4 _ hr u (by simp)
    obtain ⟨b, rfl⟩ := h4 _ hr v (by simp)
    rfl

theorem masked_marked {z : Preprocessing.Mat Num} (hf : isFinite z = true) (h2 : z.ncols = 2) (y : List Bool) :
    {p | p ∈ Trace.masked (z.rows.map place) y} ⊆ markedPoints z fun i => y[i]? = some true := by
  intro p hp
  rw [Set.mem_ofPred_eq, Trace.masked_eq_zip] at hp
  obtain ⟨q, hq, rfl⟩ := List.mem_map.1 hp
  obtain ⟨hq1, hq2⟩ := List.mem_filter.1 hq
  obtain ⟨i, hi, he⟩ := List.mem_iff_getElem.1 hq1
  rw [List.getElem_zip] at he
  simp only [List.length_zip, List.length_map, Nat.lt_min] at hi
  refine ⟨i, ?_, ?_⟩
  · rw [List.getElem?_eq_getElem hi.1, ← he]
    simp only [List.getElem_map]
    rw [← place_row hf h2 (List.getElem_mem _)]
  · change y[i]? = some true
    rw [List.getElem?_eq_getElem hi.2]
    rw [← he] at hq2
    exact congrArg some hq2

theorem marked_mono {z : Preprocessing.Mat Num} {m m' : Nat → Prop} (h : ∀ i, m i → m' i) :
    markedPoints z m ⊆ markedPoints z m' := fun _ ⟨i, h1, h2⟩ => ⟨i, h1, h i h2⟩

theorem marked_rows (z : Preprocessing.Mat Num) (m : Nat → Prop) : markedPoints z m ⊆ rowPoints z :=
  fun _ ⟨_, h1, _⟩ => List.mem_of_getElem? h1

/-- The coordinates lie in the boundary. -/
theorem coordinates_within (hc : Complete env le) (h : Succeeds lower numeric str num env t d)
    (hq : ∀ k, Cloister.HullCorrect (le k).qhull) {z e : Preprocessing.Mat Num} (hz : d .z = some (.table z))
    (he : d .z_edge = some (.table e)) (hne : e.rows ≠ []) : rowPoints z ⊆ convexHull ℚ (rowPoints e) := by
  obtain ⟨k, x, y, feat, o, p1, -, -, -, -, -, p7, p8, p9, -⟩ := pilot_values hc h
  obtain ⟨k', x', a, r, l, c1, c2, c3, c4, -⟩ := cloister_values hc h
  rw [p1] at c1
  cases c1
  rw [p8] at c2
  cases c2
  rw [hz] at p9
  cases p9
  rw [he] at c4
  cases c4
  have hA : entries (tableOf o.a) 2 x.ncols = o.a := by
    funext i j
    exact ent_tableOf o.a i j
  rw [hA] at hne ⊢
  have hrp : ∀ s : List (Fin 2 → ℚ), rowPoints (pointsOf s) = Cloister.pointSet s := by
    intro s
    ext p
    unfold rowPoints Cloister.pointSet pointsOf
    simp only [Set.mem_ofPred_eq, List.mem_map, List.cons.injEq, Num.fin.injEq, and_true]
    constructor
    · rintro ⟨q, hq, h0, h1⟩
      have : p = q := by
        funext k
        match k with
        | 0 => exact h0.symm
        | 1 => exact h1.symm
      rw [this]
      exact hq
    · exact fun hp => ⟨p, hp, rfl, rfl⟩
  rw [hrp]
  intro p hp
  obtain ⟨i, hi, hpi⟩ := List.mem_iff_getElem.1 hp
  have hi' : i < x.rows.length := by simpa [tableOf] using hi
  have hpl : p = Cloister.place o.a (entries x x.rows.length x.ncols ⟨i, hi'⟩) := by
    have hproj := pilot_projects (Pilot.pilotGaps_ok p7).1 ⟨i, hi'⟩
    have hrow : [Num.fin (o.z ⟨i, hi'⟩ 0), .fin (o.z ⟨i, hi'⟩ 1)] = [.fin (p 0), .fin (p 1)] := by
      rw [← hpi]
      simp [tableOf]
    simp only [List.cons.injEq, Num.fin.injEq, and_true] at hrow
    funext k
    match k with
    | 0 =>
      rw [← hrow.1, hproj 0]
      exact Finset.sum_congr rfl fun j _ => mul_comm _ _
    | 1 =>
      rw [← hrow.2, hproj 1]
      exact Finset.sum_congr rfl fun j _ => mul_comm _ _
  rw [hpl]
  refine Cloister.C56_encloses (le k').qhull (hq k') _ _ _ o.a r l ?_ _ ?_
  · intro hnone
    apply hne
    simp only [Cloister.cloister, Cloister.hullPoints, hnone]
    rfl
  · rw [← c3]
    exact List.mem_ofFn.2 ⟨_, rfl⟩

/-- The footprints in the Model are those that were built. -/
theorem footprints_built (hc : CompleteTrace env le te) (h : Succeeds lower numeric str num env t d) :
    ∃ k z y best beta algos, d .z = some (.table z) ∧ isFinite z = true ∧ z.ncols = 2 ∧
      d .algo_labels = some (.names algos) ∧ d .beta = some (.flags beta) ∧
      d (if (te k).useSim then .y_hat else .y_bin) = some (.verdicts y) ∧
      d (if (te k).useSim then .selection0 else .p) = some (.counts best) ∧
      d .space = some (.other (.footprint (Trace.build (te k).geo (te k).purity (z.rows.map place)
        (List.replicate z.rows.length true)))) ∧
      d .hard = some (.other (.footprint (Trace.build (te k).geo (te k).purity (z.rows.map place)
        (beta.map not)))) ∧
      d .good = some (.other (.footprints ((List.range algos.length).map fun i =>
        Trace.build (te k).geo (te k).purity (z.rows.map place) (Trace.goodMask y i)))) ∧
      d .best = some (.other (.footprints ((List.range algos.length).map fun i =>
        Trace.build (te k).geo (te k).purity (z.rows.map place) (Trace.bestMask best i)))) := by
  obtain ⟨k, vs, out, h1, h2, h3⟩ := succeeds_rest hc.complete.tuples h .trace (by decide)
  rw [hc.stages] at h1
  change (le k).trace vs = .ok out at h1
  rw [hc.trace] at h1
  obtain ⟨z, sel, p, beta, algo, yHat, yBin, o1, o2, o, rfl, f1, f2, ho, rfl⟩ := runTrace_ok h1
  simp only [inputs, List.map_cons, List.map_nil, List.cons.injEq] at h2
  obtain ⟨a1, a2, a3, a4, a5, a6, a7, -⟩ := h2
  obtain ⟨quals, g1, g2, -⟩ := footprints_ok ho
  obtain ⟨q, c1, -, c2⟩ := Trace.C94_completes (te k).geo (hc.laws k) (te k).purity (z.rows.map place)
    (if (te k).useSim then yHat else yBin) (if (te k).useSim then sel else p) beta
    algo.length ((te k).order algo.length) (hc.order k _)
  rw [g1] at c1
  cases c1
  obtain ⟨e1, e2, e3, e4⟩ := c2 _ g2
  refine ⟨k, z, if (te k).useSim then yHat else yBin, if (te k).useSim then sel else p, beta, algo, a1, f1, f2, a5, a4, ?_, ?_, ?_, ?_, ?_, ?_⟩
  · cases (te k).useSim
    · exact a7
    · exact a6
  · cases (te k).useSim
    · exact a3
    · exact a2
  · rw [List.length_map] at e1
    rw [← e1]
    exact h3 _ _ (by simp)
  · rw [← e2]
    exact h3 _ _ (by simp)
  · rw [← e3]
    exact h3 _ _ (by simp)
  · rw [← e4]
    exact h3 _ _ (by simp)

/-- **C223, the boundary.**  If a boundary has been found, every footprint of the Model lies inside it. -/
theorem C223_boundary (hc : CompleteTrace env le te) (h : Succeeds lower numeric str num env t d)
    (hq : ∀ k, Cloister.HullCorrect (le k).qhull) {region : G → Set (Fin 2 → ℚ)}
    (hr : ∀ k, Trace.Regions (te k).geo region) {e : Preprocessing.Mat Num}
    (he : d .z_edge = some (.table e)) (hne : e.rows ≠ []) {g : G} (hg : IsFootprint d g) :
    region g ⊆ convexHull ℚ (rowPoints e) := by
  obtain ⟨k, z, y, best, beta, algos, b1, b2, b3, b4, b5, b6, b7, b8, b9, b10, b11⟩ := footprints_built hc h
  have key : ∀ m : List Bool, (Trace.build (te k).geo (te k).purity (z.rows.map place) m).polygon = some g →
      region g ⊆ convexHull ℚ (rowPoints e) := fun m hm =>
    (Trace.build_within (hr k) hm).trans (convexHull_min
      (((masked_marked b2 b3 m).trans (marked_rows _ _)).trans (coordinates_within hc.complete h hq b1 he hne))
      (convex_convexHull ℚ _))
  obtain ⟨f, hf, hg⟩ := hg
  rcases hg with hg | hg | ⟨l, hg, hl⟩ | ⟨l, hg, hl⟩
  · rw [b8] at hg
    cases hg
    exact key _ hf
  · rw [b9] at hg
    cases hg
    exact key _ hf
  · rw [b10] at hg
    cases hg
    obtain ⟨i, -, rfl⟩ := List.mem_map.1 hl
    exact key _ hf
  · rw [b11] at hg
    cases hg
    obtain ⟨i, -, rfl⟩ := List.mem_map.1 hl
    exact key _ hf

/-- **C223, the instances.**  The good footprint of an algorithm lies between the instances on which it is good —
predicted to be good, if TRACE uses PYTHIA's results — and the footprint of the hard instances between those that
are not easy. -/
theorem C223_instances (hc : CompleteTrace env le te) (h : Succeeds lower numeric str num env t d)
    {region : G → Set (Fin 2 → ℚ)} (hr : ∀ k, Trace.Regions (te k).geo region) :
    ∃ k z y beta, d .z = some (.table z) ∧
      d (if (te k).useSim then .y_hat else .y_bin) = some (.verdicts y) ∧ d .beta = some (.flags beta) ∧
      (∀ l (j : Nat) f g, d .good = some (.other (.footprints l)) → l[j]? = some f → f.polygon = some g →
        region g ⊆ convexHull ℚ (markedPoints z fun i => At y i j true)) ∧
      ∀ f g, d .hard = some (.other (.footprint f)) → f.polygon = some g →
        region g ⊆ convexHull ℚ (markedPoints z fun i => beta[i]? = some false) := by
  obtain ⟨k, z, y, best, beta, algos, b1, b2, b3, b4, b5, b6, b7, b8, b9, b10, b11⟩ := footprints_built hc h
  refine ⟨k, z, y, beta, b1, b6, b5, ?_, ?_⟩
  · intro l j f g hl hj hg
    rw [b10] at hl
    cases hl
    rw [List.getElem?_map] at hj
    obtain ⟨i, hi, rfl⟩ := Option.map_eq_some_iff.1 hj
    have := (List.getElem?_eq_some_iff.1 hi).2
    rw [List.getElem_range] at this
    subst this
    refine (Trace.build_within (hr k) hg).trans (convexHull_mono ((masked_marked b2 b3 _).trans
      (marked_mono fun i hi => ?_)))
    unfold Trace.goodMask at hi
    rw [List.getElem?_map] at hi
    obtain ⟨r, h1, h2⟩ := Option.map_eq_some_iff.1 hi
    refine ⟨r, h1, ?_⟩
    rw [List.getD_eq_getElem?_getD] at h2
    cases hrj : r[j]? with
    | none => rw [hrj] at h2; cases h2
    | some v => rw [hrj] at h2; exact congrArg some h2
  · intro f g hl hg
    rw [b9] at hl
    cases hl
    refine (Trace.build_within (hr k) hg).trans (convexHull_mono ((masked_marked b2 b3 _).trans
      (marked_mono fun i hi => ?_)))
    rw [List.getElem?_map] at hi
    obtain ⟨v, h1, h2⟩ := Option.map_eq_some_iff.1 hi
    rw [h1]
    cases v
    · rfl
    · cases h2

/-! ### An example -/

theorem dots_regions : Trace.Regions dots fun g => {p | pair p ∈ g} where
  inside g p h := by simpa [dots] using h
  empty := by ext p; simp [dots]
  union a b := by
    intro p hp
    simp only [dots, Set.mem_ofPred_eq, List.mem_append, List.mem_filter] at hp
    rcases hp with hp | hp
    · exact .inl hp
    · exact .inr hp.1
  diff a b := fun p hp => (List.mem_filter.1 hp).1
  unique l p hp := by
    simp only [dots, List.mem_map, List.mem_eraseDups] at hp
    obtain ⟨q, ⟨r, hr, rfl⟩, rfl⟩ := hp
    have : (![(pair r).1, (pair r).2] : Fin 2 → ℚ) = r := by
      funext k
      match k with
      | 0 => rfl
      | 1 => rfl
    rw [this]
    exact hr
  alpha l := by
    refine subset_trans ?_ (subset_convexHull ℚ _)
    intro p hp
    obtain ⟨r, hr, he⟩ := List.mem_map.1 hp
    have : r = p := by
      have e1 := congrArg Prod.fst he
      have e2 := congrArg Prod.snd he
      funext k
      match k with
      | 0 => exact e1
      | 1 => exact e2
    rw [← this]
    exact hr
  smooth g := subset_convexHull ℚ _

/-- The polygons of footprints. -/
def thePolygons : Option (Val Nat (Kept (List (ℚ × ℚ)))) → Option (List (Option (List (ℚ × ℚ))))
  | some (.other (.footprints l)) => some (l.map (·.polygon))
  | _ => none

/-- The rows of a table. -/
def theRows : Option (Val Nat (Kept (List (ℚ × ℚ)))) → Option (List (List Num))
  | some (.table m) => some m.rows
  | _ => none

set_option synthInstance.maxSize 500 in
/-- Non-vacuity: the run on six instances, where geometries are sets of points.  The boundary has four corners,
and the good footprint of the first algorithm consists of four instances. -/
example : CompleteTrace (allEnv false) (allLate false) (exTrace false) ∧
    (∀ k, Cloister.HullCorrect (allLate false k).qhull) ∧
    (∀ k, Trace.Regions (exTrace false k).geo fun g => {p | pair p ∈ g}) ∧
    ∃ d e, Succeeds id (fun _ => false) id lateNum (allEnv false) traceTable d ∧
      d .z_edge = some (.table e) ∧ e.rows.length = 4 ∧ IsFootprint d [(3, 1), (7, 2), (4, 1), (11, 3)] := by
  refine ⟨all_complete false, late_hull, fun _ => dots_regions, ?_⟩
  have hrun : (allRun false).toOption.map (fun d => (thePolygons (d .good), (theRows (d .z_edge)).map List.length)) =
      some (some [some [(3, 1), (7, 2), (4, 1), (11, 3)], none], some 4) := by decide +kernel
  cases hd : allRun false with
  | error e => rw [hd] at hrun; cases hrun
  | ok d =>
    rw [hd] at hrun
    simp only [Except.toOption, Option.map_some, Option.some.injEq, Prod.mk.injEq] at hrun
    obtain ⟨h1, h2⟩ := hrun
    have hz : ∃ m, d .z_edge = some (.table m) ∧ m.rows.length = 4 := by
      unfold theRows at h2
      split at h2
      · rename_i m e
        exact ⟨m, e, Option.some.inj h2⟩
      · cases h2
    obtain ⟨m, m1, m2⟩ := hz
    refine ⟨d, m, ⟨defaultStages, Pipeline.listOrder, Pipeline.defaultSchedule, [], .refl _,
      Pipeline.default_once, hd⟩, m1, m2, ?_⟩
    unfold thePolygons at h1
    split at h1
    · rename_i l e
      cases l with
      | nil => cases h1
      | cons f l =>
        simp only [List.map_cons, Option.some.injEq, List.cons.injEq] at h1
        exact ⟨f, h1.1, .inr (.inr (.inl ⟨_, e, List.mem_cons_self⟩))⟩
    · cases h1

end Verif.EndToEnd
