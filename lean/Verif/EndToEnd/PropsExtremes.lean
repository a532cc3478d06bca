import Verif.EndToEnd.PropsWithin
import Verif.EndToEnd.PropsRecompute
import Verif.EndToEnd.PropsTally
import Verif.Trace.PropsTable
import Verif.Trace.PropsSmall
import Verif.EndToEnd.SpecExtremes
/-!
# C226: algorithms that are good, or best, everywhere or nowhere
-/
set_option autoImplicit false
set_option linter.unusedSectionVars false

namespace Verif.EndToEnd

open Verif (Num)
open Verif.Pipeline (Stg Name inputs outputs defaultStages runner)
open Verif.Metadata (Table Squeezed fromDataFrame)
open Verif.Runner (Dict)
open Verif.Pythia (Sized)

variable {V G : Type} {lower : String → String} {numeric : Squeezed V → Bool} {str : V → V}
  {num : V → Num} {env : Env V (Kept G)} {le : Nat → Late V (Kept G)} {te : Nat → TraceEnv G}
  {t : Table V} {labels : List V} {d : Dict Name (Val V (Kept G))}

theorem frame_cell {s : List (String × List Num)} {j : Nat} {l : String} {row : List Num}
    (hj : s[j]? = some (l, row)) (hlen : row.length = Trace.dataLabels.length) {name : String} {v : Num}
    (hc : Trace.cellOf row name = some v) :
    ∃ c, (traceFrame s).lookup name = some c ∧ c[j]? = some (.num v) := by
  have hmem : name ∈ Trace.dataLabels := by
    by_contra hn
    unfold Trace.cellOf at hc
    rw [List.lookup_eq_none_iff.2 (fun p hp => ?_)] at hc
    · cases hc
    · have := (List.of_mem_zip hp).1
      simpa using fun e : name = p.1 => hn (e ▸ this)
  obtain ⟨a0, a1, a2, a3, a4, a5, a6, a7, a8, a9, rfl⟩ :
      ∃ a0 a1 a2 a3 a4 a5 a6 a7 a8 a9, row = [a0, a1, a2, a3, a4, a5, a6, a7, a8, a9] := by
    match row, hlen with
    | [a0, a1, a2, a3, a4, a5, a6, a7, a8, a9], _ => exact ⟨_, _, _, _, _, _, _, _, _, _, rfl⟩
  simp only [Trace.dataLabels, List.mem_cons, List.not_mem_nil, or_false] at hmem
  rcases hmem with rfl | rfl | rfl | rfl | rfl | rfl | rfl | rfl | rfl | rfl <;>
    · refine ⟨_, rfl, ?_⟩
      rw [List.getElem?_map, hj]
      exact congrArg some (congrArg Entry.num (Option.some.inj hc))

theorem build_blank {P : Type} {geo : Trace.Geo G P ℚ} {purity : ℚ} {z : List P} {m : List Bool}
    (laws : Trace.Laws geo) (hm : ∀ b ∈ m, b = false) : Trace.build geo purity z m = Trace.missing := by
  have := laws.unique_length []
  simp only [List.length_nil, Nat.le_zero] at this
  unfold Trace.build
  rw [Trace.masked_all_false _ _ hm]
  simp only [this]
  rfl

theorem missing_blank : Blank (Trace.missing : Trace.Footprint G ℚ) := ⟨rfl, rfl, rfl, rfl, rfl, rfl⟩

theorem whole_measures {P : Type} {geo : Trace.Geo G P ℚ} {purity : ℚ} {z : List P} (laws : Trace.Laws geo)
    (he : (Trace.build geo purity z (List.replicate z.length true)).elements ≠ 0) :
    (Trace.build geo purity z (List.replicate z.length true)).density ≠ 0 ∧
      (Trace.build geo purity z (List.replicate z.length true)).purity = 1 := by
  have hq : ((Trace.build geo purity z (List.replicate z.length true)).elements : ℚ) ≠ 0 := by exact_mod_cast he
  have hcons := Trace.C59_build geo laws purity z (List.replicate z.length true)
  constructor
  · intro h0
    have := hcons.density_eq
    rw [h0, zero_mul] at this
    exact hq this.symm
  · have hgood : (Trace.build geo purity z (List.replicate z.length true)).good =
        (Trace.build geo purity z (List.replicate z.length true)).elements := by
      rcases Trace.build_madeFor geo purity z (List.replicate z.length true) with hm | ⟨q, hm⟩
      · rw [hm]; rfl
      · rw [hm]
        simp only [Trace.fromPolygon, Trace.masked_all_true z _ rfl]
    have := hcons.purity_eq
    rw [hgood] at this
    exact mul_right_cancel₀ hq (by rw [this, one_mul])

/-- The footprints and the summary in the Model. -/
theorem trace_shown (hc : CompleteTrace env le te) (h : Succeeds lower numeric str num env t d) :
    ∃ k z y best beta algos s, d .z = some (.table z) ∧
      d .algo_labels = some (.names algos) ∧ d .beta = some (.flags beta) ∧
      d (if (te k).useSim then .y_hat else .y_bin) = some (.verdicts y) ∧
      d (if (te k).useSim then .selection0 else .p) = some (.counts best) ∧
      d .space = some (.other (.footprint (Trace.build (te k).geo (te k).purity (z.rows.map place)
        (List.replicate (z.rows.map place).length true)))) ∧
      d .hard = some (.other (.footprint (Trace.build (te k).geo (te k).purity (z.rows.map place)
        (beta.map not)))) ∧
      d .good = some (.other (.footprints ((List.range algos.length).map fun i =>
        Trace.build (te k).geo (te k).purity (z.rows.map place) (Trace.goodMask y i)))) ∧
      d .best = some (.other (.footprints ((List.range algos.length).map fun i =>
        Trace.build (te k).geo (te k).purity (z.rows.map place) (Trace.bestMask best i)))) ∧
      d .trace_summary = some (.frame (traceFrame s)) ∧
      ∀ j, j < algos.length → ∃ l row, s[j]? = some (l, row) ∧ row.length = Trace.dataLabels.length ∧
        Trace.Shows row (Trace.build (te k).geo (te k).purity (z.rows.map place)
            (List.replicate (z.rows.map place).length true))
          (Trace.build (te k).geo (te k).purity (z.rows.map place) (Trace.goodMask y j))
          (Trace.build (te k).geo (te k).purity (z.rows.map place) (Trace.bestMask best j)) := by
  obtain ⟨k, vs, out, h1, h2, h3⟩ := succeeds_rest hc.complete.tuples h .trace (by decide)
  rw [hc.stages] at h1
  change (le k).trace vs = .ok out at h1
  rw [hc.trace] at h1
  obtain ⟨z, sel, p, beta, algo, yHat, yBin, o1, o2, o, rfl, f1, f2, ho, rfl⟩ := runTrace_ok h1
  simp only [inputs, List.map_cons, List.map_nil, List.cons.injEq] at h2
  obtain ⟨a1, a2, a3, a4, a5, a6, a7, -⟩ := h2
  obtain ⟨quals, g1, g2, g3⟩ := footprints_ok ho
  obtain ⟨q, c1, -, c2⟩ := Trace.C94_completes (te k).geo (hc.laws k) (te k).purity (z.rows.map place)
    (if (te k).useSim then yHat else yBin) (if (te k).useSim then sel else p) beta
    algo.length ((te k).order algo.length) (hc.order k _)
  rw [g1] at c1
  cases c1
  obtain ⟨e1, e2, e3, e4⟩ := c2 _ g2
  refine ⟨k, z, if (te k).useSim then yHat else yBin, if (te k).useSim then sel else p, beta, algo, o.2, a1, a5,
    a4, ?_, ?_, ?_, ?_, ?_, ?_, h3 _ _ (by simp), ?_⟩
  · cases (te k).useSim
    · exact a7
    · exact a6
  · cases (te k).useSim
    · exact a3
    · exact a2
  · rw [← e1]
    exact h3 _ _ (by simp)
  · rw [← e2]
    exact h3 _ _ (by simp)
  · rw [← e3]
    exact h3 _ _ (by simp)
  · rw [← e4]
    exact h3 _ _ (by simp)
  · intro j hj
    have l1 : o.1.good.length = algo.length := by rw [e3]; simp
    have l2 : o.1.best.length = algo.length := by rw [e4]; simp
    obtain ⟨rows, r1, r2, r3⟩ := Trace.summaryRows_ok o.1 algo 0 (by omega) (by omega)
    unfold Trace.summaryTable at g3
    rw [r1] at g3
    rw [← Except.ok.inj g3]
    obtain ⟨g, b, row, b1, b2, b3, b4, b5⟩ := r3 j hj
    rw [Nat.zero_add] at b1 b2
    rw [e3] at b1
    rw [e4] at b2
    rw [List.getElem?_map, List.getElem?_range hj] at b1 b2
    cases b1
    cases b2
    rw [e1] at b5
    exact ⟨_, row, List.getElem?_zip_eq_some.2 ⟨List.getElem?_eq_getElem hj, b3⟩, b4, b5⟩

theorem always_mask {y : List (List Bool)} {j n : Nat} (hl : y.length = n) (h : Always y j) :
    Trace.goodMask y j = List.replicate n true := by
  refine List.ext_getElem (by simp [Trace.goodMask, hl]) fun i h1 h2 => ?_
  obtain ⟨r, r1, r2⟩ := h i (by simpa [Trace.goodMask] using h1)
  obtain ⟨_, rfl⟩ := List.getElem?_eq_some_iff.1 r1
  simp [Trace.goodMask, List.getD_eq_getElem?_getD, r2]

theorem never_mask {y : List (List Bool)} {j : Nat} (h : Never y j) : ∀ b ∈ Trace.goodMask y j, b = false := by
  intro b hb
  obtain ⟨r, hr, rfl⟩ := List.mem_map.1 hb
  obtain ⟨i, hi⟩ := List.mem_iff_getElem?.1 hr
  cases hv : r[j]? with
  | none => simp [List.getD_eq_getElem?_getD, hv]
  | some v =>
    cases v with
    | false => simp [List.getD_eq_getElem?_getD, hv]
    | true => exact absurd ⟨r, hi, hv⟩ (h i)

theorem best_mask {best : List Nat} {j n : Nat} (hl : best.length = n) (h : ∀ v ∈ best, v = j) :
    Trace.bestMask best j = List.replicate n true := by
  refine List.ext_getElem (by simp [Trace.bestMask, hl]) fun i h1 h2 => ?_
  simp [Trace.bestMask, h _ (List.getElem_mem _)]

theorem best_mask_never {best : List Nat} {j : Nat} (h : ∀ v ∈ best, v ≠ j) :
    ∀ b ∈ Trace.bestMask best j, b = false := by
  intro b hb
  obtain ⟨v, hv, rfl⟩ := List.mem_map.1 hb
  simpa using h v hv

/-! ### C226 -/

/-- **C226, the good footprints.**  An algorithm that is good on every instance — predicted to be good, if TRACE
uses PYTHIA's results — has the footprint of the whole space as its good footprint, and its row of the summary says
so; one that is good nowhere has none, and its row has only zeros. -/
theorem C226_good (hc : CompleteTrace env le te) (ho : Readable lower env t labels)
    (h : Succeeds lower numeric str num env t d)
    (hfit : ∀ k z y yb i res, (le k).fitted z y yb i = .ok res → Sized yb.length res) :
    ∃ k y space good, d (if (te k).useSim then .y_hat else .y_bin) = some (.verdicts y) ∧
      d .space = some (.other (.footprint space)) ∧ d .good = some (.other (.footprints good)) ∧
      ∀ (j : Nat) f, good[j]? = some f →
        (Always y j → f = space ∧ (space.area ≠ 0 → space.elements ≠ 0 → GoodWhole d j)) ∧
        (Never y j → Blank f ∧ GoodNothing d j) := by
  obtain ⟨k, z, y, best, beta, algos, s, b1, b2, b3, b4, b5, b6, b7, b8, b9, b10, b11⟩ := trace_shown hc h
  obtain ⟨n, g, f, m, s1, s2⟩ := all_sizes hc.complete ho h hfit
  have hz : (z.rows.map place).length = n := by
    obtain ⟨z', e1, -, e2, -⟩ := s2.z
    rw [b1] at e1
    cases e1
    simpa using e2
  have hy : y.length = n := by
    cases hu : (te k).useSim with
    | true =>
      rw [hu] at b4
      obtain ⟨y', e1, e2, -⟩ := s2.y_hat
      rw [show d .y_hat = _ from b4] at e1
      cases e1
      exact e2
    | false =>
      rw [hu] at b4
      obtain ⟨y', e1, e2, -⟩ := s1.y_bin
      rw [show d .y_bin = _ from b4] at e1
      cases e1
      exact e2
  refine ⟨k, y, _, _, b4, b6, b8, ?_⟩
  intro j f hj
  rw [List.getElem?_map] at hj
  obtain ⟨i, hi, rfl⟩ := Option.map_eq_some_iff.1 hj
  obtain ⟨hlt, hi⟩ := List.getElem?_eq_some_iff.1 hi
  rw [List.getElem_range] at hi
  subst hi
  obtain ⟨l, row, r1, r2, r3⟩ := b11 j (by simpa using hlt)
  have cell : ∀ {name : String} {v : Num}, Trace.cellOf row name = some v → Reads d name j v := fun hv => by
    obtain ⟨c, c1, c2⟩ := frame_cell r1 r2 hv
    exact ⟨_, c, b10, c1, c2⟩
  constructor
  · intro ha
    have e := always_mask (hy.trans hz.symm) ha
    rw [e] at r3 ⊢
    refine ⟨rfl, fun h1 h2 => ?_⟩
    obtain ⟨h3, h4⟩ := whole_measures (hc.laws k) h2
    refine ⟨cell ?_, cell ?_, cell ?_⟩
    · rw [r3.area_good_normalised, Trace.ratioOr, if_neg h1, div_self h1]; rfl
    · rw [r3.density_good_normalised, Trace.ratioOr, if_neg h3, div_self h3]; rfl
    · rw [r3.purity_good, h4]; rfl
  · intro hn
    have e := build_blank (purity := (te k).purity) (z := z.rows.map place) (hc.laws k) (never_mask hn)
    rw [e] at r3 ⊢
    refine ⟨missing_blank, cell ?_, cell ?_, cell ?_, cell ?_, cell ?_⟩
    · rw [r3.area_good]; rfl
    · rw [r3.area_good_normalised]; simp [Trace.ratioOr, Trace.missing]; rfl
    · rw [r3.density_good]; rfl
    · rw [r3.density_good_normalised]; simp [Trace.ratioOr, Trace.missing]; rfl
    · rw [r3.purity_good]; rfl

/-- **C226, the hard instances.**  If no instance is easy, the footprint of the hard instances is the whole space;
if all are, there is none. -/
theorem C226_hard (hc : CompleteTrace env le te) (ho : Readable lower env t labels)
    (h : Succeeds lower numeric str num env t d)
    (hfit : ∀ k z y yb i res, (le k).fitted z y yb i = .ok res → Sized yb.length res) :
    ∃ beta space hard, d .beta = some (.flags beta) ∧ d .space = some (.other (.footprint space)) ∧
      d .hard = some (.other (.footprint hard)) ∧
      ((∀ b ∈ beta, b = false) → hard = space) ∧ ((∀ b ∈ beta, b = true) → Blank hard) := by
  obtain ⟨k, z, y, best, beta, algos, s, b1, b2, b3, b4, b5, b6, b7, -⟩ := trace_shown hc h
  obtain ⟨n, g, f, m, s1, s2⟩ := all_sizes hc.complete ho h hfit
  have hz : (z.rows.map place).length = n := by
    obtain ⟨z', e1, -, e2, -⟩ := s2.z
    rw [b1] at e1
    cases e1
    simpa using e2
  have hb : beta.length = n := by
    obtain ⟨l, e1, e2⟩ := s1.beta
    rw [b3] at e1
    cases e1
    exact e2
  refine ⟨beta, _, _, b3, b6, b7, fun hf => ?_, fun hf => ?_⟩
  · congr 1
    refine List.ext_getElem (by simp [hb, ← hz]) fun i h1 h2 => ?_
    simp [hf _ (List.getElem_mem (by simpa using h1))]
  · rw [build_blank (hc.laws k) (fun b hb => ?_)]
    · exact missing_blank
    · obtain ⟨v, hv, rfl⟩ := List.mem_map.1 hb
      rw [hf v hv]
      rfl

/-- **C226, the best footprints, the true part.**  If the numbers that TRACE reads name one position on every instance,
the best footprint at that position is the whole space, and there is none at the others.  With PYTHIA's results the
numbers are `selection0`, else they are `p`, which counts the algorithms from one: missing for the full property is
that the position is that of the algorithm. -/
theorem C226_best_partial (hc : CompleteTrace env le te) (ho : Readable lower env t labels)
    (h : Succeeds lower numeric str num env t d)
    (hfit : ∀ k z y yb i res, (le k).fitted z y yb i = .ok res → Sized yb.length res) :
    ∃ k numbers space best, d (if (te k).useSim then .selection0 else .p) = some (.counts numbers) ∧
      d .space = some (.other (.footprint space)) ∧ d .best = some (.other (.footprints best)) ∧
      ∀ (j : Nat) f, best[j]? = some f →
        ((∀ v ∈ numbers, v = j) → f = space ∧ (space.area ≠ 0 → space.elements ≠ 0 → BestWhole d j)) ∧
        ((∀ v ∈ numbers, v ≠ j) → Blank f ∧ BestNothing d j) := by
  obtain ⟨k, z, y, best, beta, algos, s, b1, b2, b3, b4, b5, b6, b7, b8, b9, b10, b11⟩ := trace_shown hc h
  obtain ⟨n, g, f, m, s1, s2⟩ := all_sizes hc.complete ho h hfit
  have hz : (z.rows.map place).length = n := by
    obtain ⟨z', e1, -, e2, -⟩ := s2.z
    rw [b1] at e1
    cases e1
    simpa using e2
  have hy : best.length = n := by
    cases hu : (te k).useSim with
    | true =>
      rw [hu] at b5
      obtain ⟨y', e1, e2⟩ := s2.selection0
      rw [show d .selection0 = _ from b5] at e1
      cases e1
      exact e2
    | false =>
      rw [hu] at b5
      obtain ⟨y', e1, e2⟩ := s1.p
      rw [show d .p = _ from b5] at e1
      cases e1
      exact e2
  refine ⟨k, best, _, _, b5, b6, b9, ?_⟩
  intro j f hj
  rw [List.getElem?_map] at hj
  obtain ⟨i, hi, rfl⟩ := Option.map_eq_some_iff.1 hj
  obtain ⟨hlt, hi⟩ := List.getElem?_eq_some_iff.1 hi
  rw [List.getElem_range] at hi
  subst hi
  obtain ⟨l, row, r1, r2, r3⟩ := b11 j (by simpa using hlt)
  have cell : ∀ {name : String} {v : Num}, Trace.cellOf row name = some v → Reads d name j v := fun hv => by
    obtain ⟨c, c1, c2⟩ := frame_cell r1 r2 hv
    exact ⟨_, c, b10, c1, c2⟩
  constructor
  · intro ha
    have e := best_mask (hy.trans hz.symm) ha
    rw [e] at r3 ⊢
    refine ⟨rfl, fun h1 h2 => ?_⟩
    obtain ⟨h3, h4⟩ := whole_measures (hc.laws k) h2
    refine ⟨cell ?_, cell ?_, cell ?_⟩
    · rw [r3.area_best_normalised, Trace.ratioOr, if_neg h1, div_self h1]; rfl
    · rw [r3.density_best_normalised, Trace.ratioOr, if_neg h3, div_self h3]; rfl
    · rw [r3.purity_best, h4]; rfl
  · intro hn
    have e := build_blank (purity := (te k).purity) (z := z.rows.map place) (hc.laws k) (best_mask_never hn)
    rw [e] at r3 ⊢
    refine ⟨missing_blank, cell ?_, cell ?_, cell ?_, cell ?_, cell ?_⟩
    · rw [r3.area_best]; rfl
    · rw [r3.area_best_normalised]; simp [Trace.ratioOr, Trace.missing]; rfl
    · rw [r3.density_best]; rfl
    · rw [r3.density_best_normalised]; simp [Trace.ratioOr, Trace.missing]; rfl
    · rw [r3.purity_best]; rfl

/-! ### Examples and the refutation -/

/-- The models of PYTHIA are wrong about the first instance while they are tested, and right in the end. -/
def keenLate (sim : Bool) (k : Nat) : Late Nat (Kept (List (ℚ × ℚ))) :=
  { allLate sim k with
    fitted := fun _ _ yb i => .ok ⟨yb.map fun r => r.getD i false, (yb.map fun r => r.getD i false).set 0 false,
      yb.map fun _ => 0, yb.map fun _ => 0, 1, 1⟩ }

/-- The pipeline with them. -/
def keenEnv (sim : Bool) : Env Nat (Kept (List (ℚ × ℚ))) :=
  { allEnv sim with rest := fun k s vs => runLate (keenLate sim k) s vs }

theorem keen_complete (sim : Bool) : CompleteTrace (keenEnv sim) (keenLate sim) (exTrace sim) where
  stages _ _ _ := rfl
  trace _ := rfl
  laws _ := dots_laws
  order _ _ := List.reverse_perm _

theorem keen_sized (sim : Bool) : ∀ k z y yb i res, (keenLate sim k).fitted z y yb i = .ok res →
    Sized yb.length res := by
  intro k z y yb i res h
  cases h
  constructor <;> simp

/-- A footprint of a value. -/
def theFootprint : Option (Val Nat (Kept (List (ℚ × ℚ)))) → Option (Trace.Footprint (List (ℚ × ℚ)) ℚ)
  | some (.other (.footprint f)) => some f
  | _ => none

/-- Footprints of a value. -/
def theFootprints : Option (Val Nat (Kept (List (ℚ × ℚ)))) → Option (List (Trace.Footprint (List (ℚ × ℚ)) ℚ))
  | some (.other (.footprints f)) => some f
  | _ => none

/-- Truth values of a value. -/
def theTruths : Option (Val Nat (Kept (List (ℚ × ℚ)))) → Option (List (List Bool))
  | some (.verdicts f) => some f
  | _ => none

/-- Numbers of instances or algorithms of a value. -/
def theNumbersOf : Option (Val Nat (Kept (List (ℚ × ℚ)))) → Option (List Nat)
  | some (.counts f) => some f
  | _ => none

/-- The best footprint of an algorithm that has the largest performance on every instance is the whole space, if
performances are maximised and TRACE does not use PYTHIA's results. -/
def BestWhereBest : Prop :=
  ∀ (lower : String → String) (numeric : Squeezed Nat → Bool) (num : Nat → Num)
    (env : Env Nat (Kept (List (ℚ × ℚ)))) (le : Nat → Late Nat (Kept (List (ℚ × ℚ))))
    (te : Nat → TraceEnv (List (ℚ × ℚ))) (t : Table Nat) (labels : List Nat)
    (d : Dict Name (Val Nat (Kept (List (ℚ × ℚ))))),
    CompleteTrace env le te → Readable lower env t labels → Succeeds lower numeric id num env t d →
    (∀ k z y yb i res, (le k).fitted z y yb i = .ok res → Sized yb.length res) →
    env.prelim.maxPerf = true → (∀ k, (te k).useSim = false) →
    ∀ y (j : Nat) space best f, d .y_raw = some (.table y) → Largest y j →
      d .space = some (.other (.footprint space)) → d .best = some (.other (.footprints best)) →
      best[j]? = some f → f = space

theorem keen_readable (sim : Bool) {p q : List Nat} (hp : p.length = 6) (hq : q.length = 6) :
    Readable id (keenEnv sim) (cleanTable p q) [10, 11, 12, 13, 14, 15] :=
  (clean_ordinary (keen_complete sim) rfl (cleanTable_rect hp hq) rfl (by decide)).toReadable

set_option synthInstance.maxSize 4000 in
set_option synthInstance.maxHeartbeats 200000 in
theorem keen_outcome : ∃ d y space best good f, Succeeds id (fun _ => false) id lateNum (keenEnv false)
      (cleanTable [4, 2, 5, 3, 3, 4] [2, 0, 1, 1, 2, 1]) d ∧
    d .y_raw = some (.table y) ∧ Largest y 0 ∧ d .space = some (.other (.footprint space)) ∧
    d .best = some (.other (.footprints best)) ∧ d .good = some (.other (.footprints good)) ∧
    space.polygon = some [(3, 1), (12, 5), (7, 2), (9, 4), (4, 1), (11, 3)] ∧
    best.map (·.polygon) = [none, some [(3, 1), (12, 5), (7, 2), (9, 4), (4, 1), (11, 3)]] ∧
    good.map (·.polygon) = [some [(3, 1), (12, 5), (7, 2), (9, 4), (4, 1), (11, 3)], none] ∧
    best[0]? = some f ∧ f.polygon = none ∧ space.area = 6 ∧ space.elements = 6 := by
  have hrun : (cleanRun (keenEnv false) (cleanTable [4, 2, 5, 3, 3, 4] [2, 0, 1, 1, 2, 1])).toOption.map (fun d =>
      (theRows (d .y_raw), (theFootprint (d .space)).map (fun f => (f.polygon, f.area, f.elements)),
        thePolygons (d .best), thePolygons (d .good))) =
      some (some [[4, 2], [2, 0], [5, 1], [3, 1], [3, 2], [4, 1]],
        some (some [(3, 1), (12, 5), (7, 2), (9, 4), (4, 1), (11, 3)], 6, 6),
        some [none, some [(3, 1), (12, 5), (7, 2), (9, 4), (4, 1), (11, 3)]],
        some [some [(3, 1), (12, 5), (7, 2), (9, 4), (4, 1), (11, 3)], none]) := by decide +kernel
  cases hd : cleanRun (keenEnv false) (cleanTable [4, 2, 5, 3, 3, 4] [2, 0, 1, 1, 2, 1]) with
  | error e => rw [hd] at hrun; cases hrun
  | ok d =>
    rw [hd] at hrun
    simp only [Except.toOption, Option.map_some, Option.some.injEq, Prod.mk.injEq] at hrun
    obtain ⟨h1, h2, h3, h4⟩ := hrun
    obtain ⟨y, y1, y2⟩ : ∃ y, d .y_raw = some (.table y) ∧
        y.rows = [[4, 2], [2, 0], [5, 1], [3, 1], [3, 2], [4, 1]] := by
      unfold theRows at h1
      split at h1
      · rename_i m e
        exact ⟨m, e, Option.some.inj h1⟩
      · cases h1
    obtain ⟨s, s1, s2⟩ : ∃ s, d .space = some (.other (.footprint s)) ∧
        (s.polygon, s.area, s.elements) =
          (some [(3, 1), (12, 5), (7, 2), (9, 4), (4, 1), (11, 3)], 6, 6) := by
      unfold theFootprint at h2
      split at h2
      · rename_i m e
        exact ⟨m, e, Option.some.inj h2⟩
      · cases h2
    obtain ⟨b, b1, b2⟩ : ∃ b, d .best = some (.other (.footprints b)) ∧
        b.map (·.polygon) = [none, some [(3, 1), (12, 5), (7, 2), (9, 4), (4, 1), (11, 3)]] := by
      unfold thePolygons at h3
      split at h3
      · rename_i m e
        exact ⟨m, e, Option.some.inj h3⟩
      · cases h3
    obtain ⟨g, g1, g2⟩ : ∃ b, d .good = some (.other (.footprints b)) ∧
        b.map (·.polygon) = [some [(3, 1), (12, 5), (7, 2), (9, 4), (4, 1), (11, 3)], none] := by
      unfold thePolygons at h4
      split at h4
      · rename_i m e
        exact ⟨m, e, Option.some.inj h4⟩
      · cases h4
    obtain ⟨f, f1, f2⟩ : ∃ f, b[0]? = some f ∧ f.polygon = none := by
      cases b with
      | nil => cases b2
      | cons f b =>
        simp only [List.map_cons, List.cons.injEq] at b2
        exact ⟨f, rfl, b2.1⟩
    simp only [Prod.mk.injEq] at s2
    refine ⟨d, y, s, b, g, f, ⟨defaultStages, Pipeline.listOrder, Pipeline.defaultSchedule, [], .refl _,
      Pipeline.default_once, hd⟩, y1, ?_, s1, b1, g1, s2.1, b2, g2, f1, f2, s2.2.1, s2.2.2⟩
    intro r hr
    rw [y2] at hr
    have key : ∀ a b : ℚ, b < a → ∃ v : ℚ, ([.fin a, .fin b] : List Num)[0]? = some (.fin v) ∧
        ∀ (i : Nat) (w : Num), i ≠ 0 → ([.fin a, .fin b] : List Num)[i]? = some w → ∃ q : ℚ, w = .fin q ∧ q < v := by
      intro a b hab
      refine ⟨a, rfl, fun i w hi hw => ?_⟩
      match i with
      | 0 => exact absurd rfl hi
      | 1 => cases hw; exact ⟨b, rfl, hab⟩
      | i + 2 => cases hw
    simp only [List.mem_cons, List.not_mem_nil, or_false] at hr
    rcases hr with rfl | rfl | rfl | rfl | rfl | rfl
    · exact key 4 2 (by norm_num)
    · exact key 2 0 (by norm_num)
    · exact key 5 1 (by norm_num)
    · exact key 3 1 (by norm_num)
    · exact key 3 2 (by norm_num)
    · exact key 4 1 (by norm_num)

/-- **C226** is false for the best footprints: the first of two algorithms has the larger performance on all six
instances, and has no best footprint (the second one has the whole space). -/
theorem C226_refuted : ¬ BestWhereBest := by
  intro h
  obtain ⟨d, y, space, best, good, f, h1, h2, h3, h4, h5, -, h7, -, -, h8, h9, -⟩ := keen_outcome
  have := h id (fun _ => false) lateNum (keenEnv false) (keenLate false) (exTrace false) _ _ d (keen_complete false)
    (keen_readable false rfl rfl) h1 (keen_sized false) rfl (fun _ => rfl) y 0 space best f h2 h3 h4 h5 h8
  rw [this, h7] at h9
  cases h9

set_option synthInstance.maxSize 4000 in
/-- Non-vacuity: in this run the first algorithm is good on every instance and has the whole space, of area 6, as its
good footprint; with PYTHIA's results it also has it as its best footprint. -/
example : CompleteTrace (keenEnv false) (keenLate false) (exTrace false) ∧
    (∃ d space good, Succeeds id (fun _ => false) id lateNum (keenEnv false)
        (cleanTable [4, 2, 5, 3, 3, 4] [2, 0, 1, 1, 2, 1]) d ∧ d .space = some (.other (.footprint space)) ∧
      d .good = some (.other (.footprints good)) ∧ space.area ≠ 0 ∧ space.elements ≠ 0 ∧
      good.map (·.polygon) = [some [(3, 1), (12, 5), (7, 2), (9, 4), (4, 1), (11, 3)], none]) ∧
    (cleanRun (keenEnv false) (cleanTable [4, 2, 5, 3, 3, 4] [2, 0, 1, 1, 2, 1])).toOption.map (fun d =>
      ((theTruths (d .y_bin)).map fun y => y.map fun r => r.getD 0 false)) =
      some (some [true, true, true, true, true, true]) ∧
    (cleanRun (keenEnv true) (cleanTable [4, 2, 5, 3, 3, 4] [2, 0, 1, 1, 2, 1])).toOption.map (fun d =>
      (theNumbersOf (d .selection0), thePolygons (d .best))) =
      some (some [0, 0, 0, 0, 0, 0], some [some [(3, 1), (12, 5), (7, 2), (9, 4), (4, 1), (11, 3)], none]) := by
  refine ⟨keen_complete false, ?_, by decide +kernel, by decide +kernel⟩
  obtain ⟨d, y, space, best, good, f, h1, -, -, h4, -, h6, -, -, h7, -, -, h8, h9⟩ := keen_outcome
  exact ⟨d, space, good, h1, h4, h6, by rw [h8]; norm_num, by rw [h9]; decide, h7⟩

end Verif.EndToEnd
