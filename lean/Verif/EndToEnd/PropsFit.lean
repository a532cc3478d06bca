import Verif.EndToEnd.PropsTries
import Verif.Pilot.PropsVector
import Verif.EndToEnd.SpecFit
/-!
# C219: the quality of the fit in the Model
-/
set_option autoImplicit false
set_option linter.unusedSectionVars false

namespace Verif.EndToEnd

open Verif (Num)
open Verif.Pipeline (Name outputs)
open Verif.Metadata (Table Squeezed)
open Verif.Runner (Dict)

variable {V W : Type} {lower : String → String} {numeric : Squeezed V → Bool} {str : V → V}
  {num : V → Num} {env : Env V W} {le : Nat → Late V W} {t : Table V} {d : Dict Name (Val V W)}

/-- **C219 (part).** In analytic mode `r2` in the Model has, for every feature and then every algorithm, the part of
its variation that the coordinates explain.  Missing: numerical mode, where it fails (`C219_refuted`,
`C219_numerical_partial`). -/
theorem C219_analytic_partial {half : ℚ → ℚ} (hc : Complete env le)
    (hm : ∀ k n q, ((le k).pilotOpts n q).analytic = true)
    (hh : ∀ k p n q (x : Matrix (Fin p) (Fin n) ℚ), ((le k).pilotLib (q := q) x).half = half)
    (h : Succeeds lower numeric str num env t d) : Fits half d := by
  obtain ⟨k, x, y, feat, o, hx, hy, f1, f2, f3, hp, hall⟩ := pilot_all hc h
  have hg := (Pilot.pilotGaps_ok hp).2 (hm k _ _)
  have f2' := isFinite_of f2 (noNan_of_noGap f2 f3 hg)
  rw [Pilot.pilotGaps_none _ hg] at hp
  obtain ⟨hcc, hl, hr, hs⟩ := Pilot.C79_explained_partial (hm k _ _) hp
  refine ⟨_, _, _, _, _, o.z, o.b, fun k j => o.c k (j.cast hcc.symm), o.r2.map orNan, stores_entries hx f1 rfl,
    stores_entries hy f2' f3, stores_tableOf (hall .z _ (by simp [pilotOut])),
    stores_tableOf (hall .b _ (by simp [pilotOut])), ?_, ?_, by rw [List.length_map, hl], ?_, ?_⟩
  · obtain ⟨c, hc1, hc2, hc3, hc4⟩ := stores_tableOf (m := o.c) (hall .c _ (by simp [pilotOut]))
    exact ⟨c, hc1, by rw [hc2, hcc], hc3, fun i j => hc4 i (j.cast hcc.symm)⟩
  · exact hall .r2 _ (by simp [pilotOut, Pilot.gapR2_none hg])
  · intro j w hw
    rw [List.getElem?_map] at hw
    rcases hr j with ⟨e, hcon⟩ | ⟨s, he, e⟩
    · rw [e] at hw
      exact .inl ⟨(Option.some.inj hw).symm, hcon⟩
    · rw [e, hh] at hw
      exact .inr ⟨s, he, (Option.some.inj hw).symm⟩
  · intro j w hw
    rw [List.getElem?_map] at hw
    rcases hs j with ⟨e, hcon⟩ | ⟨s, he, e⟩
    · rw [e] at hw
      exact .inl ⟨(Option.some.inj hw).symm, hcon⟩
    · rw [e, hh] at hw
      exact .inr ⟨s, he, (Option.some.inj hw).symm⟩

theorem at_entries {m : Preprocessing.Mat Num} {p : Nat} (h : noInfinity m = true) (hp : m.rows.length = p) (i : Fin p)
    (j : Fin m.ncols) : At m.rows i j .nan ∨ At m.rows i j (.fin (entries m p m.ncols i j)) := by
  obtain ⟨h1, h2⟩ := noInfinity_mem h
  have hi : i.val < m.rows.length := by rw [hp]; exact i.isLt
  have hmem : m.rows[i.val] ∈ m.rows := List.getElem_mem _
  have hj : j.val < (m.rows[i.val]).length := by rw [h1 _ hmem]; exact j.isLt
  have e1 : m.rows.getD i.val [] = m.rows[i.val] := by
    rw [List.getD_eq_getElem?_getD, List.getElem?_eq_getElem hi]; rfl
  have e2 : (m.rows[i.val]).getD j.val .nan = m.rows[i.val][j.val] := by
    rw [List.getD_eq_getElem?_getD, List.getElem?_eq_getElem hj]; rfl
  rcases h2 _ hmem _ (List.getElem_mem hj) with e | ⟨q, e⟩
  · exact .inl ⟨_, List.getElem?_eq_getElem hi, by rw [List.getElem?_eq_getElem hj, e]⟩
  · refine .inr ⟨_, List.getElem?_eq_getElem hi, ?_⟩
    rw [List.getElem?_eq_getElem hj]
    unfold entries
    rw [e1, e2, e]
    rfl

theorem at_col_lt {m : Preprocessing.Mat Num} (h : noInfinity m = true) {i j : Nat} {v : Num} (hv : At m.rows i j v) :
    j < m.ncols := by
  obtain ⟨r, hr, hv⟩ := hv
  rw [← (noInfinity_mem h).1 r (List.mem_of_getElem? hr)]
  exact (List.getElem?_eq_some_iff.1 hv).1

theorem at_one {rows : List (List Num)} {i j : Nat} {u v : Num} (hu : At rows i j u) (hv : At rows i j v) : u = v := by
  obtain ⟨r, hr, hu⟩ := hu
  obtain ⟨s, hs, hv⟩ := hv
  rw [hr] at hs
  cases hs
  rw [hu] at hv
  cases hv
  rfl

/-- Without a gap in the row, the row of features and performances is constant if and only if all entries are the same. -/
theorem constant_row {x y : Preprocessing.Mat Num} {p : Nat} (hx : noInfinity x = true) (hy : noInfinity y = true)
    (px : x.rows.length = p) (py : y.rows.length = p) (i : Fin p) (nx : ∀ j, ¬ At x.rows i j .nan)
    (ny : ∀ j, ¬ At y.rows i j .nan) :
    Pilot.Constant (Pilot.xBar (entries x p x.ncols) (entries y p y.ncols) i) ↔ SameEntries x.rows y.rows i := by
  have ax : ∀ j : Fin x.ncols, At x.rows i j (.fin (entries x p x.ncols i j)) := fun j =>
    (at_entries hx px i j).resolve_left (nx j)
  have ay : ∀ j : Fin y.ncols, At y.rows i j (.fin (entries y p y.ncols i j)) := fun j =>
    (at_entries hy py i j).resolve_left (ny j)
  have bx : ∀ j, Pilot.xBar (entries x p x.ncols) (entries y p y.ncols) i (Fin.castAdd y.ncols j) =
      entries x p x.ncols i j := fun j => by unfold Pilot.xBar; rw [Fin.append_left]
  have by' : ∀ j, Pilot.xBar (entries x p x.ncols) (entries y p y.ncols) i (Fin.natAdd x.ncols j) =
      entries y p y.ncols i j := fun j => by unfold Pilot.xBar; rw [Fin.append_right]
  constructor
  · intro hc
    by_cases h0 : 0 < x.ncols + y.ncols
    · refine ⟨.fin (Pilot.xBar (entries x p x.ncols) (entries y p y.ncols) i ⟨0, h0⟩), ?_, ?_⟩
      · intro j u hu
        have hj := at_col_lt hx hu
        rw [at_one hu (ax ⟨j, hj⟩), ← bx ⟨j, hj⟩, hc _ ⟨0, h0⟩]
      · intro j u hu
        have hj := at_col_lt hy hu
        rw [at_one hu (ay ⟨j, hj⟩), ← by' ⟨j, hj⟩, hc _ ⟨0, h0⟩]
    · refine ⟨.nan, fun j u hu => ?_, fun j u hu => ?_⟩
      · have := at_col_lt hx hu
        omega
      · have := at_col_lt hy hu
        omega
  · rintro ⟨v, hvx, hvy⟩
    have all : ∀ j, Num.fin (Pilot.xBar (entries x p x.ncols) (entries y p y.ncols) i j) = v := by
      intro j
      refine Fin.addCases (fun j => ?_) (fun j => ?_) j
      · rw [bx]; exact hvx _ _ (ax j)
      · rw [by']; exact hvy _ _ (ay j)
    intro j k
    have := (all j).trans (all k).symm
    exact Num.fin.inj this

theorem finite_noInfinity {m : Preprocessing.Mat Num} (h : isFinite m = true) : noInfinity m = true ∧
    ∀ i j, ¬ At m.rows i j .nan := by
  obtain ⟨h1, h2⟩ := isFinite_mem h
  constructor
  · unfold noInfinity
    simp only [List.all_eq_true, Bool.and_eq_true, beq_iff_eq]
    refine fun r hr => ⟨h1 r hr, fun v hv => ?_⟩
    obtain ⟨q, rfl⟩ := h2 r hr v hv
    rfl
  · rintro i j ⟨r, hr, hv⟩
    obtain ⟨q, e⟩ := h2 r (List.mem_of_getElem? hr) _ (List.mem_of_getElem? hv)
    cases e

/-- **C219 (part).** In numerical mode `r2` has two entries for every instance and says nothing about the fit: the first
is NaN if a performance of the instance is missing or if all its features and performances are the same number, else
1, and the second is NaN or 1. -/
theorem C219_numerical_partial (hc : Complete env le) (hm : ∀ k n q, ((le k).pilotOpts n q).analytic = false)
    (h : Succeeds lower numeric str num env t d) :
    ∃ x y r2, d .x = some (.table x) ∧ d .y = some (.table y) ∧ d .r2 = some (.numbers r2) ∧
      r2.length = 2 * x.rows.length ∧ (∀ w ∈ r2, w = .nan ∨ w = 1) ∧
      ∀ i < x.rows.length, r2[i]? = some .nan ↔ (∃ j, At y.rows i j .nan) ∨ SameEntries x.rows y.rows i := by
  obtain ⟨k, x, y, feat, o, hx, hy, f1, f2, f3, hp, hall⟩ := pilot_all hc h
  replace hp := (Pilot.pilotGaps_ok hp).1
  obtain ⟨hl, hone⟩ := Pilot.C79_refuted (hm k _ _) hp
  obtain ⟨-, -, -, alpha, -, -, -, -, -, -, -, -, -, -, -, -, -, -, hr, -⟩ := Pilot.numerical_ok (hm k _ _) hp
  refine ⟨x, y, (Pilot.gapR2 (gapsOf y x.rows.length y.ncols) o).map orNan, hx, hy,
    hall .r2 _ (by simp [pilotOut]), by simp [Pilot.gapR2, hl], ?_, ?_⟩
  · intro w hw
    obtain ⟨v, hv, rfl⟩ := List.mem_map.1 hw
    unfold Pilot.gapR2 at hv
    obtain ⟨i, hi, rfl⟩ := List.mem_mapIdx.1 hv
    split
    · exact .inl rfl
    · rcases hone _ (List.getElem_mem hi) with e | e
      · rw [e]; exact .inl rfl
      · rw [e]; exact .inr rfl
  · intro i hi
    obtain ⟨nx, hnx⟩ := finite_noInfinity f1
    have e : (Pilot.gapR2 (gapsOf y x.rows.length y.ncols) o)[i]? =
        some (if ∃ j : Fin y.ncols, gapsOf y x.rows.length y.ncols ⟨i, hi⟩ j = true then none else
          Pilot.sqCorr (Pilot.xBar (entries x x.rows.length x.ncols) (entries y x.rows.length y.ncols) ⟨i, hi⟩)
            (Pilot.xBar (entries x x.rows.length x.ncols) (entries y x.rows.length y.ncols) ⟨i, hi⟩)) := by
      unfold Pilot.gapR2
      rw [List.getElem?_mapIdx, hr, List.getElem?_append_left (by simpa using hi), List.getElem?_ofFn, dif_pos hi]
      simp [hi]
    rw [List.getElem?_map, e, Option.map_some, Option.some.injEq]
    have hgap : (∃ j : Fin y.ncols, gapsOf y x.rows.length y.ncols ⟨i, hi⟩ j = true) ↔ ∃ j, At y.rows i j .nan := by
      constructor
      · rintro ⟨j, hj⟩
        exact ⟨j, (gapsOf_eq f2 f3 ⟨i, hi⟩ j).1 hj⟩
      · rintro ⟨j, hj⟩
        exact ⟨⟨j, at_col_lt f2 hj⟩, (gapsOf_eq f2 f3 ⟨i, hi⟩ ⟨j, at_col_lt f2 hj⟩).2 hj⟩
    by_cases hg : ∃ j, At y.rows i j .nan
    · rw [if_pos (hgap.2 hg)]
      exact ⟨fun _ => .inl hg, fun _ => rfl⟩
    · rw [if_neg (fun h => hg (hgap.1 h))]
      have hc := constant_row nx f2 rfl f3 ⟨i, hi⟩ (hnx i) (fun j hj => hg ⟨j, hj⟩)
      rw [← hc]
      have hnone := Pilot.sqCorr_none (Pilot.xBar (entries x x.rows.length x.ncols) (entries y x.rows.length y.ncols) ⟨i, hi⟩)
        (Pilot.xBar (entries x x.rows.length x.ncols) (entries y x.rows.length y.ncols) ⟨i, hi⟩)
      rw [or_self] at hnone
      rw [← hnone]
      constructor
      · intro hw
        right
        cases hs : Pilot.sqCorr (Pilot.xBar (entries x x.rows.length x.ncols) (entries y x.rows.length y.ncols) ⟨i, hi⟩)
          (Pilot.xBar (entries x x.rows.length x.ncols) (entries y x.rows.length y.ncols) ⟨i, hi⟩) with
        | none => rfl
        | some s => rw [hs] at hw; cases hw
      · rintro (hw | hw)
        · exact absurd hw hg
        · rw [hw]; rfl

example : Complete squareEnv squareLate ∧ (∀ k n q, ((squareLate k).pilotOpts n q).analytic = true) ∧
    (∀ k p n q (x : Matrix (Fin p) (Fin n) ℚ), ((squareLate k).pilotLib (q := q) x).half = id) ∧
    ∃ d, Succeeds id (fun _ => false) id lateNum squareEnv
      (cleanTable [4, 1, 5, 3, 3, 4] [2, 0, 1, 1, 2, 1]) d := by
  obtain ⟨d, -, h⟩ := cleanRun_succeeds (env := squareEnv)
    (t := cleanTable [4, 1, 5, 3, 3, 4] [2, 0, 1, 1, 2, 1]) (by decide +kernel)
  exact ⟨square_complete.complete, fun _ _ _ => rfl, fun _ _ _ _ _ => rfl, d, h⟩

/-- The numbers of instances, of features and of algorithms in an output. -/
def sizes (d : Dict Name (Val Nat (Kept (List (ℚ × ℚ))))) : Option (Nat × Nat × Nat) :=
  match d .x, d .y with
  | some (.table x), some (.table y) => some (x.rows.length, x.ncols, y.ncols)
  | _, _ => none

theorem sizes_some {d : Dict Name (Val Nat (Kept (List (ℚ × ℚ))))} {s : Nat × Nat × Nat} (h : sizes d = some s) :
    ∃ x y, d .x = some (.table x) ∧ d .y = some (.table y) ∧ s = (x.rows.length, x.ncols, y.ncols) := by
  unfold sizes at h
  split at h
  · rename_i x y hx hy
    exact ⟨x, y, hx, hy, (Option.some.inj h).symm⟩
  · cases h

example : Complete wideEnv (allLate false) ∧ (∀ k n q, ((allLate false k).pilotOpts n q).analytic = false) ∧
    ∃ d, Succeeds id (fun _ => false) id lateNum wideEnv wideTable d := by
  obtain ⟨d, h, -⟩ := wide_run
  exact ⟨wide_complete.complete, fun _ _ _ => rfl, d, h⟩

/-- **C219** is false in numerical mode: with three selected features and two algorithms on six instances `r2` has twelve entries
instead of five. -/
theorem C219_refuted : ¬ ∀ (lower : String → String) (numeric : Squeezed Nat → Bool) (str : Nat → Nat)
    (num : Nat → Num) (env : Env Nat (Kept (List (ℚ × ℚ)))) (le : Nat → Late Nat (Kept (List (ℚ × ℚ))))
    (te : Nat → TraceEnv (List (ℚ × ℚ))) (t : Table Nat) (d : Dict Name (Val Nat (Kept (List (ℚ × ℚ))))),
    CompleteTrace env le te →
    (∀ k p n q (x : Matrix (Fin p) (Fin n) ℚ), ((le k).pilotLib (q := q) x).half = id) →
    Succeeds lower numeric str num env t d → Fits id d := by
  intro h
  obtain ⟨d, h0, h1⟩ := cleanRun_succeeds (env := wideEnv) (t := wideTable) (by decide +kernel)
  have h2 : (cleanRun wideEnv wideTable).toOption.bind sizes = some (6, 3, 2) := by decide +kernel
  rw [h0] at h2
  obtain ⟨x0, y0, hx0, hy0, hs⟩ := sizes_some (d := d) h2
  simp only [Prod.mk.injEq] at hs
  obtain ⟨p, n, q, x, y, z, b, c, r, ⟨tx, hx, rfl, rfl, -⟩, ⟨ty, hy, rfl, -⟩, -, -, -, hr, hl, -⟩ :=
    h _ _ _ _ _ _ _ _ _ wide_complete (fun _ _ _ _ _ => rfl) h1
  obtain ⟨x', y', r', hx', -, hr', hl', -⟩ := C219_numerical_partial wide_complete.complete (fun _ _ _ => rfl) h1
  rw [hr, Option.some.injEq, Val.numbers.injEq] at hr'
  subst hr'
  rw [hx, Option.some.injEq, Val.table.injEq] at hx0 hx'
  subst hx0
  subst hx'
  rw [hy, Option.some.injEq, Val.table.injEq] at hy0
  subst hy0
  omega

end Verif.EndToEnd
