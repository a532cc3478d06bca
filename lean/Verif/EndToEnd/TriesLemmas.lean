import Verif.EndToEnd.SpecTries
import Verif.EndToEnd.RecomputeLemmas
import Verif.EndToEnd.LateLemmas
/-! What PILOT leaves in the Model. -/
set_option autoImplicit false
set_option linter.unusedSectionVars false

namespace Verif.Pilot

variable {K : Type} [Field K] [LinearOrder K] {p n q : Nat}

theorem numerical_alpha {lib : Lib K p n q} {x : Matrix (Fin p) (Fin n) K}
    {y : Matrix (Fin p) (Fin q) K} {labels : List String} {opts : Options K n q} {out : Out K p n q}
    (hm : opts.analytic = false) (h : pilot lib x y labels opts = .ok out) :
    out.alpha = some (((opts.x0.getD (lib.starts opts.nTries)).take opts.nTries).map fun g i =>
      lib.half (lib.half ((lib.bfgs (errorFunction (xBar x y)) g).1 i))) := by
  unfold pilot at h
  simp only [hm, Bool.false_eq_true, if_false] at h
  split at h
  · cases h
  split at h
  · cases h
  rename_i s hs
  split at h
  · cases h
  split at h
  · cases h
  injection h with h
  subst h
  unfold numericalSolve at hs
  split at hs
  · cases hs
  split at hs
  · cases hs
  dsimp only at hs
  split at hs
  · cases hs
  · injection hs with hs
    subst hs
    simp [List.map_map, Function.comp_def]

end Verif.Pilot

namespace Verif.EndToEnd

open Verif (Num)
open Verif.Pipeline (Stg Name inputs outputs)
open Verif.Metadata (Table Squeezed)
open Verif.Preprocessing (Mat)
open Verif.Runner (Dict)

variable {V W : Type} {lower : String → String} {numeric : Squeezed V → Bool} {str : V → V}
  {num : V → Num} {env : Env V W} {le : Nat → Late V W} {t : Table V} {d : Dict Name (Val V W)}

/-- Everything PILOT returns is in the output. -/
theorem pilot_all (hc : Complete env le) (h : Succeeds lower numeric str num env t d) :
    ∃ k x y feat, ∃ o : Pilot.Out ℚ x.rows.length x.ncols y.ncols, d .x = some (.table x) ∧
      d .y = some (.table y) ∧ isFinite x = true ∧ noInfinity y = true ∧ y.rows.length = x.rows.length ∧
      Pilot.pilotGaps ((le k).pilotLib (entries x x.rows.length x.ncols))
          (entries x x.rows.length x.ncols) (entries y x.rows.length y.ncols) (gapsOf y x.rows.length y.ncols) feat
          ((le k).pilotOpts x.ncols y.ncols) = .ok o ∧
      ∀ n v, (n, v) ∈ pilotOut (le k) (gapsOf y x.rows.length y.ncols) o → d n = some v := by
  obtain ⟨k, vs, out, h1, h2, h3⟩ := succeeds_rest hc.tuples h .pilot (by decide)
  rw [hc.stages] at h1
  obtain ⟨x, y, feat, opts, o, rfl, f1, f2, f3, hp, rfl⟩ := runPilot_ok h1
  simp only [inputs, List.map_cons, List.map_nil, List.cons.injEq] at h2
  exact ⟨k, x, y, feat, o, h2.1, h2.2.1, f1, f2, f3, hp, fun n v => h3 n v⟩

theorem stores_tableOf {p q : Nat} {n : Name} {m : Matrix (Fin p) (Fin q) ℚ}
    (h : d n = some (.table (tableOf m))) : Stores d n m :=
  ⟨_, h, rfl, by simp [tableOf], fun i j => at_tableOf m i j⟩

theorem stores_entries {n : Name} {m : Mat Num} {p : Nat} (h : d n = some (.table m)) (hf : isFinite m = true)
    (hp : m.rows.length = p) : Stores d n (entries m p m.ncols) := by
  obtain ⟨h1, h2⟩ := isFinite_mem hf
  refine ⟨m, h, rfl, hp, fun i j => ?_⟩
  have hi : i.val < m.rows.length := by rw [hp]; exact i.isLt
  have hmem : m.rows[i.val] ∈ m.rows := List.getElem_mem _
  have hj : j.val < (m.rows[i.val]).length := by rw [h1 _ hmem]; exact j.isLt
  refine ⟨m.rows[i.val], List.getElem?_eq_getElem hi, ?_⟩
  obtain ⟨v, hv⟩ := h2 _ hmem _ (List.getElem_mem hj)
  have e1 : m.rows.getD i.val [] = m.rows[i.val] := by
    rw [List.getD_eq_getElem?_getD, List.getElem?_eq_getElem hi]; rfl
  have e2 : (m.rows[i.val]).getD j.val .nan = .fin v := by
    rw [List.getD_eq_getElem?_getD, List.getElem?_eq_getElem hj, hv]; rfl
  rw [List.getElem?_eq_getElem hj, hv]
  unfold entries
  rw [e1, e2]
  rfl

theorem isFinite_of {m : Mat Num} (h : noInfinity m = true) (hn : ∀ r ∈ m.rows, ∀ v ∈ r, v ≠ .nan) :
    isFinite m = true := by
  obtain ⟨h1, h2⟩ := noInfinity_mem h
  unfold isFinite
  simp only [List.all_eq_true, Bool.and_eq_true, beq_iff_eq]
  refine fun r hr => ⟨h1 r hr, fun v hv => ?_⟩
  rcases h2 r hr v hv with rfl | ⟨q, rfl⟩
  · exact absurd rfl (hn r hr _ hv)
  · rfl

theorem gapsOf_eq {m : Mat Num} {p : Nat} (h : noInfinity m = true) (hp : m.rows.length = p) (i : Fin p)
    (j : Fin m.ncols) : gapsOf m p m.ncols i j = true ↔ At m.rows i j .nan := by
  obtain ⟨h1, h2⟩ := noInfinity_mem h
  have hi : i.val < m.rows.length := by rw [hp]; exact i.isLt
  have hmem : m.rows[i.val] ∈ m.rows := List.getElem_mem _
  have hj : j.val < (m.rows[i.val]).length := by rw [h1 _ hmem]; exact j.isLt
  have e1 : m.rows.getD i.val [] = m.rows[i.val] := by
    rw [List.getD_eq_getElem?_getD, List.getElem?_eq_getElem hi]; rfl
  have e2 : (m.rows[i.val]).getD j.val .nan = m.rows[i.val][j.val] := by
    rw [List.getD_eq_getElem?_getD, List.getElem?_eq_getElem hj]; rfl
  unfold gapsOf At
  rw [e1, e2]
  simp only [List.getElem?_eq_getElem hi, Option.some.injEq, exists_eq_left', List.getElem?_eq_getElem hj]
  rcases h2 _ hmem _ (List.getElem_mem hj) with e | ⟨q, e⟩ <;> simp [e, Num.isNan]

theorem noGap {m : Mat Num} {p : Nat} (h : noInfinity m = true) (hp : m.rows.length = p)
    (hn : ∀ r ∈ m.rows, ∀ v ∈ r, v ≠ .nan) : Pilot.anyGap (gapsOf m p m.ncols) = false := by
  unfold Pilot.anyGap
  rw [decide_eq_false_iff_not]
  rintro ⟨i, j, hg⟩
  obtain ⟨r, hr, hv⟩ := (gapsOf_eq h hp i j).1 hg
  exact hn r (List.mem_of_getElem? hr) _ (List.mem_of_getElem? hv) rfl

theorem noNan_of_noGap {m : Mat Num} {p : Nat} (h : noInfinity m = true) (hp : m.rows.length = p)
    (hg : Pilot.anyGap (gapsOf m p m.ncols) = false) : ∀ r ∈ m.rows, ∀ v ∈ r, v ≠ .nan := by
  rintro r hr v hv rfl
  unfold Pilot.anyGap at hg
  rw [decide_eq_false_iff_not] at hg
  obtain ⟨i, hi, rfl⟩ := List.mem_iff_getElem.1 hr
  obtain ⟨j, hj, e⟩ := List.mem_iff_getElem.1 hv
  have hj' : j < m.ncols := by rw [← (noInfinity_mem h).1 _ hr]; exact hj
  exact hg ⟨⟨i, by omega⟩, ⟨j, hj'⟩, (gapsOf_eq h hp _ _).2
    ⟨_, List.getElem?_eq_getElem hi, by rw [List.getElem?_eq_getElem hj, e]⟩⟩

theorem at_columnsOf {m : Nat} {l : List (Fin m → ℚ)} {i : Nat} {c : Fin m → ℚ} (hc : l[i]? = some c) {r : Nat}
    (hr : r < m) : At (columnsOf l).rows r i (.fin (c ⟨r, hr⟩)) :=
  ⟨l.map fun c => .fin (c ⟨r, hr⟩), by simp [columnsOf, hr], by simp [hc]⟩

theorem bestTry {l : List (Option ℚ)} {i : Nat} (hi : i < l.length) (h : Pilot.argmax l = some i) :
    BestTry (l.map orNan) i := by
  refine ⟨by simpa using hi, fun hn => ?_⟩
  obtain ⟨v, hv, hmax⟩ := Pilot.argmax_spec h (by
    rintro o ho rfl
    exact hn .nan (List.mem_map.2 ⟨none, ho, rfl⟩) rfl)
  refine ⟨v, by simp [hv, orNan], fun w hw => ?_⟩
  obtain ⟨o, ho, e⟩ := List.mem_map.1 hw
  cases o with
  | none => cases e
  | some u => cases e; exact hmax _ ho

end Verif.EndToEnd
