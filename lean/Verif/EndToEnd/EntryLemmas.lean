import Verif.EndToEnd.LateLemmas
import Verif.Pilot.Props
/-!
# Lemmas about entries of finite arrays and of array files
-/
set_option autoImplicit false
set_option linter.unusedSectionVars false

namespace Verif.EndToEnd

open Verif (Num)
open Verif.Pipeline (Stg Name outputs defaultStages runner modelOf)
open Verif.Metadata (Table Squeezed fromDataFrame)
open Verif.Runner (Dict)
open Verif.Export (Export saveCsv Fits Holds)

variable {V W α : Type} {lower : String → String} {numeric : Squeezed V → Bool} {str : V → V}
  {num : V → Num} {env : Env V W} {le : Nat → Late V W} {t : Table V} {d : Dict Name (Val V W)}
  {tx : Text V α} {files : List (String × Export.File α)}

/-! ### Entries of finite arrays -/

/-- Entry `j` of row `i` as a rational. -/
def ent (m : List (List Num)) (i j : Nat) : ℚ := value ((m.getD i []).getD j .nan)

theorem ent_tableOf {p n : Nat} (z : Matrix (Fin p) (Fin n) ℚ) (i : Fin p) (j : Fin n) :
    ent (tableOf z).rows i j = z i j := by
  simp [ent, tableOf, value]

theorem entries_eq (m : Preprocessing.Mat Num) (p n : Nat) (i : Fin p) (j : Fin n) :
    entries m p n i j = ent m.rows i j := rfl

theorem ent_pointsOf (l : List (Fin 2 → ℚ)) (i : Nat) (hi : i < l.length) :
    point (ent (pointsOf l).rows) i = l[i] := by
  funext k
  simp only [point, ent, pointsOf, List.getD_eq_getElem?_getD, List.getElem?_map,
    List.getElem?_eq_getElem hi, Option.map_some, Option.getD_some]
  match k with
  | 0 => rfl
  | 1 => rfl

theorem points_pointsOf (l : List (Fin 2 → ℚ)) :
    points (ent (pointsOf l).rows) l.length = Cloister.pointSet l := by
  ext p
  constructor
  · rintro ⟨i, hi, rfl⟩
    rw [ent_pointsOf l i hi]
    exact List.getElem_mem hi
  · intro hp
    obtain ⟨i, hi, rfl⟩ := List.getElem_of_mem hp
    exact ⟨i, hi, (ent_pointsOf l i hi).symm⟩

theorem isFinite_mem {m : Preprocessing.Mat Num} (h : isFinite m = true) :
    (∀ r ∈ m.rows, r.length = m.ncols) ∧ ∀ r ∈ m.rows, ∀ v ∈ r, ∃ q, v = .fin q := by
  unfold isFinite at h
  rw [List.all_eq_true] at h
  refine ⟨fun r hr => ?_, fun r hr v hv => ?_⟩
  · have := h r hr
    simp only [Bool.and_eq_true, beq_iff_eq] at this
    exact this.1
  · have := h r hr
    simp only [Bool.and_eq_true, List.all_eq_true] at this
    have := this.2 v hv
    cases v <;> simp_all

theorem noInfinity_mem {m : Preprocessing.Mat Num} (h : noInfinity m = true) :
    (∀ r ∈ m.rows, r.length = m.ncols) ∧ ∀ r ∈ m.rows, ∀ v ∈ r, v = .nan ∨ ∃ q, v = .fin q := by
  unfold noInfinity at h
  rw [List.all_eq_true] at h
  refine ⟨fun r hr => ?_, fun r hr v hv => ?_⟩
  · have := h r hr
    simp only [Bool.and_eq_true, beq_iff_eq] at this
    exact this.1
  · have := h r hr
    simp only [Bool.and_eq_true, List.all_eq_true] at this
    have := this.2 v hv
    cases v <;> simp_all

/-- A file of numbers that are all finite. -/
theorem numbers_of_holds {file : String} {headings names : List String} {m : List (List Num)}
    (h : Holds files file headings names fun i j => (m.map (·.map tx.num))[i]?.bind fun r => r[j]?)
    (hm : ∀ r ∈ m, ∀ v ∈ r, ∃ q, v = .fin q) : Numbers tx files file headings names (ent m) := by
  obtain ⟨tb, h1, h2, h3, h4⟩ := h
  refine ⟨tb, h1, h2, h3, fun i j hi hj => ?_⟩
  obtain ⟨v, h5, h6⟩ := h4 i j hi hj
  refine ⟨v, h5, ?_⟩
  rw [← h6]
  dsimp only at h6 ⊢
  rw [List.getElem?_map]
  cases hr : m[i]? with
  | none => simp [List.getElem?_map, hr] at h6
  | some r =>
    simp only [List.getElem?_map, hr, Option.map_some, Option.bind_some] at h6 ⊢
    cases hv : r[j]? with
    | none => simp [hv] at h6
    | some w =>
      obtain ⟨q, rfl⟩ := hm r (List.mem_of_getElem? hr) w (List.mem_of_getElem? hv)
      simp [ent, List.getD_eq_getElem?_getD, hr, hv, value]

theorem Numbers.congr {file : String} {headings names : List String} {x y : Nat → Nat → ℚ}
    (h : Numbers tx files file headings names x)
    (he : ∀ i < names.length, ∀ j < headings.length, x i j = y i j) :
    Numbers tx files file headings names y := by
  obtain ⟨tb, h1, h2, h3, h4⟩ := h
  refine ⟨tb, h1, h2, h3, fun i j hi hj => ?_⟩
  obtain ⟨v, h5, h6⟩ := h4 i j hi hj
  refine ⟨v, h5, ?_⟩
  simpa [he i hi j hj] using h6

theorem tableOf_fin {p n : Nat} (z : Matrix (Fin p) (Fin n) ℚ) :
    ∀ r ∈ (tableOf z).rows, ∀ v ∈ r, ∃ q, v = .fin q := by
  intro r hr v hv
  simp only [tableOf, List.mem_ofFn] at hr
  obtain ⟨i, rfl⟩ := hr
  simp only [List.mem_ofFn] at hv
  obtain ⟨j, rfl⟩ := hv
  exact ⟨_, rfl⟩

theorem pointsOf_fin (l : List (Fin 2 → ℚ)) : ∀ r ∈ (pointsOf l).rows, ∀ v ∈ r, ∃ q, v = .fin q := by
  intro r hr v hv
  simp only [pointsOf, List.mem_map] at hr
  obtain ⟨p, -, rfl⟩ := hr
  simp only [List.mem_cons, List.not_mem_nil, or_false] at hv
  rcases hv with rfl | rfl <;> exact ⟨_, rfl⟩

theorem pilot_projects {p n q : Nat} {lib : Pilot.Lib ℚ p n q} {x : Matrix (Fin p) (Fin n) ℚ}
    {y : Matrix (Fin p) (Fin q) ℚ} {labels : List String} {opts : Pilot.Options ℚ n q}
    {o : Pilot.Out ℚ p n q} (h : Pilot.pilot lib x y labels opts = .ok o) :
    Pilot.Projects x o.a o.z := by
  cases hm : opts.analytic with
  | true => exact (Pilot.C76_analytic hm h).1
  | false => exact (Pilot.C76_numerical hm h).1

end Verif.EndToEnd
