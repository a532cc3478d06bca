import Verif.Trace.Summary
import Verif.Trace.PropsWhich
/-!
# The summary table of TRACE (C156)
-/
set_option autoImplicit false
set_option linter.unusedSectionVars false

namespace Verif.Trace

variable {G P : Type}

/-- The number in the column `name` of a row. -/
def cellOf (row : List Num) (name : String) : Option Num := (dataLabels.zip row).lookup name

/-- A ratio, or the numerator if the denominator is 0. -/
def ratioOr (a b : ℚ) : ℚ := if b = 0 then a else a / b

/-- The row shows the measures of the footprints `g` (good) and `b` (best), under their names. -/
structure Shows (row : List Num) (space g b : Footprint G ℚ) : Prop where
  area_good : cellOf row "Area_Good" = some (.fin g.area)
  area_good_normalised : cellOf row "Area_Good_Normalised" = some (.fin (ratioOr g.area space.area))
  density_good : cellOf row "Density_Good" = some (.fin g.density)
  density_good_normalised :
    cellOf row "Density_Good_Normalised" = some (.fin (ratioOr g.density space.density))
  purity_good : cellOf row "Purity_Good" = some (.fin g.purity)
  area_best : cellOf row "Area_Best" = some (.fin b.area)
  area_best_normalised : cellOf row "Area_Best_Normalised" = some (.fin (ratioOr b.area space.area))
  density_best : cellOf row "Density_Best" = some (.fin b.density)
  density_best_normalised :
    cellOf row "Density_Best_Normalised" = some (.fin (ratioOr b.density space.density))
  purity_best : cellOf row "Purity_Best" = some (.fin b.purity)

theorem summaryOf_eq (f space : Footprint G ℚ) : summaryOf f space =
    [.fin f.area, .fin (ratioOr f.area space.area), .fin f.density,
      .fin (ratioOr f.density space.density), .fin f.purity] :=
  C63_partial _ _ _ _ _

theorem shows (space g b : Footprint G ℚ) : Shows (summaryOf g space ++ summaryOf b space) space g b := by
  rw [summaryOf_eq, summaryOf_eq]
  constructor <;> rfl

theorem summaryRows_ok (out : Out G ℚ) : ∀ (labels : List String) (i : Nat),
    i + labels.length ≤ out.good.length → out.good.length = out.best.length →
    ∃ rows, summaryRows out i labels = .ok rows ∧ rows.length = labels.length ∧
      ∀ k, k < labels.length → ∃ g b row, out.good[i + k]? = some g ∧ out.best[i + k]? = some b ∧
        rows[k]? = some row ∧ row.length = dataLabels.length ∧ Shows row out.space g b
  | [], i, _, _ => ⟨[], rfl, rfl, by simp⟩
  | l :: labels, i, h, hl => by
    simp only [List.length_cons] at h
    obtain ⟨rows, h1, h2, h3⟩ := summaryRows_ok out labels (i + 1) (by omega) hl
    have hg : i < out.good.length := by omega
    have hb : i < out.best.length := by omega
    refine ⟨(summaryOf out.good[i] out.space ++ summaryOf out.best[i] out.space) :: rows, ?_, by
      simp [h2], ?_⟩
    · unfold summaryRows
      rw [List.getElem?_eq_getElem hg, List.getElem?_eq_getElem hb]
      simp only [h1]
    · intro k hk
      cases k with
      | zero =>
        refine ⟨_, _, _, List.getElem?_eq_getElem hg, List.getElem?_eq_getElem hb, rfl, ?_,
          shows _ _ _⟩
        rw [summaryOf_eq, summaryOf_eq]
        rfl
      | succ k =>
        obtain ⟨g, b, row, a1, a2, a3⟩ := h3 k (by simpa using hk)
        exact ⟨g, b, row, by rw [← a1]; congr 1; omega, by rw [← a2]; congr 1; omega, a3⟩

theorem summaryRows_error (out : Out G ℚ) : ∀ (labels : List String) (i : Nat), i ≤ out.good.length →
    out.good.length < i + labels.length → summaryRows out i labels = .error .indexError
  | [], i, h0, h => by simp at h; omega
  | l :: labels, i, h0, h => by
    unfold summaryRows
    simp only [List.length_cons] at h
    by_cases hi : i < out.good.length
    · rw [summaryRows_error out labels (i + 1) (by omega) (by omega)]
      cases out.good[i]? <;> cases out.best[i]? <;> rfl
    · rw [List.getElem?_eq_none (by omega)]

/-- **C156** When the analysis completes, with the labels of the algorithms, the summary table has one
row per algorithm, in order, with its label and the measures of its own footprints under their names. -/
theorem C156_rows (geo : Geo G P ℚ) (laws : Laws geo) (purity : ℚ) (z : List P)
    (yBin : List (List Bool)) (p : List Nat) (beta : List Bool) (labels : List String)
    (order : List Nat) (ho : order.Perm (List.range labels.length)) (hy : yBin.length = z.length)
    (hp : p.length = z.length) (hb : beta.length = z.length)
    (quals : List (Footprint G ℚ) × List (Footprint G ℚ))
    (hq : computeQualities (E := Err) missing missing
      (fun i => .ok (processAlgorithm geo purity z yBin p i)) labels.length order = .ok quals)
    (out : Out G ℚ) (h : trace geo purity z p beta labels.length quals = .ok out) :
    ∃ t, summaryTable labels out = .ok t ∧ t.length = labels.length ∧
      ∀ (i : Nat) (l : String), labels[i]? = some l → ∃ row g b, t[i]? = some (l, row) ∧ row.length = dataLabels.length ∧
        out.good[i]? = some g ∧ out.best[i]? = some b ∧ Shows row out.space g b := by
  obtain ⟨-, -, l1, l2, -⟩ :=
    C155_about geo laws purity z yBin p beta _ order ho hy hp hb quals hq out h
  obtain ⟨rows, h1, h2, h3⟩ := summaryRows_ok out labels 0 (by omega) (by omega)
  refine ⟨labels.zip rows, by unfold summaryTable; rw [h1], by simp [h2], ?_⟩
  intro i l hi
  obtain ⟨hlt, e⟩ := List.getElem?_eq_some_iff.1 hi
  obtain ⟨g, b, row, a1, a2, a3, a4, a5⟩ := h3 i hlt
  refine ⟨row, g, b, ?_, a4, by simpa using a1, by simpa using a2, a5⟩
  rw [List.getElem?_zip_eq_some]
  exact ⟨hi, a3⟩

/-- **C156** There is a table exactly when there are no more labels than footprints; else the table
raises IndexError. -/
theorem C156_labels (out : Out G ℚ) (hl : out.good.length = out.best.length) (labels : List String) :
    (labels.length ≤ out.good.length → ∃ t, summaryTable labels out = .ok t ∧
      t.map Prod.fst = labels) ∧
    (out.good.length < labels.length → summaryTable labels out = .error .indexError) := by
  constructor
  · intro h
    obtain ⟨rows, h1, h2, -⟩ := summaryRows_ok out labels 0 (by omega) hl
    refine ⟨labels.zip rows, by unfold summaryTable; rw [h1], ?_⟩
    rw [List.map_fst_zip (by omega)]
  · intro h
    unfold summaryTable
    rw [summaryRows_error out labels 0 (by omega) (by omega)]

theorem enumerates_exists (n : Nat) (sel : Nat → Prop) : ∃ ks, Enumerates ks n sel := by
  classical
  exact ⟨_, enumerates_filter n sel (fun k => decide (sel k)) (by simp)⟩

/-- **C156** An algorithm that is good on every instance has the footprint of the whole space: in its row
the normalised area and density are 1 and the purity is 1, if the space has an area and contains an
instance. -/
theorem C156_everywhere (geo : Geo G P ℚ) (laws : Laws geo) (purity : ℚ) (z : List P)
    (yBin : List (List Bool)) (p : List Nat) (beta : List Bool) (labels : List String)
    (order : List Nat) (ho : order.Perm (List.range labels.length)) (hy : yBin.length = z.length)
    (hp : p.length = z.length) (hb : beta.length = z.length)
    (quals : List (Footprint G ℚ) × List (Footprint G ℚ))
    (hq : computeQualities (E := Err) missing missing
      (fun i => .ok (processAlgorithm geo purity z yBin p i)) labels.length order = .ok quals)
    (out : Out G ℚ) (h : trace geo purity z p beta labels.length quals = .ok out) (i : Nat) (l : String)
    (hi : labels[i]? = some l) (hall : ∀ (k : Nat) (row : List Bool), yBin[k]? = some row →
      row[i]? = some true)
    (harea : out.space.area ≠ 0) (helem : out.space.elements ≠ 0) :
    out.good[i]? = some out.space ∧ ∃ t row, summaryTable labels out = .ok t ∧ t[i]? = some (l, row) ∧
      cellOf row "Area_Good_Normalised" = some 1 ∧ cellOf row "Density_Good_Normalised" = some 1 ∧
      cellOf row "Purity_Good" = some 1 := by
  obtain ⟨hlt, -⟩ := List.getElem?_eq_some_iff.1 hi
  have hg : out.good[i]? = some out.space := by
    obtain ⟨q, h1, -, h2⟩ := C94_completes geo laws purity z yBin p beta labels.length order ho
    rw [hq] at h1
    cases h1
    obtain ⟨e1, -, e3, -⟩ := h2 out h
    have e : goodMask yBin i = List.replicate z.length true := by
      apply List.ext_getElem (by simp [goodMask, hy])
      intro k h1 h2
      have hk : k < yBin.length := by simpa [goodMask] using h1
      have := hall k _ (List.getElem?_eq_getElem hk)
      simp [goodMask, List.getD_eq_getElem?_getD, this]
    rw [e1, e3]
    simp [hlt, e]
  refine ⟨hg, ?_⟩
  obtain ⟨t, ht, -, hrow⟩ := C156_rows geo laws purity z yBin p beta labels order ho hy hp hb quals hq
    out h
  obtain ⟨row, g, b, h1, -, h2, h3, h4⟩ := hrow i l hi
  rw [hg] at h2
  cases h2
  obtain ⟨hs, -⟩ := C155_about geo laws purity z yBin p beta _ order ho hy hp hb quals hq out h
  have hcons : Consistent out.space := by
    obtain ⟨q, h1, -, h2⟩ := C94_completes geo laws purity z yBin p beta labels.length order ho
    rw [hq] at h1
    cases h1
    rw [(h2 out h).1]
    exact C59_build geo laws purity z _
  have hgood : out.space.good = out.space.elements := by
    cases hpol : out.space.polygon with
    | none =>
      exfalso
      obtain ⟨q, h1, -, h2⟩ := C94_completes geo laws purity z yBin p beta labels.length order ho
      rw [hq] at h1
      cases h1
      have e := (h2 out h).1
      rcases build_madeFor geo purity z (List.replicate z.length true) with hm | ⟨q, hm⟩
      · rw [e, hm] at helem; exact helem rfl
      · rw [e, hm, fromPolygon_polygon] at hpol; cases hpol
    | some g =>
      obtain ⟨ks, hks⟩ := enumerates_exists z.length (LiesIn geo z g)
      rw [hs.elements g hpol ks hks]
      exact hs.good g hpol ks ⟨hks.increasing, fun k => by rw [hks.exact]; simp⟩
  have he : (out.space.elements : ℚ) ≠ 0 := by exact_mod_cast helem
  have hdens : out.space.density ≠ 0 := by
    intro h0
    have := hcons.density_eq
    rw [h0, zero_mul] at this
    exact he this.symm
  refine ⟨t, row, ht, h1, ?_, ?_, ?_⟩
  · rw [h4.area_good_normalised, ratioOr, if_neg harea, div_self harea]; rfl
  · rw [h4.density_good_normalised, ratioOr, if_neg hdens, div_self hdens]; rfl
  · rw [h4.purity_good]
    have := hcons.purity_eq
    rw [hgood] at this
    have : out.space.purity = 1 := by
      have h5 : out.space.purity * (out.space.elements : ℚ) = 1 * out.space.elements := by
        rw [this, one_mul]
      exact mul_right_cancel₀ he h5
    rw [this]; rfl

-- Seven instances, two algorithms, the first of which is good everywhere.
example : Laws (cells fun _ _ _ _ => true) ∧ [1, 0].Perm (List.range ["a", "b"].length) ∧
    (let geo := cells fun _ _ _ _ => true
     let z := [0, 1, 2, 3, 4, 5, 6]
     let yBin := [[true, false], [true, false], [true, false], [true, true], [true, true], [true, true],
       [true, true]]
     let p := [0, 0, 0, 0, 1, 1, 1]
     match computeQualities (E := Err) missing missing
       (fun i => .ok (processAlgorithm geo (1/2) z yBin p i)) 2 [1, 0] with
     | .error _ => none
     | .ok quals =>
       match trace geo (1/2) z p [true, true, false, false, false, false, true] 2 quals with
       | .error _ => none
       | .ok out =>
         match summaryTable ["a", "b"] out with
         | .error _ => none
         | .ok t => some (t.map fun r => (r.1, r.2.take 5))) =
      some [("a", [7, 1, 1, 1, 1]), ("b", [4, .fin (4 / 7), 1, 1, 1])] :=
  ⟨cells_laws _, by decide, by decide +kernel⟩

end Verif.Trace
