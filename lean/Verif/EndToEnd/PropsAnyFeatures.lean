import Verif.EndToEnd.AnyFeaturesLemmas
import Verif.EndToEnd.PropsGaps
import Verif.EndToEnd.PropsRecompute
/-!
# C218: missing feature values and the build
-/
set_option autoImplicit false
set_option linter.unusedSectionVars false

namespace Verif.EndToEnd

open Verif (Num)
open Verif.Pipeline (Stg Name defaultStages)
open Verif.Metadata (Table Squeezed Begins)
open Verif.Runner (Dict)

variable {V W : Type} {lower : String → String} {numeric : Squeezed V → Bool} {str : V → V}
  {num : V → Num} {env : Env V W} {le : Nat → Late V W} {bl : Nat → Beyond V W} {t : Table V} {labels : List V}
  {d : Dict Name (Val V W)}

/-- **C218, the processed features.**  Whatever PILOT and CLOISTER do with missing or infinite features: if the
build completes, all features it projects are numbers. -/
theorem C218_finite (hc : AnyFeatures env le bl) (h : Succeeds lower numeric str num env t d) :
    ∃ x, d .x = some (.table x) ∧ AllNumbers x := by
  obtain ⟨x, hx, hf⟩ := features_finite hc h
  refine ⟨x, hx, ?_⟩
  rintro i j v ⟨r, hr, hv⟩
  exact (finCol_iff.1 (isFinite_iff.1 hf r (List.mem_of_getElem? hr))).2 v (List.mem_of_getElem? hv)

/-- **C218, the raw features.**  No selected feature has a missing raw value in the Model. -/
theorem C218_raw (hc : AnyFeatures env le bl) (h : Succeeds lower numeric str num env t d) :
    ∃ raw sel, d .x_raw = some (.table raw) ∧ d .selvars = some (.counts sel) ∧
      ∀ k i v, i ∈ sel → At raw.rows k i v → v ≠ .nan := by
  obtain ⟨x, a, sel, r⟩ := routed hc.tuples h
  refine ⟨_, _, r.x_raw, r.selvars, ?_⟩
  rintro k i v hi hv rfl
  obtain ⟨j, hj⟩ := List.mem_iff_getElem?.1 hi
  obtain ⟨x', hx, hf⟩ := C218_finite hc h
  rw [r.proc] at hx
  simp only [Option.some.injEq, Val.table.injEq] at hx
  subst hx
  obtain ⟨q, hq⟩ := hf k j _ (r.gap hj hv)
  cases hq

/-- **C218, few features.**  If the Model has at most three features, none of them has a missing raw value. -/
theorem C218_few (hc : AnyFeatures env le bl) (h : Succeeds lower numeric str num env t d) :
    ∃ raw, d .x_raw = some (.table raw) ∧
      (raw.ncols ≤ 3 → ∀ k, ∀ i < raw.ncols, ∀ v, At raw.rows k i v → v ≠ .nan) := by
  obtain ⟨x, a, sel, r⟩ := routed hc.tuples h
  obtain ⟨raw, sel', h1, h2, h3⟩ := C218_raw hc h
  rw [r.x_raw] at h1
  rw [r.selvars] at h2
  simp only [Option.some.injEq, Val.table.injEq, Val.counts.injEq] at h1 h2
  subst h1 h2
  refine ⟨_, r.x_raw, fun hf k i hi v hv => h3 k i v ?_ hv⟩
  rw [r.few hf]
  exact List.mem_range.2 hi

/-- **C218, the table.**  A build completes only if every selected feature has a value in every row of the table
that the Model is about; with bounding or normalisation, even in every row that Preprocessing keeps, those that
the options for subsets leave out included. -/
theorem C218_cells (hc : AnyFeatures env le bl) (ho : Readable lower env t labels)
    (h : Succeeds lower numeric str num env t d) {rows : List Nat} (hk : KeptRows lower num env t rows)
    {algos feats : List String} (ha : d .algo_labels = some (.names algos))
    (hf : d .feat_labels = some (.names feats)) :
    ∃ sub, sub.Sublist rows ∧ AboutRows lower num env t d algos feats rows sub ∧
      (∀ a ∈ feats, ∀ i ∈ sub, ∀ v, Cell t a i v → num v ≠ .nan) ∧
      (env.prelim.bound = true ∨ env.prelim.norm = true →
        ∀ a ∈ feats, ∀ i ∈ rows, ∀ v, Cell t a i v → num v ≠ .nan) := by
  obtain ⟨sub, hsub, hab⟩ := C162_subset_partial ho h hk ha hf
  obtain ⟨x, hx, hn⟩ := C218_finite hc h
  obtain ⟨x', hx', hl, hnc, hcol⟩ := hab.features
  rw [hx] at hx'
  simp only [Option.some.injEq, Val.table.injEq] at hx'
  subst hx'
  -- the column of a label
  have column : ∀ a ∈ feats, ∃ (j : Nat) (col : List Num), feats[j]? = some a ∧ col.length = rows.length ∧
      ∀ (q i : Nat) (v : V), rows[q]? = some i → Cell t a i v → col[q]? = some (num v) := by
    intro a hfa
    obtain ⟨j, hj⟩ := List.mem_iff_getElem?.1 hfa
    by_cases hex : ∃ c ∈ t.cols, c.1 = a
    · obtain ⟨c, hc1, rfl⟩ := hex
      refine ⟨j, rows.map fun i => ((c.2[i]?).map num).getD .nan, hj, by simp, ?_⟩
      rintro q i v hq ⟨c', hc2, hn', hv⟩
      have : c' = c := same_column ho.distinct hc2 hc1 hn'
      subst this
      rw [List.getElem?_map, hq, Option.map_some, hv]
      rfl
    · exact ⟨j, List.replicate rows.length .nan, hj, by simp, fun q i v _ ⟨c, hc1, hn', _⟩ =>
        absurd ⟨c, hc1, hn'⟩ hex⟩
  refine ⟨sub, hsub, hab, ?_, ?_⟩
  · intro a hfa i hi v hv e
    obtain ⟨j, col, hj, hcl, hcc⟩ := column a hfa
    obtain ⟨k, hk'⟩ := List.mem_iff_getElem?.1 hi
    obtain ⟨q, hq⟩ := List.mem_iff_getElem?.1 (hsub.subset hi)
    have := hcol j a col hj hcl hcc k q i hk' hq
    rw [feature_gap env (by rw [hcc q i v hq hv, e])] at this
    obtain ⟨q', hq'⟩ := hn k j _ this
    cases hq'
  · intro hbn a hfa i hi v hv e
    obtain ⟨j, col, hj, hcl, hcc⟩ := column a hfa
    obtain ⟨q, hq⟩ := List.mem_iff_getElem?.1 hi
    have hwipe : Num.nan ∈ col := List.mem_of_getElem? (e ▸ hcc q i v hq hv)
    obtain ⟨k', x', a', r', l', c1, -, c3, -⟩ := cloister_values (finite_complete hc) (finite_succeeds hc h)
    rw [hx] at c1
    simp only [Option.some.injEq, Val.table.injEq] at c1
    subst c1
    have hpos : 0 < x.rows.length := by
      have hlen : x.rows.length = (r' :: l').length := by rw [← c3]; exact List.length_ofFn.symm
      rw [List.length_cons] at hlen
      omega
    obtain ⟨i0, hi0⟩ : ∃ i0, sub[0]? = some i0 := ⟨sub[0]'(by omega), List.getElem?_eq_getElem _⟩
    obtain ⟨q0, hq0⟩ := List.mem_iff_getElem?.1 (hsub.subset (List.mem_of_getElem? hi0))
    have := hcol j a col hj hcl hcc 0 q0 i0 hi0 hq0
    rw [feature_wiped env hwipe hbn] at this
    obtain ⟨q', hq'⟩ := hn 0 j _ this
    cases hq'

/-- **C218, nothing else changes.**  A completed build leaves behind what the stages leave behind that work on
finite features only, so that everything proved about those holds here too. -/
theorem C218_same (hc : AnyFeatures env le bl) (h : Succeeds lower numeric str num env t d) :
    Complete (env.finiteFeatures le) le ∧ Succeeds lower numeric str num (env.finiteFeatures le) t d :=
  ⟨finite_complete hc, finite_succeeds hc h⟩

/-! ### A table with a missing feature value -/

/-- PILOT makes a matrix and CLOISTER a boundary even if values are missing. -/
def exBeyond (_ : Nat) : Beyond Nat (Kept (List (ℚ × ℚ))) where
  pilot _ _ := .ok (fun _ _ => 1, fun _ => .other .nothing)
  cloister _ _ := .ok (.other .nothing, .other .nothing)

/-- The environment with four features, with stages for any features. -/
def openEnv : Env Nat (Kept (List (ℚ × ℚ))) :=
  { wideEnv with rest := fun k s vs => fullLate (allLate false k) (exBeyond k) s vs }

theorem open_any : AnyFeatures openEnv (allLate false) exBeyond where
  stages _ _ _ := rfl
  trace k vs out h := (wide_complete.complete).trace k vs out h

/-- Six instances with four features; the value 9 is missing. -/
def openTable (a c : Nat) : Table Nat :=
  ⟨6, [("instances", [10, 11, 12, 13, 14, 15]), ("feature_a", [1, a, 3, 1, 2, 5]),
    ("feature_b", [11, 15, 12, 14, 11, 13]), ("feature_c", [21, c, 22, 24, 23, 23]),
    ("feature_d", [33, 32, 31, 31, 33, 32]), ("algo_p", [4, 1, 5, 3, 3, 4]), ("algo_q", [2, 0, 1, 1, 2, 1])]⟩

/-- A missing value in a feature that SIFTED drops: the build completes. -/
theorem open_run : ∃ d, Succeeds id (fun _ => false) id holeNum openEnv (openTable 2 9) d ∧
    d .feat_labels = some (.names ["feature_a", "feature_b", "feature_d"]) ∧
    d .algo_labels = some (.names ["algo_p", "algo_q"]) := by
  obtain ⟨d, h1, h2⟩ := gapRun_succeeds (env := openEnv) (t := openTable 2 9) (by decide +kernel)
  have h : (gapRun openEnv (openTable 2 9)).toOption.bind (fun d => match d .feat_labels, d .algo_labels with
    | some (.names l), some (.names a) => some (l, a)
    | _, _ => none) = some (["feature_a", "feature_b", "feature_d"], ["algo_p", "algo_q"]) := by decide +kernel
  rw [h1] at h
  simp only [Except.toOption, Option.bind_some] at h
  split at h
  · rename_i l a e1 e2
    simp only [Option.some.injEq, Prod.mk.injEq] at h
    exact ⟨d, h2, by rw [e1, h.1], by rw [e2, h.2]⟩
  · cases h

/-- A missing value in a feature that is selected: PILOT and CLOISTER return, PYTHIA raises. -/
example : raisedIn (gapRun openEnv (openTable 9 25)) = 2 := by decide +kernel

/-- With the value in place the build completes. -/
example : raisedIn (gapRun openEnv (openTable 2 25)) = 0 := by decide +kernel

example : ∃ d x, d .x = some (.table x) ∧ AllNumbers x ∧
    Succeeds id (fun _ => false) id holeNum (openEnv.finiteFeatures (allLate false)) (openTable 2 9) d := by
  obtain ⟨d, h, -⟩ := open_run
  obtain ⟨x, hx, hn⟩ := C218_finite open_any h
  exact ⟨d, x, hx, hn, (C218_same open_any h).2⟩

theorem open_kept : KeptRows id holeNum openEnv (openTable 2 9) [0, 1, 2, 3, 4, 5] where
  increasing := by decide
  exact i := by
    constructor
    · intro hi
      have : i < 6 := by
        simp only [List.mem_cons, List.not_mem_nil, or_false] at hi
        omega
      refine ⟨this, ⟨"feature_a", ([1, 2, 3, 1, 2, 5] : List Nat)[i]'this, ?_, ?_, ?_⟩,
        "algo_p", ([4, 1, 5, 3, 3, 4] : List Nat)[i]'this, ?_, ?_, ?_⟩
      · exact ⟨⟨_, by simp [openTable]; right; left; rfl, rfl⟩, (begins_iff _ _).2 (by decide), nofun⟩
      · exact ⟨("feature_a", [1, 2, 3, 1, 2, 5]), by simp [openTable], rfl, List.getElem?_eq_getElem _⟩
      · interval_cases i <;> simp [holeNum]
      · exact ⟨⟨("algo_p", [4, 1, 5, 3, 3, 4]), by simp [openTable], rfl⟩, (begins_iff _ _).2 (by decide),
          nofun⟩
      · exact ⟨("algo_p", [4, 1, 5, 3, 3, 4]), by simp [openTable], rfl, List.getElem?_eq_getElem _⟩
      · interval_cases i <;> simp [holeNum]
    · rintro ⟨hi, -⟩
      have : i < 6 := hi
      simp only [List.mem_cons, List.not_mem_nil, or_false]
      omega

theorem open_readable : Readable id openEnv (openTable 2 9) [10, 11, 12, 13, 14, 15] where
  rect := by
    intro c hc
    simp only [openTable, List.mem_cons, List.not_mem_nil, or_false] at hc
    rcases hc with rfl | rfl | rfl | rfl | rfl | rfl | rfl <;> rfl
  distinct := by decide
  several := by decide
  labels := ⟨"instances", by decide⟩
  sources := by decide
  tuples := open_any.tuples

/-- The selected features of that build have values in all six rows. -/
example : ∃ d sub, AboutRows id holeNum openEnv (openTable 2 9) d ["algo_p", "algo_q"]
    ["feature_a", "feature_b", "feature_d"] [0, 1, 2, 3, 4, 5] sub ∧
    ∀ a ∈ ["feature_a", "feature_b", "feature_d"], ∀ i ∈ sub, ∀ v, Cell (openTable 2 9) a i v →
      holeNum v ≠ .nan := by
  obtain ⟨d, h, hf, ha⟩ := open_run
  obtain ⟨sub, -, h1, h2, -⟩ := C218_cells open_any open_readable h open_kept ha hf
  exact ⟨d, sub, h1, h2⟩

end Verif.EndToEnd
