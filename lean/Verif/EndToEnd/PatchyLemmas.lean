import Verif.EndToEnd.CompletesLemmas
import Verif.EndToEnd.SpecPatchy
import Verif.Prelim.PropsData
/-! Performances with missing values through Preprocessing, PRELIM and the weights of PYTHIA. -/
set_option autoImplicit false
set_option linter.unusedSectionVars false

namespace Verif.EndToEnd

open Verif (Num)
open Verif.Preprocessing (Mat)

variable {V W : Type}

/-- A column of `n` entries, each a finite number or missing. -/
def TameCol (n : Nat) (c : List Num) : Prop := c.length = n ∧ ∀ v ∈ c, v = .nan ∨ ∃ q, v = .fin q

theorem tame_of_fin {n : Nat} {c : List Num} (h : FinCol n c) : TameCol n c :=
  ⟨(finCol_iff.1 h).1, fun v hv => .inr ((finCol_iff.1 h).2 v hv)⟩

/-- Some entry is a number. -/
def Counted (c : List Num) : Prop := ∃ q : ℚ, Num.fin q ∈ c

theorem noInfinity_of_tame {m : Mat Num} (h : ∀ r ∈ m.rows, TameCol m.ncols r) : noInfinity m = true := by
  unfold noInfinity
  simp only [List.all_eq_true, Bool.and_eq_true, beq_iff_eq]
  intro r hr
  refine ⟨(h r hr).1, fun v hv => ?_⟩
  rcases (h r hr).2 v hv with rfl | ⟨q, rfl⟩ <;> rfl

theorem column_tame {m : List (List Num)} {n : Nat} (h : ∀ r ∈ m, TameCol n r) :
    ∀ c ∈ Prelim.columns n m, TameCol m.length c := by
  intro c hc
  obtain ⟨j, hj, rfl⟩ := List.mem_map.1 hc
  rw [List.mem_range] at hj
  refine ⟨by simp, ?_⟩
  intro v hv
  obtain ⟨r, hr, rfl⟩ := List.mem_map.1 hv
  obtain ⟨h1, h2⟩ := h r hr
  rw [List.getD_eq_getElem?_getD, List.getElem?_eq_getElem (by omega), Option.getD_some]
  exact h2 _ (List.getElem_mem _)

theorem columns_of_rowsOf {n : Nat} {cols : List (List Num)} (h : ∀ c ∈ cols, c.length = n) :
    Prelim.columns cols.length (rowsOf n cols) = cols := by
  refine List.ext_getElem (by simp [Prelim.columns]) fun j h1 h2 => ?_
  have hl := h _ (List.getElem_mem h2)
  refine List.ext_getElem (by simp [Prelim.columns, hl]) fun i h3 h4 => ?_
  simp [Prelim.columns, rowsOf, List.getElem?_eq_getElem h2, List.getElem?_eq_getElem h4]

theorem rowsOf_tame {n : Nat} {cols : List (List Num)} (h : ∀ c ∈ cols, TameCol n c) :
    ∀ r ∈ rowsOf n cols, TameCol cols.length r := by
  intro r hr
  obtain ⟨i, hi, rfl⟩ := List.mem_map.1 hr
  rw [List.mem_range] at hi
  refine ⟨by simp, ?_⟩
  intro v hv
  obtain ⟨c, hc, rfl⟩ := List.mem_map.1 hv
  obtain ⟨h1, h2⟩ := h c hc
  rw [List.getD_eq_getElem?_getD, List.getElem?_eq_getElem (by omega), Option.getD_some]
  exact h2 _ (List.getElem_mem _)

/-! ### PRELIM -/

@[simp] theorem fixZero_nan : Prelim.fixZero .nan = .nan := rfl

theorem yBest_fin {o : Prelim.Opts} {n : Nat} {row : List Num} (h : TameCol n row) (hc : Counted row)
    {out : Prelim.Row} (ho : Prelim.rowStep o row = some out) (ha : o.absPerf = false) :
    ∃ r : ℚ, out.yBest = .fin r ∧ r ≠ 0 := by
  obtain ⟨best0, hb, hbb, h1, -⟩ := Prelim.rowStep_some ho
  rw [h1, ha]
  obtain ⟨q0, hq0⟩ := hc
  have hge := hbb _ hq0
  obtain ⟨v, hv, rfl⟩ := List.mem_map.1 hb
  rcases h.2 v hv with rfl | ⟨q, rfl⟩
  · exfalso
    revert hge
    cases o.maxPerf <;> simp [Prelim.AtLeastAsGood, Prelim.aux, Num.isNan, Num.le]
  · exact fixZero_fin q

/-- The row PRELIM makes of performances of which some may be missing has no infinity. -/
theorem rowStep_tame {o : Prelim.Opts} {n : Nat} {row : List Num} (h : TameCol n row) (hc : Counted row)
    {out : Prelim.Row} (ho : Prelim.rowStep o row = some out) : TameCol n out.y ∧ TameCol n out.yIn := by
  obtain ⟨best0, hb, hbb, h1, -, -, -, -, h2, h3⟩ := Prelim.rowStep_some ho
  obtain ⟨hl, hf⟩ := h
  cases ha : o.absPerf with
  | true =>
    rw [ha] at h2 h3
    exact ⟨by rw [h3]; exact ⟨hl, hf⟩, by rw [h2]; exact ⟨hl, hf⟩⟩
  | false =>
    obtain ⟨b, hb1, hb2⟩ := yBest_fin ⟨hl, hf⟩ hc ho ha
    rw [ha] at h2 h3
    simp only [Bool.false_eq_true, if_false] at h2 h3
    have hfix : ∀ v ∈ row.map Prelim.fixZero, v = .nan ∨ ∃ r : ℚ, v = .fin r ∧ r ≠ 0 := by
      intro v hv
      obtain ⟨w, hw, rfl⟩ := List.mem_map.1 hv
      rcases hf w hw with rfl | ⟨q, rfl⟩
      · exact .inl rfl
      · exact .inr (fixZero_fin q)
    refine ⟨⟨by simp [h3, hl], ?_⟩, ⟨by simp [h2, hl], ?_⟩⟩
    · intro v hv
      rw [h3] at hv
      obtain ⟨w, hw, rfl⟩ := List.mem_map.1 hv
      have h1 : (1 : Num) = .fin 1 := by change Num.fin ((1 : ℕ) : ℚ) = _; simp
      rcases hfix w hw with rfl | ⟨r, rfl, hr⟩
      · left
        rw [hb1]
        cases o.maxPerf <;> rfl
      · right
        cases o.maxPerf
        · exact ⟨1 - b / r, by simp [hb1, Num.fin_div _ _ hr, h1]⟩
        · exact ⟨1 - r / b, by simp [hb1, Num.fin_div _ _ hb2, h1]⟩
    · intro v hv
      rw [h2] at hv
      rcases hfix v hv with h | ⟨r, e, -⟩
      · exact .inl h
      · exact .inr ⟨r, e⟩

/-- Two different numbers other than zero occur. -/
def TwoScores (c : List Num) : Prop :=
  ∃ a b : ℚ, Num.fin a ∈ c ∧ Num.fin b ∈ c ∧ a ≠ b ∧ a ≠ 0 ∧ b ≠ 0

theorem twoScores_varied {c : List Num} (h : TwoScores c) : VariedNonzero c := by
  obtain ⟨a, b, ha, hb, h1, h2, h3⟩ := h
  exact ⟨_, ha, _, hb, by simpa using h1, by simpa using h2, by simpa using h3⟩

theorem yIn_nan {o : Prelim.Opts} {row : List Num} {out : Prelim.Row} (ho : Prelim.rowStep o row = some out) :
    .nan ∈ row ↔ .nan ∈ out.yIn := by
  obtain ⟨_, -, -, -, -, -, -, -, h2, -⟩ := Prelim.rowStep_some ho
  rw [h2]
  cases o.absPerf with
  | true => rfl
  | false =>
    simp only [Bool.false_eq_true, if_false, List.mem_map]
    constructor
    · exact fun h => ⟨.nan, h, rfl⟩
    · rintro ⟨v, hv, he⟩
      cases v with
      | nan => exact hv
      | ninf => cases he
      | pinf => cases he
      | fin q =>
        obtain ⟨r, h, -⟩ := fixZero_fin q
        rw [h] at he
        cases he

/-- A performance that is there is there after PRELIM. -/
theorem rowStep_present {o : Prelim.Opts} {n : Nat} {row : List Num} (h : TameCol n row)
    {out : Prelim.Row} (ho : Prelim.rowStep o row = some out) {j : Nat} {q : ℚ} (hq : row[j]? = some (.fin q)) :
    ∃ p : ℚ, out.y[j]? = some (.fin p) := by
  have hc : Counted row := ⟨q, List.mem_of_getElem? hq⟩
  obtain ⟨best0, hb, hbb, h1, -, -, -, -, -, h3⟩ := Prelim.rowStep_some ho
  cases ha : o.absPerf with
  | true =>
    rw [ha] at h3
    exact ⟨q, by rw [h3]; exact hq⟩
  | false =>
    obtain ⟨b, hb1, hb2⟩ := yBest_fin h hc ho ha
    rw [ha] at h3
    simp only [Bool.false_eq_true, if_false] at h3
    obtain ⟨r, hr, hr0⟩ := fixZero_fin q
    have h1 : (1 : Num) = .fin 1 := by change Num.fin ((1 : ℕ) : ℚ) = _; simp
    rw [h3, List.getElem?_map, List.getElem?_map, hq, Option.map_some, Option.map_some, hr, hb1]
    cases o.maxPerf
    · exact ⟨1 - b / r, by simp [Num.fin_div _ _ hr0, h1]⟩
    · exact ⟨1 - r / b, by simp [Num.fin_div _ _ hb2, h1]⟩

/-- The rows of PRELIM, one for each instance. -/
theorem rows_step {o : Prelim.Opts} {m : List (List Num)} {outs : List Prelim.Row}
    (ho : Prelim.rows o m = some outs) : outs.length = m.length ∧
      ∀ (i : Nat) (hi : i < m.length), ∃ out, outs[i]? = some out ∧ Prelim.rowStep o m[i] = some out := by
  have hro := Prelim.rows_iff.1 ho
  have hlen : outs.length = m.length := by simpa using (congrArg List.length hro).symm
  refine ⟨hlen, fun i hi => ⟨outs[i], List.getElem?_eq_getElem _, ?_⟩⟩
  have := congrArg (fun l => l[i]?) hro
  simpa [List.getElem?_map, List.getElem?_eq_getElem hi,
    List.getElem?_eq_getElem (hlen ▸ hi : i < outs.length)] using this

/-- With normalisation one missing performance wipes out all. -/
theorem outY_wiped {o : Prelim.Opts} {tr : List Num → List Num} {n : Nat} {m : List (List Num)}
    {ys : List (List Num)} (hn : o.norm = true) (h : Prelim.outY o tr n m = some ys)
    (hl : ∀ r ∈ m, r.length = n) (hnan : ∃ r ∈ m, .nan ∈ r) : ∀ c ∈ ys, ∀ v ∈ c, v = .nan := by
  unfold Prelim.outY at h
  cases ho : Prelim.rows o m with
  | none => rw [ho] at h; cases h
  | some outs =>
    rw [ho] at h
    simp only [hn, if_true, Option.map_some, Option.some.injEq] at h
    obtain ⟨r, hrm, hnan⟩ := hnan
    obtain ⟨i, hi, rfl⟩ := List.getElem_of_mem hrm
    obtain ⟨out, h1, hstep⟩ := (rows_step ho).2 i hi
    have hin := (yIn_nan hstep).1 hnan
    obtain ⟨j, hj, hje⟩ := List.getElem_of_mem hin
    have hyl : out.yIn.length = n := by
      obtain ⟨_, -, -, -, -, -, -, -, h2, -⟩ := Prelim.rowStep_some hstep
      rw [h2, ← hl _ hrm]
      cases o.absPerf <;> simp
    have hflat : .nan ∈ (Prelim.columns n (outs.map Prelim.Row.yIn)).flatten := by
      refine List.mem_flatten.2 ⟨_, List.mem_map_of_mem (List.mem_range.2 (by omega : j < n)), ?_⟩
      refine List.mem_map.2 ⟨_, List.mem_map_of_mem (f := Prelim.Row.yIn) (List.mem_of_getElem? h1), ?_⟩
      rw [List.getD_eq_getElem?_getD, List.getElem?_eq_getElem hj, Option.getD_some, hje]
    rw [Prelim.C42_y_wiped_partial _ _ hflat] at h
    intro c hc v hv
    rw [← h] at hc
    obtain ⟨c', -, rfl⟩ := List.mem_map.1 hc
    obtain ⟨_, -, rfl⟩ := List.mem_map.1 hv
    rfl

theorem countP_two {l : List Num} {i j : Nat} {a b : Num} (hij : i < j) (hi : l[i]? = some a)
    (hj : l[j]? = some b) {p : Num → Bool} (ha : p a = true) (hb : p b = true) : 2 ≤ l.countP p := by
  have e : l.countP p = (l.take j).countP p + (l.drop j).countP p := by
    rw [← List.countP_append, List.take_append_drop]
  have h1 : 0 < (l.take j).countP p := List.countP_pos_iff.2
    ⟨a, List.mem_of_getElem? (by rw [List.getElem?_take_of_lt hij]; exact hi), ha⟩
  have h2 : 0 < (l.drop j).countP p := List.countP_pos_iff.2
    ⟨b, List.mem_of_getElem? (i := 0) (by rw [List.getElem?_drop]; exact hj), hb⟩
  omega

theorem outY_tame {o : Prelim.Opts} {tr : List Num → List Num} (htr : Transforms tr) {n : Nat}
    {m : List (List Num)} (hm : ∀ r ∈ m, TameCol n r) (hr : ∀ r ∈ m, Counted r) (hn : 0 < n)
    (h2 : 2 ≤ m.length) (hv : ∀ c ∈ Prelim.columns n m, TwoScores c) :
    ∃ outs ys, Prelim.rows o m = some outs ∧ Prelim.outY o tr n m = some ys ∧ ys.length = n ∧
      ∀ c ∈ ys, TameCol m.length c ∧ c.countP (fun v => !v.isNan) ≠ 1 := by
  by_cases hfin : ∀ r ∈ m, FinCol n r
  · obtain ⟨outs, ys, h1, h3, h4, h5⟩ := outY_fin (o := o) htr hfin hn fun c hc => twoScores_varied (hv c hc)
    refine ⟨outs, ys, h1, h3, h4, fun c hc => ⟨tame_of_fin (h5 c hc), ?_⟩⟩
    obtain ⟨l, rfl, hl⟩ := h5 c hc
    have : (l.map Num.fin).countP (fun v => !v.isNan) = l.length := by
      rw [List.countP_map, List.countP_eq_length.2]
      intro q _
      rfl
    omega
  · obtain ⟨outs, ho⟩ := Prelim.rows_ok o (ys := m) fun r hr' e => by
      obtain ⟨q, hq⟩ := hr r hr'
      rw [e] at hq
      cases hq
    obtain ⟨hlen, hstep⟩ := rows_step ho
    have hrow : ∀ out ∈ outs, ∃ r ∈ m, Prelim.rowStep o r = some out := by
      intro out hm'
      obtain ⟨i, hi, rfl⟩ := List.getElem_of_mem hm'
      obtain ⟨out, h3, h4⟩ := hstep i (hlen ▸ hi)
      rw [List.getElem?_eq_getElem hi, Option.some.injEq] at h3
      exact ⟨_, List.getElem_mem _, h3 ▸ h4⟩
    have hy : ∀ r ∈ outs.map Prelim.Row.y, TameCol n r := by
      intro r hr'
      obtain ⟨out, h1, rfl⟩ := List.mem_map.1 hr'
      obtain ⟨r, h2, h3⟩ := hrow out h1
      exact (rowStep_tame (hm r h2) (hr r h2) h3).1
    have hyIn : ∀ r ∈ outs.map Prelim.Row.yIn, TameCol n r := by
      intro r hr'
      obtain ⟨out, h1, rfl⟩ := List.mem_map.1 hr'
      obtain ⟨r, h2, h3⟩ := hrow out h1
      exact (rowStep_tame (hm r h2) (hr r h2) h3).2
    cases hnorm : o.norm with
    | false =>
      refine ⟨outs, Prelim.columns n (outs.map Prelim.Row.y), ho, by
        unfold Prelim.outY; rw [ho]; simp [hnorm], by simp [Prelim.columns], ?_⟩
      have ht := column_tame hy
      simp only [List.length_map, hlen] at ht
      intro c hc
      refine ⟨ht c hc, ?_⟩
      obtain ⟨j, hj, rfl⟩ := List.mem_map.1 hc
      obtain ⟨a, b, ha, hb, hab, -⟩ := hv _ (List.mem_map_of_mem (f := fun j =>
        m.map fun r => r.getD j .nan) hj)
      rw [List.mem_range] at hj
      have key : ∀ a : ℚ, Num.fin a ∈ (m.map fun r => r.getD j .nan) → ∃ (i : Nat) (p : ℚ),
          ((outs.map Prelim.Row.y).map fun r => r.getD j .nan)[i]? = some (.fin p) ∧
          (m.map fun r => r.getD j .nan)[i]? = some (.fin a) := by
        intro a ha
        obtain ⟨i, hi⟩ := List.mem_iff_getElem?.1 ha
        have him : i < m.length := by simpa using (List.getElem?_eq_some_iff.1 hi).1
        obtain ⟨out, h3, h4⟩ := hstep i him
        have hrl := (hm _ (List.getElem_mem him)).1
        have hq : (m[i])[j]? = some (.fin a) := by
          rw [List.getElem?_map, List.getElem?_eq_getElem him, Option.map_some, Option.some.injEq,
            List.getD_eq_getElem?_getD, List.getElem?_eq_getElem (by omega), Option.getD_some] at hi
          rw [List.getElem?_eq_getElem (by omega), hi]
        obtain ⟨p, hp⟩ := rowStep_present (hm _ (List.getElem_mem him)) h4 hq
        refine ⟨i, p, ?_, hi⟩
        rw [List.getElem?_map, List.getElem?_map, h3, Option.map_some, Option.map_some,
          List.getD_eq_getElem?_getD, hp, Option.getD_some]
      obtain ⟨i1, p1, e1, f1⟩ := key a ha
      obtain ⟨i2, p2, e2, f2⟩ := key b hb
      have hne : i1 ≠ i2 := by
        rintro rfl
        rw [f1] at f2
        exact hab (Num.fin.inj (Option.some.inj f2))
      have : 2 ≤ ((outs.map Prelim.Row.y).map fun r => r.getD j .nan).countP fun v => !v.isNan := by
        rcases Nat.lt_or_gt_of_ne hne with h | h
        · exact countP_two h e1 e2 rfl rfl
        · exact countP_two h e2 e1 rfl rfl
      omega
    | true =>
      have hcf := column_tame hyIn
      simp only [List.length_map, hlen] at hcf
      push Not at hfin
      obtain ⟨r, hrm, hrf⟩ := hfin
      have hnan : .nan ∈ r := by
        by_contra hno
        apply hrf
        rw [finCol_iff]
        refine ⟨(hm r hrm).1, fun v hv => ?_⟩
        rcases (hm r hrm).2 v hv with rfl | h
        · exact absurd hv hno
        · exact h
      have hout : Prelim.outY o tr n m = some (Prelim.normY tr (Prelim.columns n (outs.map Prelim.Row.yIn))) := by
        unfold Prelim.outY
        rw [ho]
        simp [hnorm]
      have hw := outY_wiped hnorm hout (fun r hr => (hm r hr).1) ⟨r, hrm, hnan⟩
      have hflat : .nan ∈ (Prelim.columns n (outs.map Prelim.Row.yIn)).flatten := by
        by_contra hno
        obtain ⟨i, hi, rfl⟩ := List.getElem_of_mem hrm
        obtain ⟨out, h1, hst⟩ := hstep i hi
        have hin := (yIn_nan hst).1 hnan
        obtain ⟨j, hj, hje⟩ := List.getElem_of_mem hin
        have hyl := (hyIn _ (List.mem_map_of_mem (f := Prelim.Row.yIn) (List.mem_of_getElem? h1))).1
        refine hno (List.mem_flatten.2 ⟨_, List.mem_map_of_mem (List.mem_range.2 (by omega : j < n)), ?_⟩)
        refine List.mem_map.2 ⟨_, List.mem_map_of_mem (f := Prelim.Row.yIn) (List.mem_of_getElem? h1), ?_⟩
        rw [List.getD_eq_getElem?_getD, List.getElem?_eq_getElem hj, Option.getD_some, hje]
      refine ⟨outs, _, ho, hout, ?_, ?_⟩
      · rw [Prelim.C42_y_wiped_partial _ _ hflat]
        simp [Prelim.columns]
      · intro c hc
        have hcw := hw c hc
        rw [Prelim.C42_y_wiped_partial _ _ hflat] at hc
        obtain ⟨c', hc', rfl⟩ := List.mem_map.1 hc
        refine ⟨⟨by rw [List.length_map]; exact (hcf c' hc').1, fun v hv => .inl (hcw v hv)⟩, ?_⟩
        rw [List.countP_eq_zero.2]
        · omega
        · intro v hv
          rw [hcw v hv]
          decide

/-! ### Preprocessing -/

theorem preprocessing_patchy {x y : Mat Num} {s : Option (List V)} {feat algo : List String} {inst : List V}
    (hx : ∀ r ∈ x.rows, FinCol x.ncols r) (hy : ∀ r ∈ y.rows, Counted r) (hr : x.rows ≠ [])
    (hxc : 0 < x.ncols) :
    Preprocessing.run Num.isNan ⟨x, y, s, feat, inst⟩ algo none none =
      .ok ⟨⟨x, y, s, feat, inst⟩, algo⟩ := by
  have notall : ∀ {r : List Num}, Counted r → r.all Num.isNan = false := by
    rintro r ⟨q, hq⟩
    rw [List.all_eq_false]
    exact ⟨_, hq, by simp [Num.isNan]⟩
  have counted : ∀ {n : Nat} {r : List Num}, 0 < n → FinCol n r → Counted r := by
    rintro n r hn ⟨l, rfl, hl⟩
    cases l with
    | nil => simp at hl; omega
    | cons a l => exact ⟨a, by simp⟩
  have h1 : (Preprocessing.emptyRows Num.isNan x y).any id = false := by
    rw [List.any_eq_false]
    intro b hb
    obtain ⟨i, hi, rfl⟩ := List.getElem_of_mem hb
    simp only [Preprocessing.emptyRows, List.getElem_zipWith, notall (counted hxc (hx _ (List.getElem_mem _))),
      notall (hy _ (List.getElem_mem _))]
    decide
  have h2 : (Preprocessing.sparseCols Num.isNan x).any id = false := by
    rw [List.any_eq_false]
    intro b hb
    obtain ⟨j, hj, rfl⟩ := List.mem_map.1 hb
    have : Preprocessing.missing Num.isNan x j = 0 := by
      unfold Preprocessing.missing
      rw [List.countP_eq_zero]
      intro v hv
      obtain ⟨r, hr1, hr2⟩ := List.mem_filterMap.1 hv
      obtain ⟨q, rfl⟩ := (finCol_iff.1 (hx r hr1)).2 v (List.mem_of_getElem? hr2)
      simp [Num.isNan]
    rw [this]
    have : 0 < x.rows.length := List.length_pos_iff.2 hr
    simp [hr]
  unfold Preprocessing.run
  simp only [Preprocessing.select, Preprocessing.removeMissing, Preprocessing.removeRows, h1,
    Bool.false_eq_true, if_false, Preprocessing.removeCols, h2, List.length_eq_zero_iff, hr]

/-! ### The weights of PYTHIA -/

theorem nanmean_tame {n : Nat} {l : List Num} (h : TameCol n l) (hc : Counted l) :
    ∃ q, Pythia.nanmean l = .fin q := by
  obtain ⟨m, hm, -⟩ : FinCol (l.filter fun v => !v.isNan).length (l.filter fun v => !v.isNan) := by
    rw [finCol_iff]
    refine ⟨rfl, fun v hv => ?_⟩
    obtain ⟨h1, h2⟩ := List.mem_filter.1 hv
    rcases h.2 v h1 with rfl | h
    · cases h2
    · exact h
  have hne : m ≠ [] := by
    rintro rfl
    obtain ⟨q, hq⟩ := hc
    have : Num.fin q ∈ l.filter fun v => !v.isNan := List.mem_filter.2 ⟨hq, rfl⟩
    rw [hm] at this
    cases this
  refine ⟨_, Eq.trans ?_ (Pythia.nanmean_fin hne)⟩
  apply Pythia.nanmean_congr
  change l.filter (fun v => !v.isNan) = (m.map Num.fin).filter (fun v => !v.isNan)
  rw [← hm, List.filter_filter]
  simp

theorem weights_tame {n : Nat} {l : List Num} (h : TameCol n l) {a b : ℚ} (ha : Num.fin a ∈ l)
    (hb : Num.fin b ∈ l) (hab : a ≠ b) : ∃ w, Pythia.weights l = .ok w := by
  obtain ⟨m, hm⟩ := nanmean_tame h ⟨a, ha⟩
  obtain ⟨c, hc, hcm⟩ : ∃ c, Num.fin c ∈ l ∧ c ≠ m := by
    by_cases e : a = m
    · exact ⟨b, hb, fun e' => hab (e.trans e'.symm)⟩
    · exact ⟨a, ha, e⟩
  have hd : Pythia.absNum (.fin c - .fin m) = .fin |c - m| := by
    rw [show (Num.fin c - .fin m) = .fin (c - m) by simp]
    exact Pythia.absNum_fin _
  have h0 : (Num.fin |c - m|).eq 0 = false := by
    have : |c - m| ≠ 0 := by rw [abs_ne_zero, sub_ne_zero]; exact hcm
    rw [show (0 : Num) = .fin 0 by change Num.fin ((0 : ℕ) : ℚ) = _; simp]
    simpa [Num.eq] using this
  have hin : Num.fin |c - m| ∈ l.map fun v => Pythia.absNum (v - .fin m) :=
    List.mem_map.2 ⟨_, hc, hd⟩
  unfold Pythia.weights
  simp only [hm]
  cases h1 : (l.map fun v => Pythia.absNum (v - .fin m)).filter fun v => !v.eq 0 with
  | nil =>
    have : Num.fin |c - m| ∈ (l.map fun v => Pythia.absNum (v - .fin m)).filter fun v => !v.eq 0 :=
      List.mem_filter.2 ⟨hin, by simp [h0]⟩
    rw [h1] at this
    cases this
  | cons x k =>
    dsimp only
    split
    · rename_i h2
      have : Num.fin |c - m| ∈ ((l.map fun v => Pythia.absNum (v - .fin m)).map fun v =>
          if v.eq 0 then Pythia.minOf x k else v).filter fun v => !v.isNan :=
        List.mem_filter.2 ⟨List.mem_map.2 ⟨_, hin, by simp [h0]⟩, rfl⟩
      rw [h2] at this
      cases this
    · exact ⟨_, rfl⟩

/-- The weights on performances of which some may be missing. -/
theorem weights_patchy {o : Prelim.Opts} {n k : Nat} {m : List (List Num)} (hm : ∀ r ∈ m, TameCol n r)
    (hn : 0 < n) (hv : ∀ c ∈ Prelim.columns n m, TwoScores c) (u : Bool) :
    ∃ w, Pythia.weightMatrix u k n (Prelim.yRawOut o (fun _ => m) 0 0) = .ok w := by
  unfold Pythia.weightMatrix
  cases u with
  | false => exact ⟨_, rfl⟩
  | true =>
    have e : Prelim.yRawOut o (fun _ => m) 0 0 =
        m.map fun r => if o.absPerf then r else r.map Prelim.fixZero := by
      unfold Prelim.yRawOut Prelim.afterPrelim
      cases o.absPerf <;> simp
    rw [e]
    obtain ⟨a, b, ha, hb, hab, ha0, hb0⟩ := hv _ (List.mem_map_of_mem (f := fun j =>
      m.map fun r => r.getD j .nan) (List.mem_range.2 hn))
    have key : ∀ v : Num, v ≠ .fin 0 → v ∈ (m.map fun r => r.getD 0 .nan) →
        v ∈ (m.map fun r => if o.absPerf then r else r.map Prelim.fixZero).flatten := by
      intro v hv0 hvm
      obtain ⟨r, hr1, rfl⟩ := List.mem_map.1 hvm
      have hl := (hm r hr1).1
      have hmem : r.getD 0 .nan ∈ r := by
        rw [List.getD_eq_getElem?_getD, List.getElem?_eq_getElem (by omega : 0 < r.length)]
        exact List.getElem_mem _
      refine List.mem_flatten.2 ⟨_, List.mem_map_of_mem hr1, ?_⟩
      cases o.absPerf with
      | true => exact hmem
      | false => exact List.mem_map.2 ⟨_, hmem, Prelim.fixZero_ne hv0⟩
    obtain ⟨w, hw⟩ := weights_tame (l := (m.map fun r => if o.absPerf then r else
        r.map Prelim.fixZero).flatten) ⟨rfl, by
      intro v hv
      obtain ⟨r, hr, hvr⟩ := List.mem_flatten.1 hv
      obtain ⟨r', hr', rfl⟩ := List.mem_map.1 hr
      have hf := (hm r' hr').2
      revert hvr
      cases o.absPerf with
      | true => exact fun hvr => hf v hvr
      | false =>
        intro hvr
        obtain ⟨v', hv', rfl⟩ := List.mem_map.1 hvr
        rcases hf v' hv' with rfl | ⟨q, rfl⟩
        · exact .inl rfl
        · obtain ⟨q', h', -⟩ := fixZero_fin q
          exact .inr ⟨q', h'⟩⟩ (key _ (by simpa using ha0) ha) (key _ (by simpa using hb0) hb) hab
    simp only [if_true]
    rw [hw]
    exact ⟨_, rfl⟩

end Verif.EndToEnd
