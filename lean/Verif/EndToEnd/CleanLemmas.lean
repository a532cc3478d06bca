import Verif.EndToEnd.SpecCompletes
import Verif.EndToEnd.Lemmas2
import Verif.Prelim.PropsMeasure
import Verif.Prelim.PropsBound
/-! Clean data through Preprocessing, PRELIM and SIFTED. -/
set_option autoImplicit false
set_option linter.unusedSectionVars false

namespace Verif.EndToEnd

open Verif (Num)
open Verif.Preprocessing (Mat)

variable {V W : Type}

/-- A column of `n` finite numbers. -/
def FinCol (n : Nat) (c : List Num) : Prop := ∃ l : List ℚ, c = l.map .fin ∧ l.length = n

theorem finCol_iff {n : Nat} {c : List Num} :
    FinCol n c ↔ c.length = n ∧ ∀ v ∈ c, ∃ q, v = .fin q := by
  constructor
  · rintro ⟨l, rfl, rfl⟩
    exact ⟨by simp, by simp⟩
  · rintro ⟨rfl, h⟩
    induction c with
    | nil => exact ⟨[], rfl, rfl⟩
    | cons v c ih =>
      obtain ⟨q, rfl⟩ := h v (by simp)
      obtain ⟨l, h1, h2⟩ := ih fun w hw => h w (by simp [hw])
      exact ⟨q :: l, by rw [List.map_cons, ← h1], by simp [h2]⟩

theorem isFinite_iff {m : Mat Num} : isFinite m = true ↔ ∀ r ∈ m.rows, FinCol m.ncols r := by
  unfold isFinite
  simp only [List.all_eq_true, Bool.and_eq_true, beq_iff_eq, finCol_iff]
  refine forall₂_congr fun r _ => and_congr_right fun _ => forall₂_congr fun v _ => ?_
  cases v <;> simp

theorem noInfinity_of_fin {m : Mat Num} (h : ∀ r ∈ m.rows, FinCol m.ncols r) : noInfinity m = true := by
  unfold noInfinity
  simp only [List.all_eq_true, Bool.and_eq_true, beq_iff_eq]
  intro r hr
  obtain ⟨h1, h2⟩ := finCol_iff.1 (h r hr)
  refine ⟨h1, fun v hv => ?_⟩
  obtain ⟨q, rfl⟩ := h2 v hv
  rfl

theorem column_fin {m : List (List Num)} {n : Nat} (h : ∀ r ∈ m, FinCol n r) :
    ∀ c ∈ Prelim.columns n m, FinCol m.length c := by
  intro c hc
  obtain ⟨j, hj, rfl⟩ := List.mem_map.1 hc
  rw [List.mem_range] at hj
  rw [finCol_iff]
  refine ⟨by simp, ?_⟩
  intro v hv
  obtain ⟨r, hr, rfl⟩ := List.mem_map.1 hv
  obtain ⟨h1, h2⟩ := finCol_iff.1 (h r hr)
  rw [List.getD_eq_getElem?_getD, List.getElem?_eq_getElem (by omega), Option.getD_some]
  exact h2 _ (List.getElem_mem _)

theorem rowsOf_fin {n : Nat} {cols : List (List Num)} (h : ∀ c ∈ cols, FinCol n c) :
    ∀ r ∈ rowsOf n cols, FinCol cols.length r := by
  intro r hr
  obtain ⟨i, hi, rfl⟩ := List.mem_map.1 hr
  rw [List.mem_range] at hi
  rw [finCol_iff]
  refine ⟨by simp, ?_⟩
  intro v hv
  obtain ⟨c, hc, rfl⟩ := List.mem_map.1 hv
  obtain ⟨h1, h2⟩ := finCol_iff.1 (h c hc)
  rw [List.getD_eq_getElem?_getD, List.getElem?_eq_getElem (by omega), Option.getD_some]
  exact h2 _ (List.getElem_mem _)

@[simp] theorem rowsOf_length (n : Nat) (cols : List (List Num)) : (rowsOf n cols).length = n := by
  simp [rowsOf]

/-! ### PRELIM -/

theorem transform_varied {tr : List Num → List Num} (htr : Transforms tr) {l : List ℚ} (h : Varied l) :
    FinCol l.length (Prelim.transform tr (l.map .fin)) := by
  have hf : (l.map Num.fin).filter (fun v => !v.isNan) = l.map .fin := by
    rw [List.filter_eq_self]
    intro v hv
    obtain ⟨q, -, rfl⟩ := List.mem_map.1 hv
    rfl
  obtain ⟨l', h1, h2⟩ := htr l h
  refine ⟨l', ?_, h2⟩
  unfold Prelim.transform
  rw [hf, h1, Prelim.refill_fin (by simp [h2])]

theorem varied_shift {l : List ℚ} (h : Varied l) (a b : ℚ) : Varied (l.map fun v => v - a + b) := by
  obtain ⟨x, hx, y, hy, hxy⟩ := h
  refine ⟨_, List.mem_map_of_mem hx, _, List.mem_map_of_mem hy, fun e => hxy ?_⟩
  linarith

theorem normX_fin {tr : List Num → List Num} (htr : Transforms tr) {l : List ℚ} (h : Varied l) :
    FinCol l.length (Prelim.normX tr (l.map .fin)) := by
  cases l with
  | nil => obtain ⟨a, ha, -⟩ := h; cases ha
  | cons a l =>
    obtain ⟨m, hm, -⟩ := Prelim.npMin_fin a l
    have := transform_varied htr (varied_shift h m 1)
    rw [List.length_map] at this
    convert this using 1
    rw [List.map_cons, Prelim.normX, hm, ← List.map_cons, List.map_map, List.map_map]
    refine congrArg _ (List.map_congr_left fun v _ => ?_)
    have h1 : (1 : Num) = .fin 1 := by change Num.fin ((1 : ℕ) : ℚ) = _; simp
    simp [h1]

theorem normY_fin {tr : List Num → List Num} (htr : Transforms tr) {n : Nat} {cols : List (List ℚ)}
    (hl : ∀ c ∈ cols, c.length = n) (h : ∀ c ∈ cols, Varied c) :
    (Prelim.normY tr (cols.map (·.map .fin))).length = cols.length ∧
      ∀ c ∈ Prelim.normY tr (cols.map (·.map .fin)), FinCol n c := by
  have hf : (cols.map fun c => c.map Num.fin).flatten = cols.flatten.map Num.fin := by
    rw [List.map_flatten]
  unfold Prelim.normY
  rw [hf]
  cases hc : cols.flatten with
  | nil =>
    refine ⟨by simp, ?_⟩
    intro c hm
    obtain ⟨c', hc', rfl⟩ := List.mem_map.1 hm
    exact ⟨c', rfl, hl c' hc'⟩
  | cons a l =>
    obtain ⟨m, hm, -⟩ := Prelim.npMin_fin a l
    rw [List.map_cons]
    simp only [hm]
    refine ⟨by simp, ?_⟩
    intro c hc1
    obtain ⟨c1, hc2, rfl⟩ := List.mem_map.1 hc1
    obtain ⟨c2, hc3, rfl⟩ := List.mem_map.1 hc2
    have := transform_varied htr (varied_shift (h c2 hc3) m Num.eps)
    rw [List.length_map, hl c2 hc3] at this
    convert this using 2
    rw [List.map_map, List.map_map]
    exact List.map_congr_left fun v _ => by simp

theorem fins_of {cols : List (List Num)} {n : Nat} (h : ∀ c ∈ cols, FinCol n c) :
    ∃ l : List (List ℚ), cols = l.map (·.map .fin) ∧ ∀ c ∈ l, c.length = n := by
  induction cols with
  | nil => exact ⟨[], rfl, by simp⟩
  | cons c cols ih =>
    obtain ⟨q, rfl, hq⟩ := h c (by simp)
    obtain ⟨l, rfl, hl⟩ := ih fun c hc => h c (by simp [hc])
    exact ⟨q :: l, rfl, by simpa [hq] using hl⟩

theorem not_constant {l : List Num} (h : ¬ Prelim.Constant l) : Varied l := by
  by_contra hv
  refine h ?_
  cases l with
  | nil => exact ⟨.nan, by simp⟩
  | cons a l =>
    refine ⟨a, fun v hm => ?_⟩
    by_contra hne
    exact hv ⟨v, hm, a, by simp, hne⟩

/-- No number fills more than half of the column. -/
def Spread (c : List Num) : Prop := ∀ v, 2 * c.count v ≤ c.length

theorem spread_varied {l : List ℚ} (h : Spread (l.map .fin)) (hl : l ≠ []) : Varied l := by
  by_contra hv
  cases l with
  | nil => exact hl rfl
  | cons a l =>
    have : (a :: l).map Num.fin = List.replicate (l.length + 1) (.fin a) := by
      rw [List.eq_replicate_iff]
      refine ⟨by simp, fun v hm => ?_⟩
      obtain ⟨q, hq, rfl⟩ := List.mem_map.1 hm
      by_contra hne
      exact hv ⟨q, hq, a, by simp, fun e => hne (by rw [e])⟩
    have h2 := h (.fin a)
    rw [this] at h2
    simp at h2

theorem outX_fin {o : Prelim.Opts} {junk : Num × Num} {tr : List Num → List Num} (htr : Transforms tr)
    {n : Nat} (hn : 3 ≤ n) {cols : List (List Num)} (hc : ∀ c ∈ cols, FinCol n c)
    (hs : ∀ c ∈ cols, Spread c) :
    (Prelim.outX o junk tr cols).length = cols.length ∧ ∀ c ∈ Prelim.outX o junk tr cols, FinCol n c := by
  have step : ∀ c ∈ cols, FinCol n (if o.norm then Prelim.normX tr (if o.bound then
      Prelim.boundCol junk c else c) else if o.bound then Prelim.boundCol junk c else c) := by
    intro c hm
    have hsp := hs c hm
    obtain ⟨l, rfl, hl⟩ := hc c hm
    have hne : l ≠ [] := by rintro rfl; simp at hl; omega
    obtain ⟨l', h1, h2, h3⟩ : ∃ l' : List ℚ, (if o.bound then Prelim.boundCol junk (l.map .fin) else
        l.map Num.fin) = l'.map .fin ∧ l'.length = n ∧ Varied l' := by
      cases o.bound with
      | false => exact ⟨l, rfl, hl, spread_varied hsp hne⟩
      | true =>
        obtain ⟨lo, hi, -, -, e, -⟩ := Prelim.C41_clamp junk l hne
        refine ⟨l.map fun v => max lo (min hi v), by simp [e], by simp [hl], ?_⟩
        have hv := not_constant (Prelim.C147_partial junk l (by omega) fun a => by
          have := hsp (.fin a)
          rwa [List.count_map_of_injective _ _ (fun a b h => Num.fin.inj h), List.length_map] at this)
        rw [e] at hv
        obtain ⟨a, ha, b, hb, hab⟩ := hv
        obtain ⟨x, hx, rfl⟩ := List.mem_map.1 ha
        obtain ⟨y, hy, rfl⟩ := List.mem_map.1 hb
        exact ⟨_, List.mem_map_of_mem hx, _, List.mem_map_of_mem hy, fun h => hab (by rw [h])⟩
    rw [h1]
    cases o.norm with
    | false => exact ⟨l', rfl, h2⟩
    | true => exact h2 ▸ normX_fin htr h3
  have e : Prelim.outX o junk tr cols = cols.map fun c => if o.norm then Prelim.normX tr (if o.bound then
      Prelim.boundCol junk c else c) else if o.bound then Prelim.boundCol junk c else c := by
    unfold Prelim.outX
    cases o.bound <;> cases o.norm <;> simp
  rw [e]
  refine ⟨by simp, fun c hm => ?_⟩
  obtain ⟨c', hc', rfl⟩ := List.mem_map.1 hm
  exact step c' hc'

theorem fixZero_fin (q : ℚ) : ∃ r : ℚ, Prelim.fixZero (.fin q) = .fin r ∧ r ≠ 0 := by
  by_cases h : q = 0
  · refine ⟨Num.eps, ?_, Num.eps_pos.ne'⟩
    subst h
    rfl
  · exact ⟨q, Prelim.fixZero_ne (by intro e; exact h (Num.fin.inj e)), h⟩

/-- The row PRELIM makes of finite performances consists of finite numbers. -/
theorem rowStep_fin {o : Prelim.Opts} {n : Nat} {row : List Num} (h : FinCol n row) {out : Prelim.Row}
    (ho : Prelim.rowStep o row = some out) : FinCol n out.y ∧ FinCol n out.yIn := by
  obtain ⟨best0, hb, -, h1, -, -, -, -, h2, h3⟩ := Prelim.rowStep_some ho
  obtain ⟨hl, hf⟩ := finCol_iff.1 h
  have hbest : o.absPerf = false → ∃ r : ℚ, out.yBest = .fin r ∧ r ≠ 0 := by
    intro ha
    obtain ⟨v, hv, rfl⟩ := List.mem_map.1 hb
    obtain ⟨q, rfl⟩ := hf v hv
    rw [h1, ha]
    exact fixZero_fin q
  cases ha : o.absPerf with
  | true =>
    rw [ha] at h2 h3
    exact ⟨by rw [h3]; exact h, by rw [h2]; exact h⟩
  | false =>
    obtain ⟨b, hb1, hb2⟩ := hbest ha
    rw [ha] at h2 h3
    simp only [Bool.false_eq_true, if_false] at h2 h3
    have hfix : ∀ v ∈ row.map Prelim.fixZero, ∃ r : ℚ, v = .fin r ∧ r ≠ 0 := by
      intro v hv
      obtain ⟨w, hw, rfl⟩ := List.mem_map.1 hv
      obtain ⟨q, rfl⟩ := hf w hw
      exact fixZero_fin q
    refine ⟨finCol_iff.2 ⟨by simp [h3, hl], ?_⟩, finCol_iff.2 ⟨by simp [h2, hl], ?_⟩⟩
    · intro v hv
      rw [h3] at hv
      obtain ⟨w, hw, rfl⟩ := List.mem_map.1 hv
      obtain ⟨r, rfl, hr⟩ := hfix w hw
      have h1 : (1 : Num) = .fin 1 := by change Num.fin ((1 : ℕ) : ℚ) = _; simp
      cases o.maxPerf
      · exact ⟨1 - b / r, by simp [hb1, Num.fin_div _ _ hr, h1]⟩
      · exact ⟨1 - r / b, by simp [hb1, Num.fin_div _ _ hb2, h1]⟩
    · intro v hv
      rw [h2] at hv
      obtain ⟨r, e, -⟩ := hfix v hv
      exact ⟨r, e⟩

/-- Two different numbers other than zero occur. -/
def VariedNonzero (c : List Num) : Prop := ∃ a ∈ c, ∃ b ∈ c, a ≠ b ∧ a ≠ .fin 0 ∧ b ≠ .fin 0

theorem outY_fin {o : Prelim.Opts} {tr : List Num → List Num} (htr : Transforms tr) {n : Nat}
    {m : List (List Num)} (hm : ∀ r ∈ m, FinCol n r) (hn : 0 < n)
    (hv : ∀ c ∈ Prelim.columns n m, VariedNonzero c) :
    ∃ outs ys, Prelim.rows o m = some outs ∧ Prelim.outY o tr n m = some ys ∧ ys.length = n ∧
      ∀ c ∈ ys, FinCol m.length c := by
  obtain ⟨outs, ho⟩ := Prelim.rows_ok o (ys := m) fun r hr e => by
    have := (finCol_iff.1 (hm r hr)).1
    rw [e] at this
    simp at this
    omega
  have hr := Prelim.rows_iff.1 ho
  have hlen : outs.length = m.length := by simpa using (congrArg List.length hr).symm
  have hrow : ∀ out ∈ outs, ∃ r ∈ m, Prelim.rowStep o r = some out := by
    intro out hm'
    have : some out ∈ m.map (Prelim.rowStep o) := by rw [hr]; exact List.mem_map_of_mem hm'
    obtain ⟨r, h1, h2⟩ := List.mem_map.1 this
    exact ⟨r, h1, h2⟩
  have hy : ∀ r ∈ outs.map Prelim.Row.y, FinCol n r := by
    intro r hr'
    obtain ⟨out, h1, rfl⟩ := List.mem_map.1 hr'
    obtain ⟨r, h2, h3⟩ := hrow out h1
    exact (rowStep_fin (hm r h2) h3).1
  have hyIn : ∀ r ∈ outs.map Prelim.Row.yIn, FinCol n r := by
    intro r hr'
    obtain ⟨out, h1, rfl⟩ := List.mem_map.1 hr'
    obtain ⟨r, h2, h3⟩ := hrow out h1
    exact (rowStep_fin (hm r h2) h3).2
  refine ⟨outs, _, ho, by unfold Prelim.outY; rw [ho]; rfl, ?_⟩
  cases hnorm : o.norm with
  | false =>
    have := column_fin hy
    simp only [List.length_map, hlen] at this
    exact ⟨by simp [Prelim.columns], by simpa using this⟩
  | true =>
    have hcf := column_fin hyIn
    simp only [List.length_map, hlen] at hcf
    have hvar : ∀ c ∈ Prelim.columns n (outs.map Prelim.Row.yIn), Varied c := by
      intro c hc
      obtain ⟨j, hj, rfl⟩ := List.mem_map.1 hc
      have hyin : outs.map Prelim.Row.yIn = m.map fun r => if o.absPerf then r else r.map Prelim.fixZero := by
        apply List.ext_getElem (by simp [hlen])
        intro i h1 h2
        have hi : i < m.length := by simpa using h2
        have := congrArg (fun l => l[i]?) hr
        simp only [List.getElem?_map, List.getElem?_eq_getElem hi, Option.map_some,
          List.getElem?_eq_getElem (hlen ▸ hi : i < outs.length), Option.some.injEq] at this
        obtain ⟨_, -, -, -, -, -, -, -, h2, -⟩ := Prelim.rowStep_some this
        simp [h2]
      obtain ⟨a, ha, b, hb, hab, ha0, hb0⟩ := hv _ (List.mem_map_of_mem (f := fun j =>
        m.map fun r => r.getD j .nan) hj)
      rw [List.mem_range] at hj
      have key : ∀ v : Num, v ≠ .fin 0 → v ∈ (m.map fun r => r.getD j .nan) →
          v ∈ (outs.map Prelim.Row.yIn).map fun r => r.getD j .nan := by
        intro v hv0 hvm
        obtain ⟨r, hr1, rfl⟩ := List.mem_map.1 hvm
        rw [hyin, List.map_map]
        refine List.mem_map.2 ⟨r, hr1, ?_⟩
        simp only [Function.comp]
        cases o.absPerf with
        | true => rfl
        | false =>
          have hl := (finCol_iff.1 (hm r hr1)).1
          simp only [Bool.false_eq_true, if_false, List.getD_eq_getElem?_getD, List.getElem?_map,
            List.getElem?_eq_getElem (by omega : j < r.length), Option.map_some, Option.getD_some] at hv0 ⊢
          exact Prelim.fixZero_ne hv0
      exact ⟨a, key a ha0 ha, b, key b hb0 hb, hab⟩
    obtain ⟨l, hl1, hl2⟩ := fins_of hcf
    simp only [if_true]
    rw [hl1] at hvar ⊢
    have hll : l.length = n := by simpa [Prelim.columns] using (congrArg List.length hl1).symm
    have := normY_fin htr hl2 fun c hc => by
      obtain ⟨a, ha, b, hb, hab⟩ := hvar _ (List.mem_map_of_mem (f := (·.map Num.fin)) hc)
      obtain ⟨x, hx, rfl⟩ := List.mem_map.1 ha
      obtain ⟨y, hy, rfl⟩ := List.mem_map.1 hb
      exact ⟨x, hx, y, hy, fun e => hab (by rw [e])⟩
    exact ⟨this.1.trans hll, this.2⟩

/-! ### Preprocessing -/

theorem preprocessing_clean {V : Type} {x y : Mat Num} {s : Option (List V)} {feat algo : List String} {inst : List V}
    (hx : ∀ r ∈ x.rows, FinCol x.ncols r) (hy : ∀ r ∈ y.rows, FinCol y.ncols r) (hr : x.rows ≠ [])
    (hxc : 0 < x.ncols) (hyc : 0 < y.ncols) :
    Preprocessing.run Num.isNan ⟨x, y, s, feat, inst⟩ algo none none =
      .ok ⟨⟨x, y, s, feat, inst⟩, algo⟩ := by
  have notall : ∀ {n : Nat} {r : List Num}, 0 < n → FinCol n r → r.all Num.isNan = false := by
    rintro n r hn ⟨l, rfl, hl⟩
    cases l with
    | nil => simp at hl; omega
    | cons a l => rfl
  have h1 : (Preprocessing.emptyRows Num.isNan x y).any id = false := by
    rw [List.any_eq_false]
    intro b hb
    obtain ⟨i, hi, rfl⟩ := List.getElem_of_mem hb
    simp only [Preprocessing.emptyRows, List.getElem_zipWith, notall hxc (hx _ (List.getElem_mem _)),
      notall hyc (hy _ (List.getElem_mem _))]
    decide
  have h2 : (Preprocessing.sparseCols Num.isNan x).any id = false := by
    rw [List.any_eq_false]
    intro b hb
    obtain ⟨j, hj, rfl⟩ := List.mem_map.1 hb
    have : Preprocessing.missing Num.isNan x j = 0 := by
      unfold Preprocessing.missing
      rw [List.countP_eq_zero]
      intro v hv
      obtain ⟨r, hr1, hr2⟩ := List.mem_filterMap.1 hv
      obtain ⟨q, rfl⟩ := (finCol_iff.1 (hx r hr1)).2 v (List.mem_of_getElem? hr2)
      simp [Num.isNan]
    rw [this]
    have : 0 < x.rows.length := List.length_pos_iff.2 hr
    simp [hr]
  unfold Preprocessing.run
  simp only [Preprocessing.select, Preprocessing.removeMissing, Preprocessing.removeRows, h1,
    Bool.false_eq_true, if_false, Preprocessing.removeCols, h2, List.length_eq_zero_iff, hr]

end Verif.EndToEnd
