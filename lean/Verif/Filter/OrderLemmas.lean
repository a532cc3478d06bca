import Verif.Filter.SpecOrder
import Verif.Filter.UniformityLemmas
import Mathlib.Tactic.Tauto
import Mathlib.Tactic.Linarith
import Mathlib.Tactic.ByContra
import Mathlib.Data.List.Perm.Basic
import Mathlib.Data.Finset.Card
import Mathlib.Analysis.InnerProductSpace.PiL2
/-!
# Lemmas: how many instances the filter keeps
-/
set_option autoImplicit false
set_option linter.unusedSectionVars false

namespace Verif.Filter

variable {R : Type}

/-- Position `i` is kept. -/
def keptAt (flags : List Flags) (i : Nat) : Bool := (flags[i]?.map fun f => !f.excluded).getD false

theorem keptRows_length (rows : List R) (flags : List Flags) (h : flags.length = rows.length) :
    (keptRows rows flags).length = ((Finset.range rows.length).filter fun i => keptAt flags i = true).card := by
  unfold keptRows
  rw [List.length_map]
  induction rows generalizing flags with
  | nil => simp
  | cons r rows ih =>
    cases flags with
    | nil => simp at h
    | cons f flags =>
      have h' : flags.length = rows.length := by simpa using h
      have ih' := ih flags h'
      have hr : ((Finset.range (r :: rows).length).filter fun i => keptAt (f :: flags) i = true).card =
          (if f.excluded = false then 1 else 0) +
            ((Finset.range rows.length).filter fun i => keptAt flags i = true).card := by
        rw [List.length_cons, Finset.range_eq_Ico, ← Finset.insert_Ico_add_one_left_eq_Ico (by omega),
          Finset.filter_insert]
        have hs : (Finset.Ico (0 + 1) (rows.length + 1)).filter (fun i => keptAt (f :: flags) i = true) =
            ((Finset.range rows.length).filter fun i => keptAt flags i = true).image (· + 1) := by
          ext i
          simp only [Finset.mem_filter, Finset.mem_Ico, Finset.mem_image, Finset.mem_range]
          constructor
          · rintro ⟨⟨h1, h2⟩, h3⟩
            refine ⟨i - 1, ⟨by omega, ?_⟩, by omega⟩
            have : i = (i - 1) + 1 := by omega
            rw [this] at h3
            simpa [keptAt] using h3
          · rintro ⟨k, ⟨h1, h2⟩, rfl⟩
            exact ⟨⟨by omega, by omega⟩, by simpa [keptAt] using h2⟩
        have hc : (((Finset.range rows.length).filter fun i => keptAt flags i = true).image (· + 1)).card =
            ((Finset.range rows.length).filter fun i => keptAt flags i = true).card :=
          Finset.card_image_of_injective _ (fun a b => by simp)
        rw [hs]
        cases hf : f.excluded
        · have h0 : keptAt (f :: flags) 0 = true := by simp [keptAt, hf]
          rw [if_pos h0, Finset.card_insert_of_notMem (by simp), hc]
          simp [hf, Nat.add_comm]
        · have h0 : ¬ keptAt (f :: flags) 0 = true := by simp [keptAt, hf]
          rw [if_neg h0, hc]
          simp [hf]
      rw [hr, ← ih', List.zip_cons_cons, List.filter_cons]
      cases hf : f.excluded <;> simp [hf, Nat.add_comm]

theorem keptAt_iff (T : Tests R) (ty : FilterType) (rows : List R) (i : Nat) (a : R)
    (h : rows[i]? = some a) :
    keptAt (filterInstance T ty rows) i = true ↔ Kept rows (filterInstance T ty rows) i a := by
  unfold keptAt Kept
  cases hf : (filterInstance T ty rows)[i]? with
  | none => simp
  | some f => simp [h]

theorem perm_positions {l' l : List R} (h : l'.Perm l) :
    ∃ idx : List Nat, idx.Perm (List.range l.length) ∧ List.Forall₂ (fun a i => l[i]? = some a) l' idx := by
  have h0 : List.Forall₂ (fun a (i : Nat) => l[i]? = some a) l (List.range l.length) := by
    rw [List.forall₂_iff_get]
    refine ⟨by simp, fun i h1 h2 => ?_⟩
    simp
  have : Relation.Comp List.Perm (List.Forall₂ (fun a (i : Nat) => l[i]? = some a)) l' (List.range l.length) :=
    ⟨l, h, h0⟩
  rw [← List.forall₂_comp_perm_eq_perm_comp_forall₂] at this
  obtain ⟨idx, h1, h2⟩ := this
  exact ⟨idx, h2, h1⟩

/-- If whatever one filter finds superfluous beside the same instance the other finds superfluous beside
each other, then the other filter keeps no more instances, whatever the orders. -/
theorem kept_length_le (T T' : Tests R) (ty ty' : FilterType) (rows rows' : List R)
    (hp : rows'.Perm rows)
    (h1 : ∀ a ∈ rows, ∀ b ∈ rows, Covers T ty a b → Covers T' ty' a b ∧ Covers T' ty' b a)
    (h2 : ∀ a ∈ rows, ∀ b ∈ rows, ∀ c ∈ rows, Covers T ty a b → Covers T ty a c → Covers T' ty' b c) :
    (keptRows rows' (filterInstance T' ty' rows')).length ≤
      (keptRows rows (filterInstance T ty rows)).length := by
  rw [keptRows_length _ _ (filterInstance_length ..), keptRows_length _ _ (filterInstance_length ..)]
  obtain ⟨idx, hidx, hf⟩ := perm_positions hp
  rw [List.forall₂_iff_get] at hf
  obtain ⟨hlen, hf⟩ := hf
  have hn : idx.Nodup := hidx.nodup_iff.2 List.nodup_range
  -- for each position of `rows'`, a kept position of `rows`
  have key : ∀ k, k < rows'.length → ∃ i, i < rows.length ∧
      ∃ a b, rows[i]? = some a ∧ rows'[k]? = some b ∧ Kept rows (filterInstance T ty rows) i a ∧
        ((∃ h : k < idx.length, idx[k] = i) ∨ Covers T ty a b) := by
    intro k hk
    have hki : k < idx.length := by omega
    have hb := hf k hk hki
    simp only [List.get_eq_getElem] at hb
    have hb' : rows'[k]? = some rows'[k] := List.getElem?_eq_getElem hk
    have hi : idx[k] < rows.length := by
      rw [List.getElem?_eq_some_iff] at hb; exact hb.1
    have hfl : idx[k] < (filterInstance T ty rows).length := by rw [filterInstance_length]; exact hi
    have hff := List.getElem?_eq_getElem hfl
    cases he : ((filterInstance T ty rows)[idx[k]]).excluded with
    | false =>
      exact ⟨idx[k], hi, rows'[k], rows'[k], hb, hb', ⟨hb, _, hff, he⟩, Or.inl ⟨hki, rfl⟩⟩
    | true =>
      obtain ⟨i, a, hlt, hk1, hk2⟩ := (filter_flags T ty rows _ _ _ hb hff).1.1 he
      exact ⟨i, by omega, a, rows'[k], hk1.1, hb', hk1, Or.inr hk2⟩
  classical
  let g : Nat → Nat := fun k => if h : k < rows'.length then (key k h).choose else 0
  refine Finset.card_le_card_of_injOn g ?_ ?_
  · intro k hk
    simp only [Finset.coe_filter, Finset.mem_range, Set.mem_ofPred_eq] at hk ⊢
    have hs := (key k hk.1).choose_spec
    simp only [g, dif_pos hk.1]
    obtain ⟨hi, a, b, ha, -, hkept, -⟩ := hs
    exact ⟨hi, (keptAt_iff T ty rows _ a ha).2 hkept⟩
  · have main : ∀ k₁ k₂, k₁ < k₂ → k₂ < rows'.length →
        keptAt (filterInstance T' ty' rows') k₁ = true → keptAt (filterInstance T' ty' rows') k₂ = true →
        g k₁ ≠ g k₂ := by
      intro k₁ k₂ hlt hk₂ hkept₁ hkept₂ heq
      have hk₁ : k₁ < rows'.length := by omega
      obtain ⟨hi₁, a₁, b₁, ha₁, hb₁, -, hc₁⟩ := (key k₁ hk₁).choose_spec
      obtain ⟨hi₂, a₂, b₂, ha₂, hb₂, -, hc₂⟩ := (key k₂ hk₂).choose_spec
      simp only [g, dif_pos hk₁, dif_pos hk₂] at heq
      rw [heq] at ha₁ hc₁
      rw [ha₁] at ha₂
      cases ha₂
      have mem : ∀ {k : Nat} {b : R}, rows'[k]? = some b → b ∈ rows := fun h =>
        hp.mem_iff.1 (List.mem_of_getElem? h)
      have mema : a₁ ∈ rows := List.mem_of_getElem? ha₁
      have cov : Covers T' ty' b₁ b₂ := by
        have eqa : ∀ {k : Nat} {b : R} (hb : rows'[k]? = some b), (∃ h : k < idx.length, idx[k] =
            (key k₂ hk₂).choose) → a₁ = b := by
          intro k b hb ⟨h, he⟩
          have hk : k < rows'.length := by omega
          have := hf k hk h
          simp only [List.get_eq_getElem] at this
          rw [he, ha₁] at this
          rw [List.getElem?_eq_getElem hk] at hb
          simp only [Option.some.injEq] at this hb
          rw [this, hb]
        rcases hc₁ with hc₁ | hc₁ <;> rcases hc₂ with hc₂ | hc₂
        · obtain ⟨h, he⟩ := hc₁
          obtain ⟨h', he'⟩ := hc₂
          exact absurd ((List.Nodup.getElem_inj_iff hn).1 (he.trans he'.symm)) (by omega)
        · have := eqa hb₁ hc₁
          subst this
          exact (h1 _ mema _ (mem hb₂) hc₂).1
        · have := eqa hb₂ hc₂
          subst this
          exact (h1 _ mema _ (mem hb₁) hc₁).2
        · exact h2 _ mema _ (mem hb₁) _ (mem hb₂) hc₁ hc₂
      have K₁ := (keptAt_iff T' ty' rows' k₁ b₁ hb₁).1 hkept₁
      obtain ⟨-, f, hf₂, he₂⟩ := (keptAt_iff T' ty' rows' k₂ b₂ hb₂).1 hkept₂
      have := (filter_flags T' ty' rows' k₂ b₂ f hb₂ hf₂).1.2 ⟨k₁, b₁, hlt, K₁, cov⟩
      rw [he₂] at this
      exact absurd this (by simp)
    intro k₁ hk₁ k₂ hk₂ heq
    simp only [Finset.coe_filter, Finset.mem_range, Set.mem_ofPred_eq] at hk₁ hk₂
    by_contra hne
    rcases Nat.lt_or_gt_of_ne hne with h | h
    · exact main k₁ k₂ h hk₂.1 hk₁.2 hk₂.2 heq
    · exact main k₂ k₁ h hk₁.1 hk₂.2 hk₁.2 heq.symm

/-- Renaming the rows renames the tests. -/
def Tests.comap {S : Type} (T : Tests R) (g : S → R) : Tests S where
  near a b := T.near (g a) (g b)
  close a b := T.close (g a) (g b)
  bothGood a b := T.bothGood (g a) (g b)

theorem filterInstance_map {S : Type} (T : Tests R) (ty : FilterType) (g : S → R) (rows : List S) :
    filterInstance T ty (rows.map g) = filterInstance (T.comap g) ty rows := by
  have hi : ∀ i, innerStep T ty (rows.map g) i = innerStep (T.comap g) ty rows i := by
    intro i
    funext s j
    unfold innerStep
    simp only [List.getElem?_map]
    cases rows[i]? <;> cases rows[j]? <;> rfl
  have ho : outerStep T ty (rows.map g) = outerStep (T.comap g) ty rows := by
    funext s i
    unfold outerStep
    rw [hi, List.length_map]
  unfold filterInstance
  rw [ho, List.length_map]

theorem keptRows_map {S : Type} (g : S → R) (rows : List S) (flags : List Flags) :
    keptRows (rows.map g) flags = (keptRows rows flags).map g := by
  unfold keptRows
  induction rows generalizing flags with
  | nil => simp
  | cons r rows ih =>
    cases flags with
    | nil => simp
    | cons f flags =>
      simp only [List.map_cons, List.zip_cons_cons, List.filter_cons]
      cases f.excluded <;> simp [ih]

theorem euclid_ofFn {n : Nat} (u v : Fin n → ℝ) :
    euclid (List.ofFn u) (List.ofFn v) = dist (WithLp.toLp 2 u) (WithLp.toLp 2 v) := by
  rw [EuclideanSpace.dist_eq]
  unfold euclid
  have : List.zipWith (fun u v => (u - v) ^ 2) (List.ofFn u) (List.ofFn v) =
      List.ofFn fun i => (u i - v i) ^ 2 := by
    apply List.ext_getElem
    · simp
    · intro i h1 h2
      simp
  rw [this, List.sum_ofFn]
  congr 1
  refine Finset.sum_congr rfl fun i _ => ?_
  simp [Real.dist_eq, sq_abs]

/-- The triangle inequality. -/
theorem euclid_triangle (a b c : List ℝ) (hb : b.length = a.length) (hc : c.length = a.length) :
    euclid b c ≤ euclid a b + euclid a c := by
  obtain ⟨u, hu⟩ : ∃ u : Fin a.length → ℝ, List.ofFn u = a := ⟨fun i => a[i], by simp⟩
  obtain ⟨v, hv⟩ : ∃ v : Fin a.length → ℝ, List.ofFn v = b :=
    ⟨fun i => b[i]'(by have := i.2; omega), by
      apply List.ext_getElem
      · simp [hb]
      · intro i h1 h2; simp⟩
  obtain ⟨w, hw⟩ : ∃ w : Fin a.length → ℝ, List.ofFn w = c :=
    ⟨fun i => c[i]'(by have := i.2; omega), by
      apply List.ext_getElem
      · simp [hc]
      · intro i h1 h2; simp⟩
  have key : euclid (List.ofFn v) (List.ofFn w) ≤
      euclid (List.ofFn u) (List.ofFn v) + euclid (List.ofFn u) (List.ofFn w) := by
    rw [euclid_ofFn, euclid_ofFn, euclid_ofFn]
    exact dist_triangle_left _ _ _
  rwa [hv, hw, hu] at key

theorem bothGood_iff (a b : List Bool) (h : a.length = b.length) :
    (List.zipWith (fun u v => u && v) a b).all id = true ↔ (∀ u ∈ a, u = true) ∧ (∀ v ∈ b, v = true) := by
  induction a generalizing b with
  | nil => cases b <;> simp_all
  | cons u a ih =>
    cases b with
    | nil => simp at h
    | cons v b =>
      have h' : a.length = b.length := by simpa using h
      have := ih b h'
      simp only [List.zipWith_cons_cons, List.all_cons, id, Bool.and_eq_true, this,
        List.forall_mem_cons]
      tauto

theorem euclid_covers_symm {na nf : Nat} {d : ℝ} {ty : FilterType} {a b : Inst} (ha : Shaped na nf a)
    (hb : Shaped na nf b) (h : Covers (euclidTests na nf d) ty a b) :
    Covers (euclidTests na nf d) ty b a := by
  have hg : a.good.length = b.good.length := by rw [ha.2.2, hb.2.2]
  cases ty <;> simp only [Covers, euclidTests, decide_eq_true_eq, bothGood_iff _ _ hg,
    bothGood_iff _ _ hg.symm, euclid_comm b.x, euclid_comm b.y] at h ⊢ <;> tauto

theorem scaled_le {r d d' : ℝ} (hr : 0 ≤ r) (h : d ≤ d') : r * d ≤ r * d' :=
  mul_le_mul_of_nonneg_left h hr

theorem euclid_covers_mono {na nf : Nat} {d d' : ℝ} {ty : FilterType} {a b : Inst} (hd : d ≤ d')
    (h : Covers (euclidTests na nf d) ty a b) : Covers (euclidTests na nf d') ty a b := by
  have hs := scaled_le (Real.sqrt_nonneg ((na : ℝ) / nf)) hd
  cases ty <;> simp only [Covers, euclidTests, decide_eq_true_eq] at h ⊢
  · linarith
  · exact ⟨by linarith, by linarith⟩
  · exact ⟨by linarith, h.2⟩
  · exact ⟨by linarith, h.2.1, by linarith⟩

theorem euclid_covers_trans {na nf : Nat} {d d' : ℝ} {ty : FilterType} {a b c : Inst}
    (ha : Shaped na nf a) (hb : Shaped na nf b) (hc : Shaped na nf c) (hd : 2 * d ≤ d')
    (h : Covers (euclidTests na nf d) ty a b) (h' : Covers (euclidTests na nf d) ty a c) :
    Covers (euclidTests na nf d') ty b c := by
  have hs := scaled_le (Real.sqrt_nonneg ((na : ℝ) / nf)) hd
  have hx := euclid_triangle a.x b.x c.x (by rw [ha.1, hb.1]) (by rw [ha.1, hc.1])
  have hy := euclid_triangle a.y b.y c.y (by rw [ha.2.1, hb.2.1]) (by rw [ha.2.1, hc.2.1])
  have hg : a.good.length = b.good.length := by rw [ha.2.2, hb.2.2]
  have hg' : a.good.length = c.good.length := by rw [ha.2.2, hc.2.2]
  cases ty <;> simp only [Covers, euclidTests, decide_eq_true_eq, bothGood_iff _ _ hg,
    bothGood_iff _ _ hg', bothGood_iff _ _ (hg.symm.trans hg')] at h h' ⊢
  · linarith
  · exact ⟨by linarith, by linarith⟩
  · exact ⟨by linarith, h.2.2, h'.2.2⟩
  · exact ⟨by linarith, ⟨h.2.1.2, h'.2.1.2⟩, by linarith⟩

theorem euclid_covers_nonneg {na nf : Nat} {d : ℝ} {ty : FilterType} {a b : Inst}
    (h : Covers (euclidTests na nf d) ty a b) : 0 ≤ d := by
  have := euclid_nonneg a.x b.x
  cases ty <;> simp only [Covers, euclidTests, decide_eq_true_eq] at h
  · linarith
  · linarith [h.1]
  · linarith [h.1]
  · linarith [h.1]

end Verif.Filter
