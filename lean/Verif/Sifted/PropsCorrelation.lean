import Verif.Sifted.Props
import Verif.Sifted.SpecCorrelation
import Mathlib.Tactic.ByContra
/-!
# Properties of the correlations of SIFTED (C133, C134) and of the costs (C71)
-/
set_option autoImplicit false
set_option linter.unusedSectionVars false

namespace Verif.Sifted

open Verif (Num)

theorem pairs_cons (a b : Num) {x y : List Num} {P : List (Num × Num)} (h : PairsPresent x y P) :
    PairsPresent (a :: x) (b :: y) (if a.isNan = false ∧ b.isNan = false then (a, b) :: P else P) := by
  obtain ⟨is, hs, hm, hl, hv⟩ := h
  have hsucc : (is.map (· + 1)).Pairwise (· < ·) := by
    rw [List.pairwise_map]
    exact hs.imp fun h => by omega
  have hmem : ∀ i, i + 1 ∈ is.map (· + 1) ↔ BothPresent (a :: x) (b :: y) (i + 1) := by
    intro i
    rw [show BothPresent (a :: x) (b :: y) (i + 1) ↔ BothPresent x y i from Iff.rfl, ← hm i]
    simp
  have hval : ∀ (k i : Nat) u v, (is.map (· + 1))[k]? = some i → P[k]? = some (u, v) →
      (a :: x)[i]? = some u ∧ (b :: y)[i]? = some v := by
    intro k i u v hk hp
    rw [List.getElem?_map] at hk
    cases hi : is[k]? with
    | none => rw [hi] at hk; cases hk
    | some i' =>
      rw [hi] at hk
      injection hk with hk
      subst hk
      exact hv k i' u v hi hp
  have hzero : BothPresent (a :: x) (b :: y) 0 ↔ (a.isNan = false ∧ b.isNan = false) := by
    constructor
    · rintro ⟨u, v, hu, hv, hun, hvn⟩
      injection hu with hu
      injection hv with hv
      subst hu hv
      constructor
      · cases a <;> first | rfl | exact absurd rfl hun
      · cases b <;> first | rfl | exact absurd rfl hvn
    · rintro ⟨ha, hb⟩
      refine ⟨a, b, rfl, rfl, ?_, ?_⟩
      · rintro rfl; cases ha
      · rintro rfl; cases hb
  by_cases hab : a.isNan = false ∧ b.isNan = false
  · rw [if_pos hab]
    refine ⟨0 :: is.map (· + 1), ?_, ?_, ?_, ?_⟩
    · refine List.pairwise_cons.2 ⟨?_, hsucc⟩
      intro i hi
      obtain ⟨k, _, rfl⟩ := List.mem_map.1 hi
      omega
    · intro i
      cases i with
      | zero => exact ⟨fun _ => hzero.2 hab, fun _ => by simp⟩
      | succ i =>
        rw [← hmem i]
        simp
    · simp [hl]
    · intro k i u v hk hp
      cases k with
      | zero =>
        injection hk with hk
        injection hp with hp
        subst hk
        injection hp with h1 h2
        subst h1 h2
        exact ⟨rfl, rfl⟩
      | succ k => exact hval k i u v hk hp
  · rw [if_neg hab]
    refine ⟨is.map (· + 1), hsucc, ?_, by simp [hl], hval⟩
    intro i
    cases i with
    | zero =>
      rw [hzero]
      constructor
      · intro h
        obtain ⟨k, _, hk⟩ := List.mem_map.1 h
        omega
      · exact fun h => absurd h hab
    | succ i => exact hmem i

/-- The code keeps exactly the pairs that are present. -/
theorem validPairs_present : ∀ x y : List Num, PairsPresent x y (validPairs x y)
  | [], y => ⟨[], .nil, fun i => ⟨fun h => (nomatch h), fun ⟨_, _, h, _⟩ => (nomatch h)⟩, rfl,
      fun k i u v h => by cases h⟩
  | x :: xs, [] => ⟨[], .nil, fun i => ⟨fun h => (nomatch h), fun ⟨_, _, _, h, _⟩ => (nomatch h)⟩, rfl,
      fun k i u v h => by cases h⟩
  | a :: x, b :: y => by
    have h := pairs_cons a b (validPairs_present x y)
    have he : validPairs (a :: x) (b :: y) =
        if a.isNan = false ∧ b.isNan = false then (a, b) :: validPairs x y else validPairs x y := by
      unfold validPairs
      rw [List.zip_cons_cons, List.filter_cons]
      cases ha : a.isNan <;> cases hb : b.isNan <;> simp [ha, hb]
    rw [he]
    exact h

/-- The pairs that are present are determined. -/
theorem pairs_unique {x y : List Num} {P Q : List (Num × Num)} (hP : PairsPresent x y P)
    (hQ : PairsPresent x y Q) : P = Q := by
  obtain ⟨is, hs, hm, hl, hv⟩ := hP
  obtain ⟨js, hs', hm', hl', hv'⟩ := hQ
  have hij : is = js := by
    refine List.Perm.eq_of_pairwise (le := (· < ·)) (fun a b _ _ h1 h2 => absurd h1 (by omega)) hs hs' ?_
    rw [List.perm_ext_iff_of_nodup (hs.imp fun h => by omega) (hs'.imp fun h => by omega)]
    intro i
    rw [hm, hm']
  subst hij
  apply List.ext_getElem?
  intro k
  by_cases hk : k < is.length
  · obtain ⟨p, hp⟩ : ∃ p, P[k]? = some p := ⟨_, List.getElem?_eq_getElem (by omega)⟩
    obtain ⟨q, hq⟩ : ∃ q, Q[k]? = some q := ⟨_, List.getElem?_eq_getElem (by omega)⟩
    have h1 := hv k is[k] p.1 p.2 (List.getElem?_eq_getElem hk) hp
    have h2 := hv' k is[k] q.1 q.2 (List.getElem?_eq_getElem hk) hq
    rw [hp, hq]
    rw [h1.1] at h2
    have h21 := h2.1
    have h22 := h1.2.symm.trans h2.2
    injection h21 with h21
    injection h22 with h22
    rw [Prod.ext h21 h22]
  · rw [List.getElem?_eq_none (by omega), List.getElem?_eq_none (by omega)]

theorem correlation_ok {pearson : List (Num × Num) → Num × Num} {xs ys : List (List Num)}
    {corr : List (List (Num × Num))} (h : correlation pearson xs ys = .ok corr) :
    corr = (xs.map fun x => ys.map fun y =>
      if (validPairs x y).isEmpty then (.nan, .nan) else pearson (validPairs x y)) ∧
    ∀ x ∈ xs, ∀ y ∈ ys, (validPairs x y).length ≠ 1 := by
  unfold correlation at h
  split at h
  · cases h
  · rename_i hne
    injection h with h
    refine ⟨h.symm, ?_⟩
    intro x hx y hy he
    exact hne (List.any_eq_true.2 ⟨x, hx, List.any_eq_true.2 ⟨y, hy, by simp [he]⟩⟩)

/-- The coefficient and the p-value of a feature and an algorithm. -/
theorem correlation_at {pearson : List (Num × Num) → Num × Num} {xs ys : List (List Num)}
    {corr : List (List (Num × Num))} (h : correlation pearson xs ys = .ok corr) {i j : Nat}
    {x y : List Num} (hx : xs[i]? = some x) (hy : ys[j]? = some y) {P : List (Num × Num)}
    (hP : PairsPresent x y P) :
    P.length ≠ 1 ∧ At corr i j (if P = [] then (.nan, .nan) else pearson P) := by
  obtain ⟨he, hne⟩ := correlation_ok h
  have hv := pairs_unique hP (validPairs_present x y)
  refine ⟨?_, ?_⟩
  · rw [hv]
    exact hne x (List.mem_of_getElem? hx) y (List.mem_of_getElem? hy)
  · refine ⟨_, by rw [he, List.getElem?_map, hx]; rfl, ?_⟩
    rw [List.getElem?_map, hy, hv]
    simp [List.isEmpty_iff]

theorem selectFeatures_ok {argsort : List Num → List Nat}
    {pearson : List (Num × Num) → Num × Num} {xs ys : List (List Num)} {thr : Num}
    {out : Performance} (h : selectFeatures argsort pearson xs ys thr = .ok out) :
    ∃ corr, correlation pearson xs ys = .ok corr ∧ out = {
      rho := significant corr
      pval := corr.map fun r => r.map (·.2)
      selvars := selectByPerformance argsort (significant corr) thr xs.length ys.length } := by
  unfold selectFeatures at h
  cases hc : correlation pearson xs ys with
  | error e => rw [hc] at h; cases h
  | ok corr =>
    rw [hc] at h
    injection h with h
    exact ⟨corr, rfl, h.symm⟩

/-! ### C133 -/

/-- The property: `rho` and `pval` are the coefficient and the p-value of the instances where the
feature and the performance are both known. -/
def ReportsCorrelations : Prop :=
  ∀ (argsort : List Num → List Nat) (pearson : List (Num × Num) → Num × Num)
    (xs ys : List (List Num)) (thr : Num) (out : Performance),
    selectFeatures argsort pearson xs ys thr = .ok out →
    ∀ (i j : Nat) x y P, xs[i]? = some x → ys[j]? = some y → PairsPresent x y P → P ≠ [] →
      At out.rho i j (pearson P).1 ∧ At out.pval i j (pearson P).2

/-- Two features, one algorithm; the second feature has a missing value. -/
def exXs : List (List Num) := [[.fin 1, .fin 2, .fin 3], [.fin 5, .nan, .fin 4]]

/-- The performance of one algorithm. -/
def exYs : List (List Num) := [[.fin 1, .fin 2, .fin 4]]

/-- A coefficient that is significant for three instances or more. -/
def exPearson (P : List (Num × Num)) : Num × Num :=
  (.fin (9 / 10), if 3 ≤ P.length then .fin (1 / 100) else .fin (1 / 2))

/-- **C133** is false: an insignificant coefficient is returned as 0. -/
theorem C133_refuted : ¬ ReportsCorrelations := by
  intro h
  have h := (h argsortRef exPearson exXs exYs (.fin (1 / 2)) _ rfl 1 0 _ _ _ rfl rfl
    (validPairs_present _ _) (by decide +kernel)).1
  obtain ⟨r, hr, hv⟩ := h
  injection hr with hr
  subst hr
  exact absurd hv (by decide +kernel)

/-- **C133, the true part.**  The p-values are those of the pairs present, NaN without any.  A
coefficient with a p-value of at most 0.05 is returned as computed; one that is missing or has a
larger p-value is returned as 0. -/
theorem C133_partial {argsort : List Num → List Nat} {pearson : List (Num × Num) → Num × Num}
    {xs ys : List (List Num)} {thr : Num} {out : Performance}
    (h : selectFeatures argsort pearson xs ys thr = .ok out) {i j : Nat} {x y : List Num}
    (hx : xs[i]? = some x) (hy : ys[j]? = some y) {P : List (Num × Num)}
    (hP : PairsPresent x y P) :
    (P = [] → At out.rho i j 0 ∧ At out.pval i j .nan) ∧
    (P ≠ [] → At out.pval i j (pearson P).2) ∧
    (∀ r p : ℚ, P ≠ [] → pearson P = (.fin r, .fin p) → p ≤ 5 / 100 → At out.rho i j (.fin r)) ∧
    (∀ r p : ℚ, P ≠ [] → pearson P = (.fin r, .fin p) → 5 / 100 < p → At out.rho i j 0) ∧
    (P ≠ [] → (pearson P).1 = .nan → At out.rho i j 0) := by
  obtain ⟨corr, hc, rfl⟩ := selectFeatures_ok h
  obtain ⟨_, r, hr, hv⟩ := correlation_at hc hx hy hP
  have hrho : ∀ w, (if (if P = [] then ((.nan : Num), (.nan : Num)) else pearson P).1.isNan ||
      Num.lt (.fin (1 / 20)) (if P = [] then ((.nan : Num), (.nan : Num)) else pearson P).2 then 0
      else (if P = [] then ((.nan : Num), (.nan : Num)) else pearson P).1) = w →
      At (significant corr) i j w := by
    intro w hw
    refine ⟨_, by unfold significant; rw [List.getElem?_map, hr]; rfl, ?_⟩
    rw [List.getElem?_map, hv, Option.map_some, hw]
  have hpv : At (corr.map fun r => r.map (·.2)) i j
      (if P = [] then ((.nan : Num), (.nan : Num)) else pearson P).2 := by
    refine ⟨_, by rw [List.getElem?_map, hr]; rfl, ?_⟩
    rw [List.getElem?_map, hv, Option.map_some]
  refine ⟨?_, ?_, ?_, ?_, ?_⟩
  · intro hnil
    refine ⟨hrho 0 ?_, ?_⟩
    · rw [if_pos hnil]; rfl
    · rw [if_pos hnil] at hpv; exact hpv
  · intro hne
    rw [if_neg hne] at hpv
    exact hpv
  · intro q p hne hpq hp
    refine hrho _ ?_
    rw [if_neg hne, hpq]
    have : ¬ ((1 / 20 : ℚ) < p) := by
      rw [not_lt]
      calc p ≤ 5 / 100 := hp
        _ = 1 / 20 := by norm_num
    change (if (false || decide ((1 / 20 : ℚ) < p)) = true then (0 : Num) else .fin q) = .fin q
    rw [decide_eq_false this]
    rfl
  · intro q p hne hpq hp
    refine hrho _ ?_
    rw [if_neg hne, hpq]
    have : (1 / 20 : ℚ) < p := by
      calc (1 / 20 : ℚ) = 5 / 100 := by norm_num
        _ < p := hp
    change (if (false || decide ((1 / 20 : ℚ) < p)) = true then (0 : Num) else .fin q) = 0
    rw [decide_eq_true this]
    rfl
  · intro hne hnan
    refine hrho _ ?_
    rw [if_neg hne, hnan]
    rfl

example : (selectFeatures argsortRef exPearson exXs exYs (.fin (1 / 2))).toOption =
    some ⟨[[.fin (9 / 10)], [0]], [[.fin (1 / 100)], [.fin (1 / 2)]], [0]⟩ := by decide +kernel
example : PairsPresent [.fin 5, .nan, .fin 4] [.fin 1, .fin 2, .fin 4]
    [(.fin 5, .fin 1), (.fin 4, .fin 4)] := validPairs_present _ _

/-! ### C134 -/

/-- **C134** is false: a feature known for a single instance stops the stage. -/
theorem C134_refuted : ∃ xs ys : List (List Num), (∀ x ∈ xs, ∀ y ∈ ys, x.length = y.length) ∧
    ∀ argsort pearson thr, selectFeatures argsort pearson xs ys thr = .error .valueError :=
  ⟨[[.fin 1, .fin 2], [.fin 3, .nan]], [[.fin 1, .fin 2]], by decide +kernel, fun _ _ _ => rfl⟩

/-- **C134, exactly.**  The correlations are computed unless some feature and some algorithm are
both known for exactly one instance. -/
theorem C134_partial (argsort : List Num → List Nat) (pearson : List (Num × Num) → Num × Num)
    (xs ys : List (List Num)) (thr : Num) :
    (∃ out, selectFeatures argsort pearson xs ys thr = .ok out) ↔
      ∀ x ∈ xs, ∀ y ∈ ys, ∀ P, PairsPresent x y P → P.length ≠ 1 := by
  constructor
  · rintro ⟨out, h⟩ x hx y hy P hP
    obtain ⟨corr, hc, _⟩ := selectFeatures_ok h
    rw [pairs_unique hP (validPairs_present x y)]
    exact (correlation_ok hc).2 x hx y hy
  · intro h
    unfold selectFeatures correlation
    rw [if_neg]
    · exact ⟨_, rfl⟩
    · intro hany
      obtain ⟨x, hx, hany⟩ := List.any_eq_true.1 hany
      obtain ⟨y, hy, he⟩ := List.any_eq_true.1 hany
      exact h x hx y hy _ (validPairs_present x y) (by simpa using he)

example : ∃ out, selectFeatures argsortRef exPearson exXs exYs (.fin (1 / 2)) = .ok out := ⟨_, rfl⟩

/-! ### C70 -/

/-- `pearson` gives a finite coefficient and p-value, or NaN. -/
def FiniteOrNaN (pearson : List (Num × Num) → Num × Num) : Prop :=
  ∀ P, (pearson P).1 = .nan ∨ ∃ r p, pearson P = (.fin r, .fin p)

/-- Feature `x` has the coefficient `r` with performance `y`, with a p-value of at most 0.05. -/
def Significant (pearson : List (Num × Num) → Num × Num) (x y : List Num) (r : ℚ) : Prop :=
  ∃ P p, PairsPresent x y P ∧ P ≠ [] ∧ pearson P = (.fin r, .fin p) ∧ p ≤ 5 / 100

theorem significant_finite {pearson : List (Num × Num) → Num × Num} (hf : FiniteOrNaN pearson)
    {xs ys : List (List Num)} {corr : List (List (Num × Num))}
    (h : correlation pearson xs ys = .ok corr) :
    ∃ f, Matrix (significant corr) xs.length ys.length f := by
  have hcell : ∀ i < xs.length, ∀ j < ys.length, ∃ q, At (significant corr) i j (.fin q) := by
    intro i hi j hj
    obtain ⟨_, r, hr, hv⟩ := correlation_at h (List.getElem?_eq_getElem hi)
      (List.getElem?_eq_getElem hj) (validPairs_present _ _)
    generalize (if validPairs xs[i] ys[j] = [] then ((.nan : Num), (.nan : Num))
      else pearson (validPairs xs[i] ys[j])) = w at hv
    by_cases hw : (w.1.isNan || Num.lt (.fin (1 / 20)) w.2) = true
    · refine ⟨0, _, by unfold significant; rw [List.getElem?_map, hr]; rfl, ?_⟩
      rw [List.getElem?_map, hv, Option.map_some, if_pos hw]
      rfl
    · have hq : ∃ q, w.1 = .fin q := by
        have hmem : w.1 = .nan ∨ ∃ r, w.1 = .fin r := by
          obtain ⟨he, _⟩ := correlation_ok h
          have hr' := List.mem_of_getElem? hr
          rw [he] at hr'
          obtain ⟨x, _, hx⟩ := List.mem_map.1 hr'
          have hv' := List.mem_of_getElem? hv
          rw [← hx] at hv'
          obtain ⟨y, _, hy⟩ := List.mem_map.1 hv'
          rw [← hy]
          split
          · exact .inl rfl
          · rcases hf (validPairs x y) with hn | ⟨r, p, hrp⟩
            · exact .inl hn
            · exact .inr ⟨r, by rw [hrp]⟩
        rcases hmem with hn | hq
        · exact absurd (by rw [hn]; rfl) hw
        · exact hq
      obtain ⟨q, hq⟩ := hq
      refine ⟨q, _, by unfold significant; rw [List.getElem?_map, hr]; rfl, ?_⟩
      rw [List.getElem?_map, hv, Option.map_some, if_neg hw, hq]
  classical
  refine ⟨fun i j => if h : i < xs.length ∧ j < ys.length then
    Classical.choose (hcell i h.1 j h.2) else 0, ?_, ?_⟩
  · rw [(correlation_ok h).1]
    simp [significant]
  · intro i hi
    obtain ⟨he, _⟩ := correlation_ok h
    have hlen : i < (significant corr).length := by rw [he]; simpa [significant] using hi
    refine ⟨_, List.getElem?_eq_getElem hlen, ?_, ?_⟩
    · simp [he, significant]
    · intro j hj
      simp only [dif_pos (And.intro hi hj)]
      obtain ⟨r, hr, hv⟩ := Classical.choose_spec (hcell i hi j hj)
      rw [List.getElem?_eq_getElem hlen] at hr
      injection hr with hr
      rw [hr, hv]

/-- **C70, from the data.**  If some feature correlates significantly with an algorithm, and not
with coefficient 0, then a significant feature with the largest absolute coefficient among the
significant ones is selected. -/
theorem C70_significant_partial {argsort : List Num → List Nat} (hs : Sorts argsort)
    {pearson : List (Num × Num) → Num × Num} (hf : FiniteOrNaN pearson)
    {xs ys : List (List Num)} {thr : Num} {out : Performance}
    (h : selectFeatures argsort pearson xs ys thr = .ok out) {j : Nat} {y : List Num}
    (hy : ys[j]? = some y) {x₀ : List Num} (hx₀ : x₀ ∈ xs) {r₀ : ℚ}
    (hr₀ : Significant pearson x₀ y r₀) (hne : r₀ ≠ 0) :
    ∃ g ∈ out.selvars, ∃ x r, xs[g]? = some x ∧ Significant pearson x y r ∧
      ∀ x' ∈ xs, ∀ r', Significant pearson x' y r' → |r'| ≤ |r| := by
  have hpart := fun (i : Nat) (x : List Num) (P : List (Num × Num)) (hx : xs[i]? = some x)
    (hP : PairsPresent x y P) => C133_partial h hx hy hP
  obtain ⟨corr, hc, rfl⟩ := selectFeatures_ok h
  obtain ⟨f, hm⟩ := significant_finite hf hc
  have hjl : j < ys.length := (List.getElem?_eq_some_iff.1 hy).1
  obtain ⟨i₀, hi₀⟩ := List.mem_iff_getElem?.1 hx₀
  have hn : 0 < xs.length := List.length_pos_of_mem hx₀
  have hval : ∀ (i : Nat) v, i < xs.length → At (significant corr) i j v → v = .fin (f i j) := by
    rintro i v hi ⟨r, hr, hv⟩
    obtain ⟨r', hr', _, hv'⟩ := hm.2 i hi
    rw [hr] at hr'
    injection hr' with hr'
    subst hr'
    rw [hv' j hjl] at hv
    injection hv with hv
    exact hv.symm
  have hsig : ∀ (i : Nat) x r, xs[i]? = some x → Significant pearson x y r → f i j = r := by
    rintro i x r hx ⟨P, p, hP, hPne, hpq, hp⟩
    have := hval i _ (List.getElem?_eq_some_iff.1 hx).1
      ((hpart i x P hx hP).2.2.1 r p hPne hpq hp)
    injection this with this
    exact this.symm
  obtain ⟨g, hg, hmax⟩ := C70_top_partial hs hm hn thr hjl
  have hgn : g < xs.length := (C70_exact_partial.1 hg).1
  have hg0 : f g j ≠ 0 := by
    intro h0
    have := hmax i₀ (List.getElem?_eq_some_iff.1 hi₀).1
    rw [h0, hsig i₀ x₀ r₀ hi₀ hr₀, abs_zero] at this
    exact hne (abs_eq_zero.1 (le_antisymm this (abs_nonneg _)))
  refine ⟨g, hg, xs[g], f g j, List.getElem?_eq_getElem hgn, ?_, ?_⟩
  · have hgx : xs[g]? = some xs[g] := List.getElem?_eq_getElem hgn
    have hP := validPairs_present xs[g] y
    obtain ⟨h1, h2, h3, h4, h5⟩ := hpart g _ _ hgx hP
    have hzero : ¬ At (significant corr) g j 0 := by
      intro h0
      have := hval g _ hgn h0
      injection this with this
      exact hg0 this.symm
    have hPne : validPairs xs[g] y ≠ [] := fun hnil => hzero (h1 hnil).1
    rcases hf (validPairs xs[g] y) with hnan | ⟨r, p, hrp⟩
    · exact absurd (h5 hPne hnan) hzero
    · by_cases hp : p ≤ 5 / 100
      · have := hval g _ hgn (h3 r p hPne hrp hp)
        injection this with this
        rw [← this]
        exact ⟨_, p, hP, hPne, hrp, hp⟩
      · exact absurd (h4 r p hPne hrp (not_le.1 hp)) hzero
  · intro x' hx' r' hr'
    obtain ⟨i', hi'⟩ := List.mem_iff_getElem?.1 hx'
    have := hmax i' (List.getElem?_eq_some_iff.1 hi').1
    rwa [hsig i' x' r' hi' hr'] at this

/-- A coefficient that grows with the first value of the feature; always significant. -/
def exPearson₂ (P : List (Num × Num)) : Num × Num :=
  match P with
  | (.fin u, _) :: _ => (.fin (u / 10), .fin (1 / 100))
  | _ => (.nan, .nan)

example : FiniteOrNaN exPearson₂ := by
  intro P
  unfold exPearson₂
  split
  · exact .inr ⟨_, _, rfl⟩
  · exact .inl rfl
example : Significant exPearson₂ [.fin 5, .nan, .fin 4] [.fin 1, .fin 2, .fin 4] (5 / 10) :=
  ⟨_, 1 / 100, validPairs_present _ _, by decide +kernel, rfl, by norm_num⟩
example : (selectFeatures argsortRef exPearson₂ exXs exYs (.fin 1)).toOption.map (·.selvars) =
    some [1] := by decide +kernel

/-! ### C71 -/

theorem worst_eq (e : Nat → ℚ) : ∀ n : Nat, ((List.range (n + 1)).foldl (fun (y : Option ℚ) j =>
    match y with
    | none => some (e j)
    | some v => some (max v (e j))) none) = some ((List.range n).foldl (fun v j => max v (e (j + 1))) (e 0))
  | 0 => rfl
  | n + 1 => by
    rw [List.range_succ, List.foldl_append, worst_eq e n, List.range_succ, List.foldl_append]
    rfl

theorem foldl_max (e : Nat → ℚ) (a : ℚ) : ∀ n : Nat,
    (∀ j < n, e j ≤ (List.range n).foldl (fun v j => max v (e j)) a) ∧
    a ≤ (List.range n).foldl (fun v j => max v (e j)) a ∧
    ((List.range n).foldl (fun v j => max v (e j)) a = a ∨
      ∃ j < n, (List.range n).foldl (fun v j => max v (e j)) a = e j)
  | 0 => ⟨fun j h => absurd h (by omega), le_refl _, .inl rfl⟩
  | n + 1 => by
    obtain ⟨h1, h2, h3⟩ := foldl_max e a n
    rw [List.range_succ, List.foldl_append]
    change (∀ j < n + 1, e j ≤ max _ (e n)) ∧ a ≤ max _ (e n) ∧ (max _ (e n) = a ∨ ∃ j < n + 1, max _ (e n) = e j)
    refine ⟨?_, le_trans h2 (le_max_left _ _), ?_⟩
    · intro j hj
      by_cases hjn : j = n
      · subst hjn; exact le_max_right _ _
      · exact le_trans (h1 j (by omega)) (le_max_left _ _)
    · rcases max_choice ((List.range n).foldl (fun v j => max v (e j)) a) (e n) with hm | hm
      · rw [hm]
        rcases h3 with h3 | ⟨j, hj, h3⟩
        · exact .inl h3
        · exact .inr ⟨j, by omega, h3⟩
      · rw [hm]
        exact .inr ⟨n, by omega, rfl⟩

/-- **C71, the cost.**  A candidate costs the largest error of the classifiers over all algorithms,
on the features it is evaluated with. -/
theorem C71_cost_partial {err : List Nat → Nat → ℚ} {nalgos n : Nat} {labels : List Nat}
    {sol : List Int} {fs : List Nat} (hfs : costFeatures labels n sol = .ok fs) (ha : 0 < nalgos) :
    ∃ q, cost err nalgos labels n sol = .ok (some q) ∧
      (∃ j < nalgos, q = err fs j) ∧ ∀ j < nalgos, err fs j ≤ q := by
  obtain ⟨m, rfl⟩ : ∃ m, nalgos = m + 1 := ⟨nalgos - 1, by omega⟩
  obtain ⟨h1, h2, h3⟩ := foldl_max (fun j => err fs (j + 1)) (err fs 0) m
  refine ⟨_, by unfold cost; rw [hfs]; exact congrArg Except.ok (worst_eq (err fs) m), ?_, ?_⟩
  · rcases h3 with h3 | ⟨j, hj, h3⟩
    · exact ⟨0, by omega, h3⟩
    · exact ⟨j + 1, by omega, h3⟩
  · intro j hj
    cases j with
    | zero => exact h2
    | succ j => exact h1 j (by omega)

example : (costFeatures [0, 1, 0, 1] 4 [3, 4]).toOption = some [1, 2] ∧
    (cost (fun fs j => (fs.sum : ℚ) + j) 3 [0, 1, 0, 1] 4 [3, 4]).toOption = some (some 5) := by
  decide +kernel

end Verif.Sifted
