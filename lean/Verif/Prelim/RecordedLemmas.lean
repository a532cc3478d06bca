import Verif.Prelim.Recorded
import Verif.Prelim.UnitLemmas
import Verif.Prelim.MetaLemmas
/-!
# Lemmas on what PRELIM records
-/
set_option autoImplicit false
set_option linter.unusedSectionVars false

namespace Verif.Prelim

open Verif (Num)

theorem finites_move (q : ℚ) : ∀ l : List Num,
    finites (l.map (· + .fin q)) = (finites l).map fun qs => qs.map (· + q)
  | [] => rfl
  | .nan :: _ => rfl
  | .pinf :: _ => rfl
  | .ninf :: _ => rfl
  | .fin a :: l => by
    have := finites_move q l
    rw [List.map_cons, Num.fin_add, finites, finites, this]
    cases finites l <;> rfl

theorem middleOf_move (mid : Num × Num) (q : ℚ) (l : List Num) :
    (middleOf mid (l.map (· + .fin q))).2 = (middleOf mid l).2 := by
  unfold middleOf
  rw [finites_move]
  cases h : finites l with
  | none =>
    have : (l.map (· + .fin q)).any Num.isNan = l.any Num.isNan := by
      rw [List.any_map]
      congr 1
      funext v
      exact move_isNan v q
    dsimp only [Option.map]
    rw [this]
  | some qs =>
    dsimp only [Option.map]
    rw [Num.fin.injEq]
    by_cases hq : qs = []
    · subst hq; rfl
    · have h1 := bounds_affine 1 q one_pos qs hq
      simp only [mul_one] at h1
      unfold bounds at h1
      dsimp only at h1
      rw [Prod.mk.injEq] at h1
      linarith [h1.1, h1.2]

theorem minOf_move (q : ℚ) (l : List Num) : minOf (l.map (· + .fin q)) = minOf l + .fin q := by
  cases l with
  | nil => rfl
  | cons a l => exact npMin_move q l a

theorem normX_eq (tr : List Num → List Num) (c : List Num) :
    normX tr c = transform tr (c.map fun v => v - minOf c + 1) := by
  cases c <;> rfl

theorem nan_add (v : Num) : Num.nan + v = .nan := by cases v <;> rfl
theorem add_nan (v : Num) : v + Num.nan = .nan := by cases v <;> rfl
theorem flag_nan (b : Bool) : ofBool b * Num.nan = .nan := by cases b <;> rfl
theorem nan_flag (b : Bool) : Num.nan * ofBool b = .nan := by cases b <;> rfl
theorem off_pinf : ofBool false * Num.pinf = .nan := by decide
theorem off_ninf : ofBool false * Num.ninf = .nan := by decide
theorem pinf_off : Num.pinf * ofBool false = .nan := by decide
theorem ninf_off : Num.ninf * ofBool false = .nan := by decide

/-- Bounding gives anything but NaN only from a number, between finite bounds. -/
theorem boundEntry_only {lo hi v : Num} (hb : hi.lt lo = false) (h : boundEntry lo hi v ≠ .nan) :
    (∃ q, v = .fin q) ∧ (∃ q, lo = .fin q) ∧ ∃ q, hi = .fin q := by
  unfold boundEntry at h
  dsimp only at h
  cases v <;> cases lo <;> cases hi <;> first
    | exact ⟨⟨_, rfl⟩, ⟨_, rfl⟩, _, rfl⟩
    | (exfalso
       first
       | exact Bool.noConfusion hb
       | (apply h
          simp only [Num.lt, flag_nan, nan_flag, nan_add, add_nan, off_pinf, off_ninf, pinf_off, ninf_off,
            Bool.or_true, Bool.or_false, Bool.false_or, Bool.not_true, Bool.not_false]))

theorem boundEntry_place {lo hi v : Num} (hb : hi.lt lo = false) (h : boundEntry lo hi v ≠ .nan) :
    (∃ q, v = .fin q) ∧
      (if v.lt lo then lo else if hi.lt v then hi else v) = boundEntry lo hi v := by
  obtain ⟨⟨v, rfl⟩, ⟨lo, rfl⟩, hi, rfl⟩ := boundEntry_only hb h
  refine ⟨⟨_, rfl⟩, ?_⟩
  simp only [Num.lt, decide_eq_false_iff_not, not_lt] at hb
  unfold boundEntry
  simp only [Num.lt]
  by_cases c1 : v < lo
  · have c2 : ¬ hi < v := by linarith
    simp only [c1, c2, decide_true, decide_false, Bool.or_true, Bool.not_true, ofBool, if_true, if_false,
      Bool.false_eq_true]
    show Num.fin lo = Num.fin (v * (0 : Nat) + (0 : Nat) * hi + (1 : Nat) * lo)
    norm_num
  · by_cases c2 : hi < v
    · simp only [c1, c2, decide_true, decide_false, Bool.or_false, Bool.not_true, ofBool, if_true, if_false,
        Bool.false_eq_true]
      show Num.fin hi = Num.fin (v * (0 : Nat) + (1 : Nat) * hi + (0 : Nat) * lo)
      norm_num
    · simp only [c1, c2, decide_false, Bool.or_false, Bool.not_false, ofBool, if_true, if_false,
        Bool.false_eq_true]
      show Num.fin v = Num.fin (v * (1 : Nat) + (0 : Nat) * hi + (0 : Nat) * lo)
      norm_num

theorem bounds_ordered (junk : Num × Num) (hj : junk.2.lt junk.1 = false) (col : List Num) :
    (boundsOf junk col).2.lt (boundsOf junk col).1 = false := by
  unfold boundsOf
  cases h : finites col with
  | none =>
    dsimp only
    split
    · rfl
    · exact hj
  | some qs =>
    dsimp only
    simp only [Num.lt, decide_eq_false_iff_not, not_lt]
    by_cases hq : qs = []
    · subst hq; decide +kernel
    · obtain ⟨lo, hi, hb, hle, -⟩ := C41_clamp junk qs hq
      rw [hb]
      exact hle

/-- A number among the processed values of a feature comes from a number, and is obtained from it with
what is recorded about the feature. -/
theorem outX_place {o : Opts} {junk : Num × Num} (mid : Num × Num) {tr : List Num → List Num}
    {fit : List Num → Num × Num × Num} {power : Num → Num → Num}
    (hfit : ∀ l : List Num, (∀ v ∈ l, v.isNan = false) →
      tr l = l.map fun v => (power (fit l).1 v - (fit l).2.1) / (fit l).2.2)
    (hj : junk.2.lt junk.1 = false) {col : List Num} {i : Nat} {v : Num} {q : ℚ} (hv : col[i]? = some v)
    (hq : (let c := if o.bound then boundCol junk col else col
      if o.norm then normX tr c else c)[i]? = some (.fin q)) :
    let r := recordX o junk mid fit col
    let w := if o.bound then (if v.lt r.lo then r.lo else if r.hi.lt v then r.hi else v) else v
    v ≠ .nan ∧
      (if o.norm then (power r.lambda (w - r.min + 1) - r.mu) / r.sigma else w) = .fin q := by
  dsimp only at hq ⊢
  -- the value after bounding
  obtain ⟨u, hu, hu2⟩ : ∃ u, (if o.bound then boundCol junk col else col)[i]? = some u ∧
      (u ≠ .nan → v ≠ .nan ∧
        (if o.bound then (if v.lt (boundsOf junk col).1 then (boundsOf junk col).1
          else if (boundsOf junk col).2.lt v then (boundsOf junk col).2 else v) else v) = u) := by
    cases o.bound with
    | false => exact ⟨v, hv, fun h => ⟨h, rfl⟩⟩
    | true =>
      refine ⟨boundEntry (boundsOf junk col).1 (boundsOf junk col).2 v, ?_, ?_⟩
      · simp only [if_true, boundCol, List.getElem?_map, hv, Option.map_some]
      · intro hp
        obtain ⟨⟨r, rfl⟩, h⟩ := boundEntry_place (bounds_ordered junk hj col) hp
        exact ⟨by simp, h⟩
  set c := if o.bound then boundCol junk col else col with hc
  cases hn : o.norm with
  | false =>
    rw [hn] at hq
    simp only [Bool.false_eq_true, if_false] at hq ⊢
    rw [hu, Option.some.injEq] at hq
    obtain ⟨h1, h2⟩ := hu2 (by rw [hq]; simp)
    exact ⟨h1, by rw [← hq]; exact h2⟩
  | true =>
    rw [hn] at hq
    simp only [if_true] at hq ⊢
    rw [normX_eq, transform, hfit _ (by
      intro v hv
      have := (List.mem_filter.mp hv).2
      simpa using this), refill_map, List.getElem?_map, List.getElem?_map, hu] at hq
    simp only [Option.map_some, Option.some.injEq] at hq
    by_cases hnan : (u - minOf c + 1).isNan
    · rw [if_pos hnan] at hq
      rw [hq] at hnan
      exact absurd hnan (by simp [Num.isNan])
    · rw [if_neg hnan] at hq
      have hu3 : u ≠ .nan := by
        rintro rfl
        apply hnan
        cases minOf c <;> rfl
      obtain ⟨h1, h2⟩ := hu2 hu3
      refine ⟨h1, ?_⟩
      simp only [recordX, hn, if_true]
      rw [h2]
      exact hq


/-- Adding a constant to a feature changes only what is recorded of its location. -/
theorem recordX_move (o : Opts) (junk mid : Num × Num) (fit : List Num → Num × Num × Num) (q : ℚ)
    (l : List Num) (hc : o.bound = true → .nan ∈ l ∨ ∀ v ∈ l, ∃ q, v = .fin q) :
    (recordX o junk mid fit (l.map (· + .fin q))).iqr = (recordX o junk mid fit l).iqr ∧
    (recordX o junk mid fit (l.map (· + .fin q))).lambda = (recordX o junk mid fit l).lambda ∧
    (recordX o junk mid fit (l.map (· + .fin q))).mu = (recordX o junk mid fit l).mu ∧
    (recordX o junk mid fit (l.map (· + .fin q))).sigma = (recordX o junk mid fit l).sigma := by
  have e : (if o.bound then boundCol junk (l.map (· + .fin q)) else l.map (· + .fin q)) =
      (if o.bound then boundCol junk l else l).map (· + .fin q) := by
    cases hb : o.bound with
    | false => rfl
    | true => exact boundCol_move junk q l (hc hb)
  have e2 : ∀ c : List Num, ((c.map (· + .fin q)).map fun v => v - minOf (c.map (· + .fin q)) + 1) =
      c.map fun v => v - minOf c + 1 := by
    intro c
    rw [minOf_move, List.map_map]
    apply List.map_congr_left
    intro v _
    simp only [Function.comp, move_sub]
  unfold recordX
  dsimp only
  rw [e, e2]
  exact ⟨middleOf_move mid q l, rfl, rfl, rfl⟩

end Verif.Prelim
