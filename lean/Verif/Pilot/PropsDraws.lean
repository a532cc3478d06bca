import Verif.Pilot.Draws
import Verif.Pilot.Props
import Mathlib.Tactic.Linarith
/-!
# C196: the number of tries of PILOT
-/
set_option autoImplicit false
set_option linter.unusedSectionVars false

namespace Verif.Pilot

open Matrix

variable {K : Type} [Field K] [LinearOrder K] [IsStrictOrderedRing K] {p n q : Nat}

/-- The largest performance in a list. -/
def IsBest (perf : List (Option K)) (best : K) : Prop :=
  some best ∈ perf ∧ ∀ v, some v ∈ perf → v ≤ best

/-- `a` is, up to rounding, the projection reached from one of the given starting points, and that
try had performance `v`. -/
def Reached (lib : Lib K p n q) (x : Matrix (Fin p) (Fin n) K) (y : Matrix (Fin p) (Fin q) K)
    (starts : List (Fin (len n q) → K)) (a : Matrix (Fin 2) (Fin n) K) (v : K) : Prop :=
  ∃ guess ∈ starts,
    lib.quality (x * (aOf (lib.bfgs (errorFunction (xBar x y)) guess).1).transpose) = some v ∧
    a = (aOf (lib.bfgs (errorFunction (xBar x y)) guess).1).map lib.half

theorem best_of_run {lib : Lib K p n q} {x : Matrix (Fin p) (Fin n) K}
    {y : Matrix (Fin p) (Fin q) K} {labels : List String} {opts : Options K n q} {out : Out K p n q}
    {perf : List (Option K)} (hm : opts.analytic = false)
    (h : pilot lib x y labels opts = .ok out) (hp : out.perf = some perf)
    (hn : ∀ o ∈ perf, o ≠ none) :
    perf = ((opts.x0.getD (lib.starts opts.nTries)).take opts.nTries).map (fun g =>
      lib.quality (x * (aOf (lib.bfgs (errorFunction (xBar x y)) g).1).transpose)) ∧
    ∃ best, IsBest perf best ∧
      Reached lib x y ((opts.x0.getD (lib.starts opts.nTries)).take opts.nTries) out.a best := by
  obtain ⟨x0, idx, guess, alpha, hx0, hlen, hlt, hg, hal, ho, hperf, harg, _, ha, _⟩ :=
    numerical_ok hm h
  rw [hp] at hperf
  injection hperf with hperf
  rw [← hperf] at harg
  obtain ⟨v, hv, hmax⟩ := argmax_spec harg hn
  rw [← hx0]
  have hgt : (x0.take opts.nTries)[idx]? = some guess := by
    rw [List.getElem?_take_of_lt hlt, hg]
  refine ⟨hperf, v, ⟨List.mem_of_getElem? hv, hmax⟩, guess, List.mem_of_getElem? hgt, ?_, ?_⟩
  · rw [hperf, List.getElem?_map, hgt] at hv
    exact Option.some.inj hv
  · rw [ha, hal]
    rfl

/-- **C196, the true part.**  If the starting points of the one run are among those of the other,
and every try has a performance, then each run returns, up to rounding, its best try, and the best
try of the second run is at least as good as the one of the first. -/
theorem C196_partial {lib : Lib K p n q} {x : Matrix (Fin p) (Fin n) K}
    {y : Matrix (Fin p) (Fin q) K} {labels : List String} {opts opts' : Options K n q}
    {out out' : Out K p n q} {perf perf' : List (Option K)}
    (hm : opts.analytic = false) (hm' : opts'.analytic = false)
    (h : pilot lib x y labels opts = .ok out) (h' : pilot lib x y labels opts' = .ok out')
    (hp : out.perf = some perf) (hp' : out'.perf = some perf')
    (hn : ∀ o ∈ perf, o ≠ none) (hn' : ∀ o ∈ perf', o ≠ none)
    (hs : ∀ g ∈ (opts.x0.getD (lib.starts opts.nTries)).take opts.nTries,
      g ∈ (opts'.x0.getD (lib.starts opts'.nTries)).take opts'.nTries) :
    ∃ best best', IsBest perf best ∧ IsBest perf' best' ∧ best ≤ best' ∧
      Reached lib x y ((opts.x0.getD (lib.starts opts.nTries)).take opts.nTries) out.a best ∧
      Reached lib x y ((opts'.x0.getD (lib.starts opts'.nTries)).take opts'.nTries) out'.a best' := by
  obtain ⟨he, b, hb, hr⟩ := best_of_run hm h hp hn
  obtain ⟨he', b', hb', hr'⟩ := best_of_run hm' h' hp' hn'
  refine ⟨b, b', hb, hb', hb'.2 b ?_, hr, hr'⟩
  have := hb.1
  rw [he, List.mem_map] at this
  obtain ⟨g, hg, hq⟩ := this
  rw [he', List.mem_map]
  exact ⟨g, hs g hg, hq⟩

/-- **C196 for starting points given by the user.**  There more tries use more of the columns, and
the best try is never worse. -/
theorem C196_given_partial {lib : Lib K p n q} {x : Matrix (Fin p) (Fin n) K}
    {y : Matrix (Fin p) (Fin q) K} {labels : List String} {opts : Options K n q}
    {out out' : Out K p n q} {perf perf' : List (Option K)} {x0 : List (Fin (len n q) → K)}
    {more : Nat} (hm : opts.analytic = false) (hx : opts.x0 = some x0) (hmore : opts.nTries ≤ more)
    (h : pilot lib x y labels opts = .ok out)
    (h' : pilot lib x y labels { opts with nTries := more } = .ok out')
    (hp : out.perf = some perf) (hp' : out'.perf = some perf')
    (hn : ∀ o ∈ perf, o ≠ none) (hn' : ∀ o ∈ perf', o ≠ none) :
    ∃ best best', IsBest perf best ∧ IsBest perf' best' ∧ best ≤ best' ∧
      Reached lib x y (x0.take opts.nTries) out.a best ∧
      Reached lib x y (x0.take more) out'.a best' := by
  have := C196_partial hm (by exact hm) h h' hp hp' hn hn' (by
    intro g hg
    simp only [hx, Option.getD_some] at hg ⊢
    exact (List.take_subset_take_left x0 hmore) hg)
  simpa only [hx, Option.getD_some] using this

example : ((pilot { exLib with starts := fun _ => [] } exX exY exLabels
      { exOpts false with nTries := 1, x0 := some [fun _ => 1, fun _ => 2] }).toOption.map
        fun o => (o.perf, o.a)) = some (some [some 2], of ![![1, 1], ![1, 1]]) ∧
    ((pilot { exLib with starts := fun _ => [] } exX exY exLabels
      { exOpts false with nTries := 2, x0 := some [fun _ => 1, fun _ => 2] }).toOption.map
        fun o => (o.perf, o.a)) = some (some [some 2, some 4], of ![![2, 2], ![2, 2]]) := by
  decide +kernel

/-- **C196, why random starting points are not kept.**  If no two draws are equal, two runs with
different numbers of tries have no starting point in common: not one try of the shorter run is
repeated in the longer one. -/
theorem C196_disjoint_partial {draws : Nat → K} (hd : Function.Injective draws) (hn : 0 < n)
    {t t' : Nat} (ht : t ≠ t') (g : Fin (len n q) → K) (hg : g ∈ randomStarts draws t) :
    g ∉ randomStarts draws t' := by
  intro hg'
  unfold randomStarts at hg hg'
  rw [List.mem_map] at hg hg'
  obtain ⟨c, _, h1⟩ := hg
  obtain ⟨c', _, h2⟩ := hg'
  have he : ∀ r : Fin (len n q), (r : Nat) * t + c = r * t' + c' := by
    intro r
    have := congrFun (h1.trans h2.symm) r
    exact hd (by linarith)
  have hl : 1 < len n q := by unfold len; omega
  have h0 := he ⟨0, by omega⟩
  have h3 := he ⟨1, hl⟩
  simp only [Nat.zero_mul, Nat.one_mul, Nat.zero_add] at h0 h3
  omega

example : Function.Injective (fun i : Nat => (1 : ℚ) / (i + 2)) ∧
    ((fun r => 2 * (1 / ((r * 1 + 0 : Nat) + 2)) - 1 : Fin (len 1 1) → ℚ) ∈
      randomStarts (fun i : Nat => (1 : ℚ) / (i + 2)) 1) := by
  constructor
  · intro a b h
    have ha : ((a : ℚ) + 2) ≠ 0 := by positivity
    have hb : ((b : ℚ) + 2) ≠ 0 := by positivity
    have : ((a : ℚ) + 2) = b + 2 := by
      have h' : (1 : ℚ) / (a + 2) = 1 / (b + 2) := h
      field_simp at h'
      linarith
    exact_mod_cast (by linarith : (a : ℚ) = b)
  · simp [randomStarts]

/-- Three instances, one feature. -/
def drawX : Matrix (Fin 3) (Fin 1) ℚ := of ![![1], ![2], ![4]]

/-- One algorithm. -/
def drawY : Matrix (Fin 3) (Fin 1) ℚ := of ![![1], ![0], ![3]]

/-- A generator: the first draws are 0, 1/2, 0, 3/4. -/
def drawStream : Nat → ℚ := fun i => if i = 1 then 1 / 2 else if i = 3 then 3 / 4 else 0

/-- A library with an optimiser that stays where it starts.  The quality, which is a correlation in
the code, compares the squared distances between the instances. -/
def drawLib : Lib ℚ 3 1 1 where
  eig := fun _ => (fun _ => 0, 0)
  argsort := fun _ => []
  inv := fun _ => none
  half := id
  bfgs := fun f v => (v, f v)
  quality := fun z => some (1 - ((z 0 0 - z 1 0) ^ 2 + (z 0 1 - z 1 1) ^ 2 - 1) ^ 2)
  starts := randomStarts drawStream

/-- **C196** is false: with a second try all starting points change, and the best performance falls
from 1 to 7/16. -/
theorem C196_refuted : ∃ (draws : Nat → ℚ) (lib : Lib ℚ 3 1 1) (opts : Options ℚ 1 1)
    (out out' : Out ℚ 3 1 1) (perf perf' : List (Option ℚ)) (best best' : ℚ),
    (∀ i, 0 ≤ draws i ∧ draws i < 1) ∧ lib.starts = randomStarts draws ∧
    opts.analytic = false ∧ opts.nTries = 1 ∧ opts.x0 = none ∧
    pilot lib drawX drawY ["f"] opts = .ok out ∧
    pilot lib drawX drawY ["f"] { opts with nTries := 2 } = .ok out' ∧
    out.perf = some perf ∧ out'.perf = some perf' ∧
    (∀ o ∈ perf, o ≠ none) ∧ (∀ o ∈ perf', o ≠ none) ∧
    IsBest perf best ∧ IsBest perf' best' ∧ best' < best := by
  let opts : Options ℚ 1 1 := { analytic := false, nTries := 1, alpha := none, x0 := none }
  have hr : (pilot drawLib drawX drawY ["f"] opts).toOption.map (fun o => o.perf) =
      some (some [some 1]) := by decide +kernel
  have hr' : (pilot drawLib drawX drawY ["f"] { opts with nTries := 2 }).toOption.map
      (fun o => o.perf) = some (some [some 0, some (7 / 16)]) := by decide +kernel
  rcases he : pilot drawLib drawX drawY ["f"] opts with e | out
  · rw [he] at hr
    cases hr
  rcases he' : pilot drawLib drawX drawY ["f"] { opts with nTries := 2 } with e | out'
  · rw [he'] at hr'
    cases hr'
  rw [he] at hr
  rw [he'] at hr'
  refine ⟨drawStream, drawLib, opts, out, out', _, _, 1, 7 / 16, ?_, rfl, rfl, rfl, rfl, he, he',
    Option.some.inj hr, Option.some.inj hr', by simp, by simp, ?_, ?_, by norm_num⟩
  · intro i
    unfold drawStream
    split
    · norm_num
    · split <;> norm_num
  · simp [IsBest]
  · constructor
    · simp
    · intro v hv
      simp only [List.mem_cons, Option.some.injEq, List.not_mem_nil, or_false] at hv
      rcases hv with rfl | rfl <;> norm_num

end Verif.Pilot
