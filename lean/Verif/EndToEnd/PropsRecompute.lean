import Verif.EndToEnd.RecomputeLemmas
import Verif.EndToEnd.PropsShift
import Verif.Prelim.PropsData
import Verif.Sifted.Props
/-!
# C200, C201: the coordinates from the raw values, and what is recorded about the features
-/
set_option autoImplicit false
set_option linter.unusedSectionVars false

namespace Verif.EndToEnd

open Verif (Num)
open Verif.Pipeline (Stg Name runner defaultStages buildDefault outputs)
open Verif.Metadata (Table Squeezed Begins fromDataFrame)
open Verif.Runner (Dict)

variable {V W : Type} {lower : String → String} {numeric : Squeezed V → Bool} {str : V → V}
  {num : V → Num} {env : Env V W} {le : Nat → Late V W} {t : Table V} {d : Dict Name (Val V W)}

/-! ### C200 -/

/-- **C200.** After a successful run, with or without a subset of the instances, each coordinate of each instance
can be computed from the Model alone: take the raw values of the selected features, process each with the bounds,
minimum, exponent, mean and deviation recorded at the feature's position, and add the results weighted with a
row of the projection matrix.  `power` is the Box-Cox transformation of the library. -/
theorem C200_recomputed (hc : Complete env le) {power : Num → Num → Num} (hfit : FitsBy env.tr env.fit power)
    (hjunk : env.junk.2.lt env.junk.1 = false) (h : Succeeds lower numeric str num env t d) :
    ∃ raw z a sel, d .x_raw = some (.table raw) ∧ d .z = some (.table z) ∧ d .a = some (.table a) ∧
      d .selvars = some (.counts sel) ∧ z.rows.length = raw.rows.length ∧
      ∀ k < raw.rows.length, ∀ r < 2,
        Recomputed env.prelim.bound env.prelim.norm power d raw.rows z.rows a.rows sel k r :=
  recomputed hc hfit hjunk h

/-- The environment of the examples with a Box-Cox transformation: exponent 1, mean 2 and deviation 3. -/
def rulerEnv : Env Nat (Kept (List (ℚ × ℚ))) :=
  { normEnv with
    tr := fun l => l.map fun v => (v - 1 - .fin 2) / .fin 3
    fit := fun _ => (1, .fin 2, .fin 3) }

theorem ruler_complete : CompleteTrace rulerEnv (allLate false) (exTrace false) where
  stages _ _ _ := rfl
  trace _ := rfl
  laws _ := dots_laws
  order _ _ := List.reverse_perm _

theorem cleanRun_succeeds {env : Env Nat (Kept (List (ℚ × ℚ)))} {t : Table Nat}
    (h : raisedIn (cleanRun env t) = 0) :
    ∃ d, cleanRun env t = .ok d ∧ Succeeds id (fun _ => false) id lateNum env t d := by
  cases hd : cleanRun env t with
  | error e =>
    exfalso
    rw [hd] at h
    revert h
    unfold raisedIn
    split <;> simp_all
  | ok d =>
    exact ⟨d, rfl, defaultStages, Pipeline.listOrder, Pipeline.defaultSchedule, [], .refl _,
      Pipeline.default_once, hd⟩

example : Complete rulerEnv (allLate false) ∧ FitsBy rulerEnv.tr rulerEnv.fit (fun _ v => v - 1) ∧
    rulerEnv.junk.2.lt rulerEnv.junk.1 = false ∧ rulerEnv.prelim.norm = true ∧
    ∃ d, Succeeds id (fun _ => false) id lateNum rulerEnv
      (cleanTable [4, 1, 5, 3, 3, 4] [2, 0, 1, 1, 2, 1]) d := by
  obtain ⟨d, -, h⟩ := cleanRun_succeeds (env := rulerEnv)
    (t := cleanTable [4, 1, 5, 3, 3, 4] [2, 0, 1, 1, 2, 1]) (by decide +kernel)
  exact ⟨ruler_complete.complete, fun _ _ => rfl, rfl, rfl, d, h⟩

/-! ### C201 -/

/-- The number recorded under a name. -/
def scaleOf (n : Name) (s : Prelim.Scale) : Num :=
  match n with
  | .med_val => s.med
  | .iq_range => s.iqr
  | .hi_bound => s.hi
  | .lo_bound => s.lo
  | .min_x => s.min
  | .lambda_x => s.lambda
  | .mu_x => s.mu
  | _ => s.sigma

theorem scales_recorded {x y : Preprocessing.Mat Num} {outs : List Prelim.Row}
    (h : ∀ a ∈ recorded env x y outs, d a.1 = some a.2) (n : Name) (hn : n ∈ scales) :
    d n = some (.numbers (((Prelim.columns x.ncols x.rows).map
      (Prelim.recordX env.prelim env.junk env.mid env.fit)).map (scaleOf n))) := by
  simp only [scales, List.mem_cons, List.not_mem_nil, or_false] at hn
  rcases hn with rfl | rfl | rfl | rfl | rfl | rfl | rfl | rfl <;>
    exact h (_, _) (by unfold recorded; simp [scaleOf])

/-- The raw column of a feature. -/
theorem raw_column {rows : List Nat} {o : Preprocessing.Output Num String V V}
    (hx : Located num t rows o.data.feat o.data.x.rows) {c : Nat} {a : String} {col : List Num}
    (hja : o.data.feat[c]? = some a) (hcol : Cells num t rows a col) :
    o.data.x.rows.map (fun r => r.getD c .nan) = col := by
  obtain ⟨hcl, hcol⟩ := hcol
  apply List.ext_getElem
  · rw [List.length_map, hx.nrows, hcl]
  · intro q h1 h2
    have hq : q < rows.length := by rw [← hcl]; exact h2
    have hki : rows[q]? = some rows[q] := List.getElem?_eq_getElem hq
    obtain ⟨v, hv⟩ := hx.all q _ c a hki hja
    obtain ⟨r, hr, hrc⟩ := bind_at.1 (hx.cells q _ c a v hki hja hv)
    have h3 := hcol q _ v hki hv
    rw [List.getElem?_eq_getElem h2] at h3
    rw [List.getElem_map]
    have hq' : q < o.data.x.rows.length := by simpa using h1
    have h4 : o.data.x.rows[q]? = some o.data.x.rows[q] := List.getElem?_eq_getElem hq'
    rw [hr] at h4
    rw [← Option.some.inj h4, List.getD_eq_getElem?_getD, hrc]
    exact (Option.some.inj h3).symm

theorem recordX_fin (o : Prelim.Opts) (junk mid : Num × Num) (fit : List Num → Num × Num × Num) {qs : List ℚ}
    (hq : qs ≠ []) :
    let s := Prelim.recordX o junk mid fit (qs.map .fin)
    s.hi = s.med + .fin 5 * s.iqr ∧ s.lo = s.med - .fin 5 * s.iqr ∧
      (o.bound = false → ∃ a, s.min = .fin a ∧ a ∈ qs ∧ ∀ q ∈ qs, a ≤ q) := by
  have hf : Prelim.finites (qs.map .fin) = some qs := Prelim.finites_iff.2 rfl
  refine ⟨?_, ?_, fun hb => ?_⟩
  · simp only [Prelim.recordX, Prelim.middleOf, Prelim.boundsOf, hf, Prelim.bounds, Num.fin_mul, Num.fin_add]
  · simp only [Prelim.recordX, Prelim.middleOf, Prelim.boundsOf, hf, Prelim.bounds, Num.fin_mul, Num.fin_sub]
  · simp only [Prelim.recordX, hb, Bool.false_eq_true, if_false]
    cases qs with
    | nil => exact absurd rfl hq
    | cons a l =>
      obtain ⟨m, h1, h2⟩ := Prelim.npMin_fin a l
      exact ⟨m, h1, h2.1, h2.2⟩

/-- **C201 (part).** The numbers recorded about a feature are found at the feature's position among the features
before selection, which is entry `j` of `selvars` for the feature labelled `j`.  They depend on the values of that
feature in the kept rows alone: the bounds lie five times the interquartile range above and below the median,
and without bounding the recorded minimum is the smallest value.  Without a subset of the instances.
Missing: entry `j` itself belongs to label `j` only if SIFTED drops nothing before it (`C201_refuted`). -/
theorem C201_partial (env : Env V W) : ∃ f : Name → List Num → Num,
    (∀ qs : List ℚ, qs ≠ [] →
      f .hi_bound (qs.map .fin) = f .med_val (qs.map .fin) + .fin 5 * f .iq_range (qs.map .fin) ∧
      f .lo_bound (qs.map .fin) = f .med_val (qs.map .fin) - .fin 5 * f .iq_range (qs.map .fin) ∧
      (env.prelim.bound = false → ∃ a, f .min_x (qs.map .fin) = .fin a ∧ a ∈ qs ∧ ∀ q ∈ qs, a ≤ q)) ∧
    ∀ (lower : String → String) (numeric : Squeezed V → Bool) (str : V → V) (num : V → Num) (t : Table V)
      (labels : List V) (d : Dict Name (Val V W)) (rows : List Nat) (feats : List String) (sel : List Nat),
      Ordinary lower env t labels → Succeeds lower numeric str num env t d →
      KeptRows lower num env t rows → d .feat_labels = some (.names feats) →
      d .selvars = some (.counts sel) → sel.length = feats.length ∧
      ∀ (j i : Nat) (name : String) (col : List Num), feats[j]? = some name → sel[j]? = some i →
        Cells num t rows name col → ∀ n ∈ scales, Noted d n i (f n col) := by
  refine ⟨fun n col => scaleOf n (Prelim.recordX env.prelim env.junk env.mid env.fit col),
    fun qs hq => recordX_fin _ _ _ _ hq, ?_⟩
  intro lower numeric str num t labels d rows feats sel' ho h hk hf hs
  obtain ⟨inst, s, o, outs, ys, sel, f, tr, -, -, -, -, -, hy, hx, hyn, hxn, -⟩ := run_located ho h hk
  have hf' := tr.feat_labels
  rw [hf] at hf'
  simp only [Option.some.injEq, Val.names.injEq] at hf'
  subst hf'
  have hs' := tr.selvars
  rw [hs] at hs'
  simp only [Option.some.injEq, Val.counts.injEq] at hs'
  subst hs'
  obtain ⟨lib, rho, hsel⟩ := tr.sifted
  have al := Sifted.C69_aligned (by simp [Prelim.columns, hxn]) hsel
  refine ⟨al.names.symm, fun j i name col hj hji hcol n hn => ?_⟩
  rw [(al.same j i hji).2] at hj
  refine ⟨_, scales_recorded tr.recorded n hn, ?_⟩
  have hi : i < o.data.x.ncols := by rw [hxn]; exact (List.getElem?_eq_some_iff.1 hj).1
  rw [List.getElem?_map, List.getElem?_map, Prelim.columns, List.getElem?_map, List.getElem?_range hi]
  simp only [Option.map_some]
  rw [raw_column hx hj hcol]

/-- Six instances with four features. -/
def wideTable : Table Nat :=
  ⟨6, [("instances", [10, 11, 12, 13, 14, 15]), ("feature_a", [1, 2, 3, 1, 2, 5]),
    ("feature_b", [11, 15, 12, 14, 11, 13]), ("feature_c", [21, 25, 22, 24, 23, 23]),
    ("feature_d", [33, 32, 31, 31, 33, 32]), ("algo_p", [4, 1, 5, 3, 3, 4]), ("algo_q", [2, 0, 1, 1, 2, 1])]⟩

/-- The correlations of these features with both algorithms; the third is dropped. -/
def wideEnv : Env Nat (Kept (List (ℚ × ℚ))) :=
  { allEnv false with
    thr := .fin (1 / 2)
    lib := fun _ _ _ => { (allEnv false).lib ⟨0, []⟩ ⟨0, []⟩ [] with argsort := Sifted.argsortRef }
    pearson := fun l => (.fin (match l.head? with
      | some (.fin 1, _) => 1 / 10
      | some (.fin 11, _) => 8 / 10
      | some (.fin 21, _) => 2 / 10
      | _ => 7 / 10), 0) }

theorem wide_complete : CompleteTrace wideEnv (allLate false) (exTrace false) where
  stages _ _ _ := rfl
  trace _ := rfl
  laws _ := dots_laws
  order _ _ := List.reverse_perm _

theorem wide_ordinary : Ordinary id wideEnv wideTable [10, 11, 12, 13, 14, 15] where
  rect := by
    intro c hc
    simp only [wideTable, List.mem_cons, List.not_mem_nil, or_false] at hc
    rcases hc with rfl | rfl | rfl | rfl | rfl | rfl | rfl <;> rfl
  distinct := by decide
  several := by decide
  labels := ⟨"instances", by decide⟩
  sources := by decide
  tuples := wide_complete.complete.tuples
  noFraction := by simp [Prelim.UsesFraction, wideEnv, allEnv, noSubset]
  noFile := by simp [Prelim.UsesFile, wideEnv, allEnv, noSubset]
  noDensity := by simp [Prelim.UsesDensity, Prelim.AsksDensity, wideEnv, allEnv, noSubset]

theorem wide_kept : KeptRows id lateNum wideEnv wideTable [0, 1, 2, 3, 4, 5] where
  increasing := by decide
  exact i := by
    constructor
    · intro hi
      have : i < 6 := by
        simp only [List.mem_cons, List.not_mem_nil, or_false] at hi
        omega
      refine ⟨this, ⟨"feature_a", ([1, 2, 3, 1, 2, 5] : List Nat)[i]'this, ?_, ?_, nofun⟩,
        "algo_p", ([4, 1, 5, 3, 3, 4] : List Nat)[i]'this, ?_, ?_, nofun⟩
      · exact ⟨⟨_, by simp [wideTable]; right; left; rfl, rfl⟩, (begins_iff _ _).2 (by decide), nofun⟩
      · exact ⟨("feature_a", [1, 2, 3, 1, 2, 5]), by simp [wideTable], rfl, List.getElem?_eq_getElem _⟩
      · exact ⟨⟨("algo_p", [4, 1, 5, 3, 3, 4]), by simp [wideTable], rfl⟩, (begins_iff _ _).2 (by decide),
          nofun⟩
      · exact ⟨("algo_p", [4, 1, 5, 3, 3, 4]), by simp [wideTable], rfl, List.getElem?_eq_getElem _⟩
    · rintro ⟨hi, -⟩
      have : i < 6 := hi
      simp only [List.mem_cons, List.not_mem_nil, or_false]
      omega

/-- The labels, the positions of the selected features and the minima in an output. -/
def readOff (d : Dict Name (Val Nat (Kept (List (ℚ × ℚ))))) : Option (List String × List Nat × List Num) :=
  match d .feat_labels, d .selvars, d .min_x with
  | some (.names l), some (.counts s), some (.numbers m) => some (l, s, m)
  | _, _, _ => none

theorem wide_run : ∃ d, Succeeds id (fun _ => false) id lateNum wideEnv wideTable d ∧
    d .feat_labels = some (.names ["feature_a", "feature_b", "feature_d"]) ∧
    d .selvars = some (.counts [0, 1, 3]) ∧
    d .min_x = some (.numbers [.fin 1, .fin 11, .fin 21, .fin 31]) := by
  obtain ⟨d, h1, h2⟩ := cleanRun_succeeds (env := wideEnv) (t := wideTable) (by decide +kernel)
  have h : (cleanRun wideEnv wideTable).toOption.bind readOff = some (["feature_a", "feature_b", "feature_d"],
      [0, 1, 3], [.fin 1, .fin 11, .fin 21, .fin 31]) := by decide +kernel
  rw [h1] at h
  simp only [Except.toOption, Option.bind_some, readOff] at h
  split at h
  · rename_i l s m e1 e2 e3
    simp only [Option.some.injEq, Prod.mk.injEq] at h
    obtain ⟨rfl, rfl, rfl⟩ := h
    exact ⟨d, h2, e1, e2, e3⟩
  · cases h

/-- **C201** is false: SIFTED drops the third of four features, `min_x` keeps its entry, and the entry after the
two first labels, which should belong to the third label `feature_d`, is the minimum of `feature_c`. -/
theorem C201_refuted : ¬ ∀ (lower : String → String) (numeric : Squeezed Nat → Bool) (str : Nat → Nat)
    (num : Nat → Num) (env : Env Nat (Kept (List (ℚ × ℚ)))) (le : Nat → Late Nat (Kept (List (ℚ × ℚ))))
    (te : Nat → TraceEnv (List (ℚ × ℚ))) (t : Table Nat) (labels : List Nat)
    (d : Dict Name (Val Nat (Kept (List (ℚ × ℚ))))), CompleteTrace env le te → Ordinary lower env t labels →
    Succeeds lower numeric str num env t d → MinimaLinedUp lower num env t d := by
  intro h
  obtain ⟨d, h1, h2, h3, h4⟩ := wide_run
  have := h _ _ _ _ _ _ _ _ _ _ wide_complete wide_ordinary h1 rfl [0, 1, 2, 3, 4, 5] _ wide_kept h2 2
    "feature_d" [33, 32, 31, 31, 33, 32] 21 rfl ?_ ⟨_, h4, rfl⟩
  · revert this; decide
  · refine ⟨rfl, fun k i v hk ⟨c, hc, hn, hv⟩ => ?_⟩
    simp only [wideTable, List.mem_cons, List.not_mem_nil, or_false] at hc
    rcases hc with rfl | rfl | rfl | rfl | rfl | rfl | rfl <;> first | (exact absurd hn (by decide)) | skip
    have hk' : k < 6 := (List.getElem?_eq_some_iff.1 hk).1
    interval_cases k <;> simp at hk <;> subst hk <;> simp at hv <;> subst hv <;> simp [lateNum]

example : Ordinary id wideEnv wideTable [10, 11, 12, 13, 14, 15] ∧
    KeptRows id lateNum wideEnv wideTable [0, 1, 2, 3, 4, 5] ∧
    ∃ d, Succeeds id (fun _ => false) id lateNum wideEnv wideTable d ∧
      d .feat_labels = some (.names ["feature_a", "feature_b", "feature_d"]) ∧
      d .selvars = some (.counts [0, 1, 3]) := by
  obtain ⟨d, h1, h2, h3, -⟩ := wide_run
  exact ⟨wide_ordinary, wide_kept, d, h1, h2, h3⟩

end Verif.EndToEnd
