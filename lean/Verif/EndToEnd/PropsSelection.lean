import Verif.EndToEnd.PropsCompletes
import Verif.EndToEnd.SpecSelection
import Verif.Sifted.PropsCompletes
import Verif.Sifted.PropsCorrelation
/-!
# When a build stops in the selection of features (C213)
-/
set_option autoImplicit false
set_option linter.unusedSectionVars false

namespace Verif.EndToEnd

open Verif (Num)
open Verif.Pipeline (Stg Name defaultStages runner)
open Verif.Metadata (Table Squeezed Begins fromDataFrame)
open Verif.Preprocessing (Mat)
open Verif.Runner (Dict RunError)

variable {V G : Type} {lower : String → String} {numeric : Squeezed V → Bool} {str : V → V}
  {num : V → Num} {env : Env V (Kept G)} {le : Nat → Late V (Kept G)} {te : Nat → TraceEnv G}
  {t : Table V} {labels : List V} {r : Except (RunError Name Err) (Dict Name (Val V (Kept G)))}

theorem pairs_present {x y : List Num} {n : Nat} (hx : FinCol n x) (hy : y.length = n) :
    (Sifted.validPairs x y).length = y.countP fun v => !v.isNan := by
  obtain ⟨a, rfl, ha⟩ := hx
  unfold Sifted.validPairs
  induction a generalizing y n with
  | nil =>
    cases y with
    | nil => rfl
    | cons b y => simp at ha hy; omega
  | cons q a ih =>
    cases y with
    | nil => simp at ha hy; omega
    | cons b y =>
      have := ih (n := n - 1) (y := y) (by simp at hy; omega) (by simp at ha; omega)
      rw [List.map_cons, List.zip_cons_cons, List.filter_cons, List.countP_cons]
      have h0 : (Num.fin q).isNan = false := rfl
      cases hb : b.isNan <;> simp [h0, hb, this]

theorem correlations_patchy {feats algos : List String} {x y : Mat Num} (yb : List (List Bool))
    (hp : PrelimTables num env t feats algos x y) :
    ∃ out, Sifted.selectFeatures (env.lib x y yb).argsort env.pearson (Prelim.columns x.ncols x.rows)
      (Prelim.columns y.ncols y.rows) env.thr = .ok out := by
  rw [Sifted.C134_partial]
  intro a ha b hb P hP
  obtain ⟨h1, -, h2⟩ := hp.yScores b hb
  have hx := column_fin hp.xFin a ha
  rw [hp.xRows] at hx
  rw [Sifted.pairs_unique hP (Sifted.validPairs_present a b), pairs_present hx h1]
  exact h2

theorem selvars_eq {argsort : List Num → List Nat} {pearson : List (Num × Num) → Num × Num}
    {xs ys : List (List Num)} {thr : Num} {out : Sifted.Performance}
    (h : Sifted.selectFeatures argsort pearson xs ys thr = .ok out) :
    out.selvars = Sifted.selectByPerformance argsort out.rho thr xs.length ys.length := by
  unfold Sifted.selectFeatures at h
  split at h
  · cases h
  · cases h
    rfl

theorem siftedResult_error {feats algos : List String} {x y : Mat Num} {yb : List (List Bool)}
    (hp : PrelimTables num env t feats algos x y) (h2 : 2 ≤ feats.length)
    (hd : Sifted.Delivers (env.lib x y yb) env.clusters) :
    (∃ e, siftedResult env x y yb feats = .error e) ↔
      3 < feats.length ∧ ∃ out, Sifted.selectFeatures (env.lib x y yb).argsort env.pearson
        (Prelim.columns x.ncols x.rows) (Prelim.columns y.ncols y.rows) env.thr = .ok out ∧
        Stuck (env.lib x y yb) env.clusters out.selvars := by
  have hxl : (Prelim.columns x.ncols x.rows).length = feats.length := by simp [Prelim.columns, hp.xCols]
  have hyl : (Prelim.columns y.ncols y.rows).length = y.ncols := by simp [Prelim.columns]
  obtain ⟨out, hout⟩ := correlations_patchy yb hp
  have neg : (∃ e, siftedResult env x y yb feats = .error e) ↔
      ¬ ∃ o, siftedResult env x y yb feats = .ok o := by
    cases siftedResult env x y yb feats <;> simp
  rw [neg]
  unfold siftedResult correlations
  by_cases hle : x.ncols ≤ 3
  · rw [if_pos hle]
    dsimp only
    have hfl : feats.length ≤ 3 := by rw [← hp.xCols]; exact hle
    rw [Sifted.C213_exact_partial hd _ _ _ _ _ _ rfl, hxl]
    constructor
    · intro h
      exact absurd ⟨h2, .inl hfl⟩ h
    · intro h
      omega
  · rw [if_neg hle, hout]
    dsimp only
    have hfl : 3 < feats.length := by rw [← hp.xCols]; omega
    rw [Sifted.C213_exact_partial hd _ _ _ _ _ _ rfl, hxl]
    simp only [Option.map_some, Option.getD_some]
    have hs := selvars_eq hout
    rw [hxl, hyl] at hs
    rw [← hs]
    constructor
    · intro h
      refine ⟨hfl, out, rfl, ?_⟩
      by_contra hn
      apply h
      refine ⟨h2, .inr ?_⟩
      unfold Stuck at hn
      push Not at hn
      obtain ⟨n1, n2⟩ := hn
      refine ⟨by omega, ?_⟩
      by_cases a1 : out.selvars.length ≤ 3
      · exact .inl a1
      by_cases a2 : out.selvars.length ≤ env.clusters
      · exact .inr (.inl a2)
      obtain ⟨n3, n4⟩ := n2 (by omega) (by omega)
      obtain ⟨c, hc, -⟩ := Sifted.C72_exact_partial ((env.lib x y yb).silhouette out.selvars)
        ((env.lib x y yb).evalLabels out.selvars) (n := out.selvars.length) n3 (by omega)
      refine .inr (.inr ⟨trivial, n3, c, hc, ?_⟩)
      by_cases a3 : c = env.clusters
      · exact .inl a3
      · exact .inr (n4 c hc a3)
    · rintro ⟨-, out', ho', hst⟩ ⟨-, h | ⟨m2, h⟩⟩
      · omega
      · cases ho'
        rcases hst with h' | ⟨h1, h4, h5⟩
        · omega
        · rcases h with h | h | ⟨-, h6, c, hc, h7⟩
          · omega
          · omega
          · rcases h5 with h5 | ⟨c', hc', h8, h9⟩
            · omega
            · have := Sifted.bestCount_unique hc hc'
              subst this
              omega

/-- **C213, in a build.**  On a table in which performances may be missing, with libraries that do their work, the build raises in SIFTED
exactly if the table has more than three features and the selection is stuck on what PRELIM makes of the
table. -/
theorem C213_build_partial (ho : Ordinary lower env t labels) (hc : CompleteTrace env le te)
    (hu : Usable env le) (hcl : Patchy lower num t) (h : Outcome lower numeric str num env t r)
    {feats algos : List String} (hf : Listed t (Begins lower "feature_") feats)
    (ha : Listed t (Begins lower "algo_") algos)
    (hd : ∀ x y yb, Sifted.Delivers (env.lib x y yb) env.clusters) :
    ∃ x y yb, PrelimTables num env t feats algos x y ∧ Verdicts num env.prelim t algos yb ∧
      ((∃ e, r = .error (.stage (.sifted e))) ↔ 3 < feats.length ∧
        ∃ out, Sifted.selectFeatures (env.lib x y yb).argsort env.pearson (Prelim.columns x.ncols x.rows)
          (Prelim.columns y.ncols y.rows) env.thr = .ok out ∧
          Stuck (env.lib x y yb) env.clusters out.selvars) := by
  obtain ⟨feats', algos', hf', ha', x, y, yb, hp, hv, h'⟩ := outcome_patchy ho hc hu hcl h
  rw [← listed_unique ho.distinct hf hf', ← listed_unique ho.distinct ha ha'] at *
  refine ⟨x, y, yb, hp, hv, ?_⟩
  have h2 : 2 ≤ feats.length := by
    obtain ⟨c, hc1, c', hc2, hne, b1, b2⟩ := hcl.features
    exact two_le ((hf.exact _).2 ⟨⟨c, hc1, rfl⟩, b1⟩) ((hf.exact _).2 ⟨⟨c', hc2, rfl⟩, b2⟩) hne
  rw [← siftedResult_error hp h2 (hd x y yb)]
  rcases h' with ⟨e, h1, h3, -⟩ | ⟨⟨o, h1⟩, h3⟩
  · exact ⟨fun _ => ⟨e, h3⟩, fun _ => ⟨e, h1⟩⟩
  · refine ⟨fun ⟨e, he⟩ => ?_, fun ⟨e, he⟩ => ?_⟩
    · rw [he] at h3
      rcases h3 with ⟨_, h3⟩ | ⟨⟨_, h3⟩, -⟩ | ⟨⟨_, h3⟩, -⟩ <;> cases h3
    · rw [h1] at he
      cases he

theorem siftedResult_uncorrelated {feats algos : List String} {x y : Mat Num} {yb : List (List Bool)}
    (hpt : PrelimTables num env t feats algos x y) (h3 : 3 < feats.length)
    {thr : ℚ} (hthr : env.thr = .fin thr) (hpos : 0 < thr)
    (hp : ∀ a ∈ Prelim.columns x.ncols x.rows, ∀ b ∈ Prelim.columns y.ncols y.rows,
      Sifted.validPairs a b = [] ∨
      ∃ ρ p : ℚ, env.pearson (Sifted.validPairs a b) = (.fin ρ, .fin p) ∧ 1 / 20 < p) :
    siftedResult env x y yb feats = .error .notEnoughFeatures := by
  obtain ⟨out, hout⟩ := correlations_patchy yb hpt
  unfold siftedResult correlations
  rw [if_neg (by rw [hpt.xCols]; omega), hout]
  simp only [Option.map_some, Option.getD_some]
  rw [hthr]
  have hlen : (Prelim.columns x.ncols x.rows).length = feats.length := by
    simp [Prelim.columns, hpt.xCols]
  refine Sifted.C213_uncorrelated_refuted _ hpos _ _ _ _ _ (by omega) ?_
  have hrho : out.rho = (Prelim.columns x.ncols x.rows).map fun _ =>
      (Prelim.columns y.ncols y.rows).map fun _ => Num.fin 0 := by
    obtain ⟨corr, hcorr, ho⟩ := Sifted.selectFeatures_ok hout
    rw [ho]
    dsimp only
    rw [(Sifted.correlation_ok hcorr).1]
    unfold Sifted.significant
    rw [List.map_map]
    refine List.map_congr_left fun a ha => ?_
    simp only [Function.comp, List.map_map]
    refine List.map_congr_left fun b hb => ?_
    simp only [Function.comp]
    rcases hp a ha b hb with he | ⟨ρ, p, h1, h2⟩
    · rw [if_pos (by rw [he]; rfl)]
      rfl
    · by_cases he : (Sifted.validPairs a b).isEmpty
      · rw [if_pos he]
        rfl
      · rw [if_neg he, h1, if_pos (by simpa [Num.lt, Num.isNan] using h2)]
        rfl
  rw [hrho]
  refine ⟨by simp, fun i hi => ⟨_, by
    rw [List.getElem?_map, List.getElem?_eq_getElem hi, Option.map_some], by
    simp [Prelim.columns], fun j hj => ?_⟩⟩
  rw [List.getElem?_map, List.getElem?_eq_getElem (by simpa [Prelim.columns] using hj), Option.map_some]

/-- **C213, a build without significant correlations.**  On a table with more than three features of which
none correlates significantly with an algorithm, the build always raises in SIFTED, whatever the libraries
do. -/
theorem C213_build_refuted (ho : Ordinary lower env t labels) (hc : CompleteTrace env le te)
    (hu : Usable env le) (hcl : Patchy lower num t) (h : Outcome lower numeric str num env t r)
    {feats : List String} (hf : Listed t (Begins lower "feature_") feats) (h3 : 3 < feats.length)
    {thr : ℚ} (hthr : env.thr = .fin thr) (hpos : 0 < thr)
    (hp : ∀ P, ∃ ρ p : ℚ, env.pearson P = (.fin ρ, .fin p) ∧ 1 / 20 < p) :
    r = .error (.stage (.sifted .notEnoughFeatures)) := by
  obtain ⟨feats', algos', hf', ha', x, y, yb, hpt, -, h'⟩ := outcome_patchy ho hc hu hcl h
  rw [← listed_unique ho.distinct hf hf'] at *
  have key := siftedResult_uncorrelated (yb := yb) hpt h3 hthr hpos fun a _ b _ => .inr (hp _)
  rcases h' with ⟨e, h1, h4, -⟩ | ⟨⟨o, h1⟩, -⟩
  · rw [key] at h4
    cases h4
    exact h1
  · rw [key] at h1
    cases h1

/-! ### Examples -/

/-- Five instances, four features. -/
def fourTable : Table Nat :=
  ⟨5, [("instances", [10, 11, 12, 13, 14]), ("feature_a", [1, 2, 3, 4, 5]), ("feature_b", [1, 5, 2, 4, 3]),
    ("feature_c", [2, 5, 1, 4, 3]), ("feature_d", [4, 1, 2, 5, 3]), ("algo_p", [4, 1, 5, 3, 3]),
    ("algo_q", [2, 1, 1, 1, 2])]⟩

/-- The pipeline of `allEnv` with a selection and given correlations. -/
def fourEnv (pearson : List (Num × Num) → Num × Num) : Env Nat (Kept (List (ℚ × ℚ))) :=
  { allEnv false with lib := fun _ _ _ => Sifted.exLib, pearson := pearson, thr := .fin (1 / 2), clusters := 3 }

theorem four_complete (p : List (Num × Num) → Num × Num) :
    CompleteTrace (fourEnv p) (allLate false) (exTrace false) :=
  ⟨fun _ _ _ => rfl, fun _ => rfl, fun _ => dots_laws, (all_complete false).order⟩

theorem four_usable (p : List (Num × Num) → Num × Num) : Usable (fourEnv p) (allLate false) where
  allFeatures := rfl
  allAlgorithms := rfl
  transforms l _ := ⟨l, rfl, rfl⟩
  pilot := pilot_ready false
  sized := all_sized false

theorem four_ordinary (p : List (Num × Num) → Num × Num) :
    Ordinary id (fourEnv p) fourTable [10, 11, 12, 13, 14] where
  rect := by
    intro c hc
    simp only [fourTable, List.mem_cons, List.not_mem_nil, or_false] at hc
    rcases hc with rfl | rfl | rfl | rfl | rfl | rfl | rfl <;> rfl
  distinct := by simp [fourTable]
  several := by decide
  labels := ⟨"instances", rfl⟩
  sources := Nat.zero_le _
  tuples := (four_complete p).complete.tuples
  noFraction := by simp [Prelim.UsesFraction, fourEnv, allEnv, noSubset]
  noFile := by simp [Prelim.UsesFile, fourEnv, allEnv, noSubset]
  noDensity := by simp [Prelim.UsesDensity, Prelim.AsksDensity, fourEnv, allEnv, noSubset]

theorem four_begins : Begins id "feature_" "feature_c" ∧ Begins id "feature_" "feature_d" ∧
    ¬ Begins id "algo_" "feature_c" ∧ ¬ Begins id "algo_" "feature_d" := by
  simp only [begins_iff]
  decide

theorem four_clean : Clean id lateNum fourTable where
  rows := by decide
  finite c _ _ v _ := ⟨v, rfl⟩
  features := ⟨("feature_a", [1, 2, 3, 4, 5]), by simp [fourTable], ("feature_b", [1, 5, 2, 4, 3]),
    by simp [fourTable], by simp, by simp [begins_table], by simp [begins_table]⟩
  algorithms := ⟨("algo_p", [4, 1, 5, 3, 3]), by simp [fourTable], ("algo_q", [2, 1, 1, 1, 2]),
    by simp [fourTable], by simp, by simp [begins_table], by simp [begins_table]⟩
  spread := by
    have hinj : Function.Injective lateNum := fun a b h => by simpa [lateNum] using h
    have spread : ∀ l : List Nat, (∀ x ∈ l, 2 * l.count x ≤ 5) → ∀ x, 2 * (l.map lateNum).count x ≤ 5 := by
      intro l hl x
      by_cases hx : x ∈ l.map lateNum
      · obtain ⟨y, hy, rfl⟩ := List.mem_map.1 hx
        rw [List.count_map_of_injective _ _ hinj]
        exact hl y hy
      · rw [List.count_eq_zero_of_not_mem hx]
        omega
    intro c hc hb
    simp only [fourTable, List.mem_cons, List.not_mem_nil, or_false] at hc
    rcases hc with rfl | rfl | rfl | rfl | rfl | rfl | rfl <;>
      first
        | exact spread _ (by decide)
        | exact absurd hb (by simp [begins_table])
  varied := by
    intro c hc hb
    simp only [fourTable, List.mem_cons, List.not_mem_nil, or_false] at hc
    rcases hc with rfl | rfl | rfl | rfl | rfl | rfl | rfl
    · exact absurd hb (by simp [begins_table])
    · exact absurd hb (by simp [begins_table])
    · exact absurd hb (by simp [begins_table])
    · exact absurd hb (by simp [four_begins])
    · exact absurd hb (by simp [four_begins])
    · exact ⟨4, by simp, 1, by simp, by simp [lateNum], by simp [lateNum], by simp [lateNum]⟩
    · exact ⟨2, by simp, 1, by simp, by simp [lateNum], by simp [lateNum], by simp [lateNum]⟩

theorem four_patchy : Patchy id lateNum fourTable := patchy_of_clean (four_ordinary fun _ => (0, 0)).rect four_clean

theorem four_listed : Listed fourTable (Begins id "feature_") ["feature_a", "feature_b", "feature_c", "feature_d"] ∧
    Listed fourTable (Begins id "algo_") ["algo_p", "algo_q"] := by
  refine ⟨⟨?_, ?_⟩, ⟨?_, ?_⟩⟩
  · change List.Sublist _ ["instances", "feature_a", "feature_b", "feature_c", "feature_d", "algo_p", "algo_q"]
    decide
  rotate_left
  · change List.Sublist _ ["instances", "feature_a", "feature_b", "feature_c", "feature_d", "algo_p", "algo_q"]
    decide
  all_goals
    intro a
    simp only [List.mem_cons, List.not_mem_nil, or_false]
    constructor
    · intro h
      rcases h with rfl | rfl | rfl | rfl <;>
        exact ⟨by simp [fourTable], by simp [begins_table, four_begins]⟩
    · rintro ⟨⟨c, hc, rfl⟩, hb⟩
      simp only [fourTable, List.mem_cons, List.not_mem_nil, or_false] at hc
      rcases hc with rfl | rfl | rfl | rfl | rfl | rfl | rfl <;>
        first | simp; done | exact absurd hb (by simp [begins_table, four_begins])

-- The hypotheses of `C213_build_partial` and `C213_build_refuted` are met: without correlations the build stops in
-- SIFTED; with `fourPearson` below two features pass and it gets to the end.
example : Ordinary id (fourEnv fun _ => (.fin 0, .fin 1)) fourTable [10, 11, 12, 13, 14] ∧
    CompleteTrace (fourEnv fun _ => (.fin 0, .fin 1)) (allLate false) (exTrace false) ∧
    Usable (fourEnv fun _ => (.fin 0, .fin 1)) (allLate false) ∧ Patchy id lateNum fourTable ∧
    (∀ x y yb, Sifted.Delivers ((fourEnv fun _ => (.fin 0, .fin 1)).lib x y yb) 3) ∧
    cleanRun (fourEnv fun _ => (.fin 0, .fin 1)) fourTable =
      .error (.stage (.sifted .notEnoughFeatures)) :=
  ⟨four_ordinary _, four_complete _, four_usable _, four_patchy, fun _ _ _ => Sifted.exLib_delivers,
    C213_build_refuted (four_ordinary _) (four_complete _) (four_usable _) four_patchy (cleanRun_outcome _ _)
      four_listed.1 (by decide) rfl (by norm_num) fun _ => ⟨0, 1, rfl, by norm_num⟩⟩

/-- Correlations of 1 and 0, all of them significant. -/
def fourPearson (l : List (Num × Num)) : Num × Num :=
  if l.map Prod.snd = [4, 1, 5, 3, 3].map lateNum ∧ (l.map Prod.fst).head? = some (lateNum 4) ∨
      l.map Prod.snd ≠ [4, 1, 5, 3, 3].map lateNum ∧ (l.map Prod.fst).head? = some (lateNum 2)
    then (.fin 1, 0) else (.fin (1 / 4), 0)

example : raisedIn (cleanRun (fourEnv fourPearson) fourTable) = 0 := by decide +kernel

end Verif.EndToEnd
