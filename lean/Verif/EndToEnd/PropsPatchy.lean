import Verif.EndToEnd.PropsCompletes
import Verif.EndToEnd.PropsGaps
import Verif.EndToEnd.PropsSelection
/-!
# Builds with missing performances complete (C216)
-/
set_option autoImplicit false
set_option linter.unusedSectionVars false

namespace Verif.EndToEnd

open Verif (Num)
open Verif.Pipeline (Stg Name defaultStages runner)
open Verif.Metadata (Table Squeezed Begins fromDataFrame)
open Verif.Runner (Dict RunError)

variable {V G : Type} {lower : String → String} {numeric : Squeezed V → Bool} {str : V → V}
  {num : V → Num} {env : Env V (Kept G)} {le : Nat → Late V (Kept G)} {te : Nat → TraceEnv G}
  {t : Table V} {labels : List V} {r : Except (RunError Name Err) (Dict Name (Val V (Kept G)))}

/-- **C216, what can happen.**  Performances may be missing: with all features and algorithms kept and PILOT ready
to run in the numerical mode, `run_all` completes, or raises for one of the three reasons for which it may raise on
a full table (C192).  No missing performance stops Preprocessing, PRELIM, PILOT or CLOISTER. -/
theorem C216_outcome_partial (ho : Ordinary lower env t labels) (hc : CompleteTrace env le te)
    (hu : Usable env le) (hcl : Patchy lower num t) (h : Outcome lower numeric str num env t r)
    {feats algos : List String} (hf : Listed t (Begins lower "feature_") feats)
    (ha : Listed t (Begins lower "algo_") algos) :
    (∃ d, r = .ok d) ∨ ((∃ e, r = .error (.stage (.sifted e))) ∧ 3 < feats.length) ∨
      ((∃ e, r = .error (.stage (.pythia e))) ∧ ∃ k z y b j, Verdicts num env.prelim t algos b ∧
        j < algos.length ∧ Untrainable ((le k).fitted z y b) b j) ∨
      ((∃ e, r = .error (.stage (.trace e))) ∧ ∃ k p, Winners num env.prelim t algos p ∧
        Clash (te k) algos.length t.nrows p) := by
  obtain ⟨feats', algos', hf', ha', h'⟩ := outcome_gaps ho hc hu hcl h
  rwa [listed_unique ho.distinct hf hf', listed_unique ho.distinct ha ha']

/-- Each of the algorithms reaches the threshold `e` on one instance, and on another misses it or has no
performance. -/
def Splits (num : V → Num) (maximise : Bool) (e : ℚ) (t : Table V) (algos : List String) : Prop :=
  ∀ a ∈ algos, (∃ i v q, Cell t a i v ∧ num v = .fin q ∧ if maximise then e ≤ q else q ≤ e) ∧
    ∃ i v, Cell t a i v ∧ (num v = .nan ∨ ∃ q, num v = .fin q ∧ ¬ if maximise then e ≤ q else q ≤ e)

/-- **C216, an absolute threshold.**  With at most three features and an absolute threshold that each algorithm
reaches on one instance and misses on another, where it may have no performance at all, and with trainings that
succeed, `run_all` completes unless two footprints clash in TRACE. -/
theorem C216_threshold_partial (ho : Ordinary lower env t labels) (hc : CompleteTrace env le te)
    (hu : Usable env le) (hcl : Patchy lower num t) (h : Outcome lower numeric str num env t r)
    {feats algos : List String} (hf : Listed t (Begins lower "feature_") feats) (h3 : feats.length ≤ 3)
    (ha : Listed t (Begins lower "algo_") algos) (habs : env.prelim.absPerf = true) {e : ℚ}
    (he : env.prelim.epsilon = .fin e) (hb : Splits num env.prelim.maxPerf e t algos) (htr : Trainable le) :
    (∃ d, r = .ok d) ∨ ((∃ e, r = .error (.stage (.trace e))) ∧
      ∃ k p, Winners num env.prelim t algos p ∧ Clash (te k) algos.length t.nrows p) := by
  rcases C216_outcome_partial ho hc hu hcl h hf ha with h | ⟨-, h⟩ | ⟨-, k, z, y, b, j, hv, hj, hun⟩ | h
  · exact .inl h
  · omega
  · exfalso
    obtain ⟨res, hres⟩ := htr k z y b j
    obtain ⟨v, h1, -⟩ := hun res hres
    have hja : algos[j]? = some algos[j] := List.getElem?_eq_getElem hj
    obtain ⟨⟨i, w, q, c1, c2, c3⟩, i', w', d1, d2⟩ := hb _ (List.getElem_mem hj)
    obtain ⟨row, r1, r2⟩ := (hv.absolute habs e he i j _ w q hja c1 c2).2 c3
    have hvt : v = true := by
      have := h1 row (List.mem_of_getElem? r1)
      rw [r2] at this
      exact (Option.some.inj this).symm
    subst hvt
    have hi' := cell_lt ho.rect d1
    have hib : i' < b.length := by rw [hv.rows]; exact hi'
    have hgood : At b i' j true := ⟨b[i'], List.getElem?_eq_getElem hib, h1 _ (List.getElem_mem hib)⟩
    rcases d2 with d2 | ⟨q', d2, d3⟩
    · exact hv.missing habs e he i' j _ w' hja d1 d2 hgood
    · exact d3 ((hv.absolute habs e he i' j _ w' q' hja d1 d2).1 hgood)
  · exact .inr h

/-- **C216, one winner.**  If moreover TRACE uses the experimental data and one algorithm, with a performance on
every instance, is better than all the others where they have one, `run_all` completes. -/
theorem C216_winner_partial (ho : Ordinary lower env t labels) (hc : CompleteTrace env le te)
    (hu : Usable env le) (hcl : Patchy lower num t) (h : Outcome lower numeric str num env t r)
    {feats algos : List String} (hf : Listed t (Begins lower "feature_") feats) (h3 : feats.length ≤ 3)
    (ha : Listed t (Begins lower "algo_") algos) (habs : env.prelim.absPerf = true) {e : ℚ}
    (he : env.prelim.epsilon = .fin e) (hb : Splits num env.prelim.maxPerf e t algos) (htr : Trainable le)
    (hsim : ∀ k, (te k).useSim = false) {a : String}
    (hd : Dominates num env.prelim.maxPerf t algos a) : ∃ d, r = .ok d := by
  rcases C216_threshold_partial ho hc hu hcl h hf h3 ha habs he hb htr with h | ⟨-, k, p, hw, hk⟩
  · exact h
  · exfalso
    refine one_winner (hc.laws k) ho.rect ho.distinct habs ha (hsim k) hd (fun s v hv => ?_) hw hk
    have hp := (hd.2 s v hv).1.present
    obtain ⟨c, hc1, e, hv⟩ := hv
    rcases hcl.scores c hc1 (e ▸ ((ha.exact a).1 hd.1).2) v (List.mem_of_getElem? hv) with h | h
    · exact absurd h hp
    · exact h

/-- **C216 is false with normalisation and more than three features**: a single missing performance, of whatever
algorithm on whatever instance, and the build raises in SIFTED, whatever the data and the libraries do.  PRELIM
wipes out all performances, so SIFTED finds no correlation and selects no feature. -/
theorem C216_normalised_refuted (ho : Ordinary lower env t labels) (hc : CompleteTrace env le te)
    (hu : Usable env le) (hcl : Patchy lower num t) (h : Outcome lower numeric str num env t r)
    {feats : List String} (hf : Listed t (Begins lower "feature_") feats) (h3 : 3 < feats.length)
    (hnorm : env.prelim.norm = true) {thr : ℚ} (hthr : env.thr = .fin thr) (hpos : 0 < thr)
    {a : String} {i : Nat} {v : V} (hb : Begins lower "algo_" a) (hv : Cell t a i v) (hn : num v = .nan) :
    r = .error (.stage (.sifted .notEnoughFeatures)) := by
  obtain ⟨feats', algos', hf', ha', x, y, yb, hpt, -, h'⟩ := outcome_patchy ho hc hu hcl h
  rw [← listed_unique ho.distinct hf hf'] at *
  obtain ⟨X, Y, ys, -, lY, hys, -, hy⟩ := hpt.made
  have ha : a ∈ algos' := (ha'.exact a).2 ⟨by
    obtain ⟨c, hc, e, -⟩ := hv
    exact ⟨c, hc, e⟩, hb⟩
  have hi := cell_lt ho.rect hv
  have hiY : i < Y.length := by rw [lY.nrows]; simpa using hi
  have hgap : ∃ r ∈ Y, .nan ∈ r :=
    ⟨Y[i], List.getElem_mem hiY, ((located_row lY (range_get hi) (List.getElem?_eq_getElem hiY)).2.2 _).2
      ⟨a, ha, v, hv, hn⟩⟩
  have hw := outY_wiped hnorm hys lY.ncols hgap
  have key := siftedResult_uncorrelated (yb := yb) hpt h3 hthr hpos fun p _ q hq => by
    left
    unfold Sifted.validPairs
    rw [List.filter_eq_nil_iff]
    intro z hz
    have hq2 := (List.of_mem_zip (a := z.1) (b := z.2) hz).2
    obtain ⟨j, -, rfl⟩ := List.mem_map.1 hq
    obtain ⟨row, hrow, he⟩ := List.mem_map.1 hq2
    rw [hy] at hrow
    obtain ⟨k, -, rfl⟩ := List.mem_map.1 hrow
    have hz2 : z.2 = .nan := by
      rw [← he, List.getD_eq_getElem?_getD, List.getElem?_map]
      cases hc : ys[j]? with
      | none => rfl
      | some c =>
        rw [Option.map_some, Option.getD_some, List.getD_eq_getElem?_getD]
        cases hk : c[k]? with
        | none => rfl
        | some w => exact hw c (List.mem_of_getElem? hc) w (List.mem_of_getElem? hk)
    rw [hz2]
    simp [Num.isNan]
  rcases h' with ⟨e, h1, h4, -⟩ | ⟨⟨o, h1⟩, -⟩
  · rw [key] at h4
    cases h4
    exact h1
  · rw [key] at h1
    cases h1

/-! ### Examples and the refutation -/

/-- `t'` is `t` with the missing performances filled in. -/
def FillsIn (num : V → Num) (t t' : Table V) : Prop :=
  t'.nrows = t.nrows ∧ t'.cols.map Prod.fst = t.cols.map Prod.fst ∧
    ∀ a i v v', Cell t a i v → Cell t' a i v' → num v = .nan ∨ num v' = num v

/-- The full claim: a build that completes on a full table completes when some of its performances are missing,
whatever the mode of PILOT. -/
def GapsHarmless : Prop :=
  ∀ (env : Env Nat (Kept (List (ℚ × ℚ)))) (le : Nat → Late Nat (Kept (List (ℚ × ℚ))))
    (te : Nat → TraceEnv (List (ℚ × ℚ))) (t t' : Table Nat) (labels : List Nat)
    (r r' : Except (RunError Name Err) (Dict Name (Val Nat (Kept (List (ℚ × ℚ)))))),
    Ordinary id env t labels → CompleteTrace env le te → Patchy id holeNum t → FillsIn holeNum t t' →
    Splits holeNum env.prelim.maxPerf 2 t ["algo_p", "algo_q"] → Trainable le →
    Outcome id (fun _ => false) id holeNum env t' r' → (∃ d, r' = .ok d) →
    Outcome id (fun _ => false) id holeNum env t r → ∃ d, r = .ok d

/-- Six instances; the second algorithm has no performance on the second one, and reaches the threshold 2 on all
the others. -/
def holeTable : Table Nat := cleanTable [4, 1, 5, 4, 3, 5] [2, 9, 3, 3, 2, 4]

theorem hole_patchy : Patchy id holeNum holeTable := by
  have hcl : Clean id lateNum (cleanTable [4, 1, 5, 4, 3, 5] [2, 9, 3, 3, 2, 4]) :=
    clean_of rfl (by decide) (by decide) (by decide) (by decide) (by decide)
  have hfeat : ∀ c ∈ holeTable.cols, Begins id "feature_" c.1 → ∀ v ∈ c.2, holeNum v = lateNum v := by
    intro c hc hb
    simp only [holeTable, cleanTable, List.mem_cons, List.not_mem_nil, or_false] at hc
    rcases hc with rfl | rfl | rfl | rfl | rfl
    · exact absurd hb (by simp [begins_table])
    · decide
    · decide
    · exact absurd hb (by simp [begins_table])
    · exact absurd hb (by simp [begins_table])
  refine ⟨by decide, ?_, ?_, ?_, hcl.features, hcl.algorithms, ?_, ?_⟩
  · intro c hc hb v hv
    exact ⟨v, hfeat c hc hb v hv⟩
  · intro c hc hb v hv
    by_cases h : v = 9
    · exact .inl (by simp [holeNum, h])
    · exact .inr ⟨v, by simp [holeNum, h]⟩
  · intro i hi
    have hp : ∀ i < 6, ∃ v, [4, 1, 5, 4, 3, 5][i]? = some v ∧ v ≠ 9 := by decide
    obtain ⟨v, hv, h9⟩ := hp i hi
    exact ⟨"algo_p", v, v, by simp [begins_table], cell_col (l := [4, 1, 5, 4, 3, 5]) (by simp) hv,
      by simp [holeNum, h9]⟩
  · intro c hc hb q
    rw [List.map_congr_left (hfeat c hc hb)]
    exact hcl.spread c hc hb q
  · intro c hc hb
    simp only [holeTable, cleanTable, List.mem_cons, List.not_mem_nil, or_false] at hc
    rcases hc with rfl | rfl | rfl | rfl | rfl
    · exact absurd hb (by simp [begins_table])
    · exact absurd hb (by simp [begins_table])
    · exact absurd hb (by simp [begins_table])
    · exact ⟨4, by simp, 5, by simp, 4, 5, by simp [holeNum], by simp [holeNum], by norm_num⟩
    · exact ⟨2, by simp, 3, by simp, 2, 3, by simp [holeNum], by simp [holeNum], by norm_num⟩

theorem hole_splits : Splits holeNum true 2 holeTable ["algo_p", "algo_q"] := by
  intro a ha
  simp only [List.mem_cons, List.not_mem_nil, or_false] at ha
  rcases ha with rfl | rfl
  · exact ⟨⟨0, 4, 4, cell_col (l := [4, 1, 5, 4, 3, 5]) (by simp) rfl, by simp [holeNum], by norm_num⟩,
      1, 1, cell_col (l := [4, 1, 5, 4, 3, 5]) (by simp) rfl, .inr ⟨1, by simp [holeNum], by norm_num⟩⟩
  · exact ⟨⟨0, 2, 2, cell_col (l := [2, 9, 3, 3, 2, 4]) (by simp) rfl, by simp [holeNum], by norm_num⟩,
      1, 9, cell_col (l := [2, 9, 3, 3, 2, 4]) (by simp) rfl, .inl rfl⟩

theorem hole_ordinary {env : Env Nat (Kept (List (ℚ × ℚ)))} {le te} (hc : CompleteTrace env le te)
    (hs : env.subset = noSubset) : Ordinary id env holeTable [10, 11, 12, 13, 14, 15] :=
  clean_ordinary hc hs (cleanTable_rect rfl rfl) rfl (by decide)

theorem gapRun_outcome (env : Env Nat (Kept (List (ℚ × ℚ)))) (t : Table Nat) :
    Outcome id (fun _ => false) id holeNum env t (gapRun env t) :=
  ⟨defaultStages, Pipeline.listOrder, Pipeline.defaultSchedule, [], .refl _, Pipeline.default_once, rfl⟩

theorem hole_filled : FillsIn holeNum holeTable (cleanTable [4, 1, 5, 4, 3, 5] [2, 0, 3, 3, 2, 4]) := by
  refine ⟨rfl, rfl, ?_⟩
  rintro a i v v' ⟨c, hc, he, hv⟩ ⟨c', hc', he', hv'⟩
  simp only [holeTable, cleanTable, List.mem_cons, List.not_mem_nil, or_false] at hc hc'
  rcases hc with rfl | rfl | rfl | rfl | rfl <;> rcases hc' with rfl | rfl | rfl | rfl | rfl <;>
    (subst he; first | (simp at he'; done) | skip) <;> dsimp only at hv hv'
  · exact .inr (by rw [Option.some.inj (hv.symm.trans hv')])
  · exact .inr (by rw [Option.some.inj (hv.symm.trans hv')])
  · exact .inr (by rw [Option.some.inj (hv.symm.trans hv')])
  · exact .inr (by rw [Option.some.inj (hv.symm.trans hv')])
  · match i with
    | 0 | 2 | 3 | 4 | 5 => exact .inr (by rw [Option.some.inj (hv.symm.trans hv')])
    | 1 => exact .inl (by rw [← Option.some.inj hv]; rfl)
    | _ + 6 => simp at hv

/-- **C216 is false in the analytic mode**: on the table with the missing performance filled in the build
completes, on the table with the gap PILOT raises. -/
theorem C216_analytic_refuted : ¬ GapsHarmless := by
  intro h
  obtain ⟨d, hd, -⟩ := gapRun_succeeds (env := squareEnv) (t := cleanTable [4, 1, 5, 4, 3, 5] [2, 0, 3, 3, 2, 4])
    (by decide +kernel)
  obtain ⟨d', hd'⟩ := h squareEnv squareLate (exTrace false) holeTable
    (cleanTable [4, 1, 5, 4, 3, 5] [2, 0, 3, 3, 2, 4]) _ _ _ (hole_ordinary square_complete rfl) square_complete
    hole_patchy hole_filled hole_splits (fun _ _ _ _ _ => ⟨_, rfl⟩) (gapRun_outcome _ _) ⟨d, hd⟩
    (gapRun_outcome _ _)
  have : raisedIn (gapRun squareEnv holeTable) = 4 := by decide +kernel
  rw [hd'] at this
  cases this

/-- Non-vacuity: the table with a gap, on which the first algorithm is better wherever the second has a
performance, meets all hypotheses, and the build completes. -/
example :
    Ordinary id (allEnv false) holeTable [10, 11, 12, 13, 14, 15] ∧
    CompleteTrace (allEnv false) (allLate false) (exTrace false) ∧ Usable (allEnv false) (allLate false) ∧
    Patchy id holeNum holeTable ∧ ¬ Clean id holeNum holeTable ∧
    Listed holeTable (Begins id "feature_") ["feature_a", "feature_b"] ∧
    Listed holeTable (Begins id "algo_") ["algo_p", "algo_q"] ∧ (allEnv false).prelim.absPerf = true ∧
    (allEnv false).prelim.epsilon = .fin 2 ∧
    Splits holeNum (allEnv false).prelim.maxPerf 2 holeTable ["algo_p", "algo_q"] ∧
    Trainable (allLate false) ∧ (∀ k, (exTrace false k).useSim = false) ∧
    Dominates holeNum (allEnv false).prelim.maxPerf holeTable ["algo_p", "algo_q"] "algo_p" ∧
    raisedIn (gapRun (allEnv false) holeTable) = 0 := by
  refine ⟨hole_ordinary (all_complete false) rfl, all_complete false, all_usable false, hole_patchy, ?_,
    listed_of.1, listed_of.2, rfl, rfl, hole_splits, fun _ _ _ _ _ => ⟨_, rfl⟩, fun _ => rfl, ⟨by simp, ?_⟩,
    by decide +kernel⟩
  · intro h
    obtain ⟨q, hq⟩ := h.finite ("algo_q", [2, 9, 3, 3, 2, 4]) (by simp [holeTable, cleanTable])
      (.inr (by simp [begins_table])) 9 (by simp)
    cases hq
  · have hp : ∀ i v, Cell holeTable "algo_p" i v → [4, 1, 5, 4, 3, 5][i]? = some v := by
      rintro i v ⟨c, hc, he, hv⟩
      simp only [holeTable, cleanTable, List.mem_cons, List.not_mem_nil, or_false] at hc
      rcases hc with rfl | rfl | rfl | rfl | rfl <;> simp at he
      exact hv
    have hq : ∀ i v, Cell holeTable "algo_q" i v → [2, 9, 3, 3, 2, 4][i]? = some v := by
      rintro i v ⟨c, hc, he, hv⟩
      simp only [holeTable, cleanTable, List.mem_cons, List.not_mem_nil, or_false] at hc
      rcases hc with rfl | rfl | rfl | rfl | rfl <;> simp at he
      exact hv
    have hlt : ∀ i v w : Nat, [4, 1, 5, 4, 3, 5][i]? = some v → [2, 9, 3, 3, 2, 4][i]? = some w →
        holeNum v = .fin v ∧ (w = 9 ∨ w < v) := by
      intro i v w h1 h2
      match i with
      | 0 | 1 | 2 | 3 | 4 | 5 => simp at h1 h2; subst h1; subst h2; simp [holeNum]
      | _ + 6 => simp at h1
    intro i v hv
    have h1 := hp i v hv
    obtain ⟨w, h2⟩ : ∃ w, [2, 9, 3, 3, 2, 4][i]? = some w := by
      have : i < 6 := (List.getElem?_eq_some_iff.1 h1).1
      exact ⟨_, List.getElem?_eq_getElem this⟩
    have hvn := (hlt i v w h1 h2).1
    refine ⟨⟨⟨"algo_p", by simp, v, hv, rfl⟩, by rw [hvn]; simp, ?_⟩, ?_⟩
    · intro a ha v' hv' hn
      simp only [List.mem_cons, List.not_mem_nil, or_false] at ha
      rcases ha with rfl | rfl
      · rw [Option.some.inj ((hp i v' hv').symm.trans h1), hvn]
        simp [Prelim.AtLeastAsGood, allEnv, lateEnv, smallEnv, Num.le]
      · rcases (hlt i v v' h1 (hq i v' hv')).2 with h | h
        · exact absurd (by simp [holeNum, h]) hn
        · rw [hvn]
          have : v' ≠ 9 := fun e => hn (by simp [holeNum, e])
          simp only [holeNum, if_neg this, Prelim.AtLeastAsGood, allEnv, lateEnv, smallEnv, Num.le]
          simp
          omega
    · intro a' ha' hne v' hv'
      simp only [List.mem_cons, List.not_mem_nil, or_false] at ha'
      rcases ha' with rfl | rfl
      · exact absurd rfl hne
      · rw [hvn]
        rcases (hlt i v v' h1 (hq i v' hv')).2 with h | h
        · simp [holeNum, h]
        · unfold holeNum
          split
          · simp
          · simp
            omega

/-- The table of `fourTable` with the performance of the second algorithm on the second instance missing. -/
def fourHole : Table Nat :=
  ⟨5, [("instances", [10, 11, 12, 13, 14]), ("feature_a", [1, 2, 3, 4, 5]), ("feature_b", [1, 5, 2, 4, 3]),
    ("feature_c", [2, 5, 1, 4, 3]), ("feature_d", [4, 1, 2, 5, 3]), ("algo_p", [4, 1, 5, 3, 3]),
    ("algo_q", [2, 9, 1, 1, 2])]⟩

/-- The pipeline of `fourEnv` with or without normalisation. -/
def fourNorm (norm : Bool) : Env Nat (Kept (List (ℚ × ℚ))) :=
  { fourEnv fourPearson with prelim := { (fourEnv fourPearson).prelim with norm := norm } }

theorem fourNorm_complete (b : Bool) : CompleteTrace (fourNorm b) (allLate false) (exTrace false) :=
  ⟨fun _ _ _ => rfl, fun _ => rfl, fun _ => dots_laws, (all_complete false).order⟩

theorem fourNorm_usable (b : Bool) : Usable (fourNorm b) (allLate false) where
  allFeatures := rfl
  allAlgorithms := rfl
  transforms l _ := ⟨l, rfl, rfl⟩
  pilot := pilot_ready false
  sized := all_sized false

theorem fourHole_ordinary (b : Bool) : Ordinary id (fourNorm b) fourHole [10, 11, 12, 13, 14] where
  rect := by
    intro c hc
    simp only [fourHole, List.mem_cons, List.not_mem_nil, or_false] at hc
    rcases hc with rfl | rfl | rfl | rfl | rfl | rfl | rfl <;> rfl
  distinct := by simp [fourHole]
  several := by decide
  labels := ⟨"instances", rfl⟩
  sources := Nat.zero_le _
  tuples := (fourNorm_complete b).complete.tuples
  noFraction := by simp [Prelim.UsesFraction, fourNorm, fourEnv, allEnv, noSubset]
  noFile := by simp [Prelim.UsesFile, fourNorm, fourEnv, allEnv, noSubset]
  noDensity := by simp [Prelim.UsesDensity, Prelim.AsksDensity, fourNorm, fourEnv, allEnv, noSubset]

theorem fourHole_patchy : Patchy id holeNum fourHole := by
  have hfeat : ∀ c ∈ fourHole.cols, Begins id "feature_" c.1 → c ∈ fourTable.cols ∧
      ∀ v ∈ c.2, holeNum v = lateNum v := by
    intro c hc hb
    simp only [fourHole, List.mem_cons, List.not_mem_nil, or_false] at hc
    rcases hc with rfl | rfl | rfl | rfl | rfl | rfl | rfl <;>
      first
        | exact ⟨by simp [fourTable], by decide⟩
        | exact absurd hb (by simp [begins_table])
  refine ⟨by decide, ?_, ?_, ?_, ?_, ?_, ?_, ?_⟩
  · intro c hc hb v hv
    exact ⟨v, (hfeat c hc hb).2 v hv⟩
  · intro c hc hb v hv
    by_cases h : v = 9
    · exact .inl (by simp [holeNum, h])
    · exact .inr ⟨v, by simp [holeNum, h]⟩
  · intro i hi
    have hp : ∀ i < 5, ∃ v, [4, 1, 5, 3, 3][i]? = some v ∧ v ≠ 9 := by decide
    obtain ⟨v, hv, h9⟩ := hp i hi
    exact ⟨"algo_p", v, v, by simp [begins_table], ⟨("algo_p", [4, 1, 5, 3, 3]), by simp [fourHole], rfl, hv⟩,
      by simp [holeNum, h9]⟩
  · exact ⟨("feature_a", [1, 2, 3, 4, 5]), by simp [fourHole], ("feature_b", [1, 5, 2, 4, 3]),
      by simp [fourHole], by simp, by simp [begins_table], by simp [begins_table]⟩
  · exact ⟨("algo_p", [4, 1, 5, 3, 3]), by simp [fourHole], ("algo_q", [2, 9, 1, 1, 2]),
      by simp [fourHole], by simp, by simp [begins_table], by simp [begins_table]⟩
  · intro c hc hb q
    rw [List.map_congr_left (hfeat c hc hb).2]
    exact four_clean.spread c (hfeat c hc hb).1 hb q
  · intro c hc hb
    simp only [fourHole, List.mem_cons, List.not_mem_nil, or_false] at hc
    rcases hc with rfl | rfl | rfl | rfl | rfl | rfl | rfl
    · exact absurd hb (by simp [begins_table])
    · exact absurd hb (by simp [begins_table])
    · exact absurd hb (by simp [begins_table])
    · exact absurd hb (by simp [four_begins])
    · exact absurd hb (by simp [four_begins])
    · exact ⟨4, by simp, 1, by simp, 4, 1, by simp [holeNum], by simp [holeNum], by norm_num⟩
    · exact ⟨2, by simp, 1, by simp, 2, 1, by simp [holeNum], by simp [holeNum], by norm_num⟩

theorem fourHole_listed :
    Listed fourHole (Begins id "feature_") ["feature_a", "feature_b", "feature_c", "feature_d"] := by
  refine ⟨?_, ?_⟩
  · change List.Sublist _ ["instances", "feature_a", "feature_b", "feature_c", "feature_d", "algo_p", "algo_q"]
    decide
  intro a
  simp only [List.mem_cons, List.not_mem_nil, or_false]
  constructor
  · intro h
    rcases h with rfl | rfl | rfl | rfl <;>
      exact ⟨by simp [fourHole], by simp [begins_table, four_begins]⟩
  · rintro ⟨⟨c, hc, rfl⟩, hb⟩
    simp only [fourHole, List.mem_cons, List.not_mem_nil, or_false] at hc
    rcases hc with rfl | rfl | rfl | rfl | rfl | rfl | rfl <;>
      first | simp; done | exact absurd hb (by simp [begins_table, four_begins])

/-- Non-vacuity of `C216_normalised_refuted`: the table with four features and one gap meets all hypotheses. -/
example : gapRun (fourNorm true) fourHole = .error (.stage (.sifted .notEnoughFeatures)) :=
  C216_normalised_refuted (fourHole_ordinary true) (fourNorm_complete true) (fourNorm_usable true) fourHole_patchy
    (gapRun_outcome _ _) fourHole_listed (by decide) rfl (thr := 1 / 2) rfl (by norm_num) (a := "algo_q") (i := 1)
    (v := 9) (by simp [begins_table]) ⟨("algo_q", [2, 9, 1, 1, 2]), by simp [fourHole], rfl, rfl⟩ rfl

-- Without normalisation, or without the gap, the same build gets past SIFTED.
example : raisedIn (gapRun (fourNorm false) fourHole) ≠ 3 ∧ raisedIn (gapRun (fourNorm true) fourTable) ≠ 3 := by
  decide +kernel

end Verif.EndToEnd
