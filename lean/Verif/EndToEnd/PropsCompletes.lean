import Verif.EndToEnd.PropsTrace
import Verif.EndToEnd.AssembleLemmas
/-!
# On clean data a build completes (C192)
-/
set_option autoImplicit false
set_option linter.unusedSectionVars false

namespace Verif.EndToEnd

open Verif (Num)
open Verif.Pipeline (Stg Name defaultStages runner)
open Verif.Metadata (Table Squeezed Begins fromDataFrame)
open Verif.Runner (Dict RunError)

variable {V G : Type} {lower : String → String} {numeric : Squeezed V → Bool} {str : V → V}
  {num : V → Num} {env : Env V (Kept G)} {le : Nat → Late V (Kept G)} {te : Nat → TraceEnv G}
  {t : Table V} {labels : List V} {r : Except (RunError Name Err) (Dict Name (Val V (Kept G)))}

theorem sublist_filter_mem {α : Type} [DecidableEq α] {l L : List α} (h : l.Sublist L) (hn : L.Nodup) :
    l = L.filter fun a => decide (a ∈ l) := by
  induction h with
  | slnil => rfl
  | @cons l L a h ih =>
    rw [List.nodup_cons] at hn
    have : a ∉ l := fun hm => hn.1 (h.subset hm)
    simpa [this] using ih hn.2
  | @cons_cons l L a h ih =>
    rw [List.nodup_cons] at hn
    have e : L.filter (fun b => decide (b ∈ a :: l)) = L.filter fun b => decide (b ∈ l) := by
      apply List.filter_congr
      intro b hb
      have : b ≠ a := fun e => hn.1 (e ▸ hb)
      simp [this]
    rw [List.filter_cons_of_pos (by simp), e, ← ih hn.2]

theorem listed_unique {Q : String → Prop} {l l' : List String} (hn : (t.cols.map Prod.fst).Nodup)
    (h : Listed t Q l) (h' : Listed t Q l') : l = l' := by
  rw [sublist_filter_mem h.inOrder hn, sublist_filter_mem h'.inOrder hn]
  apply List.filter_congr
  intro a _
  rw [decide_eq_decide, h.exact, h'.exact]

/-- **C192, what can happen.**  On a clean table, with all features and algorithms kept and PILOT ready to
run, `run_all` completes, or it raises in SIFTED, which takes more than three features, or in PYTHIA because
an algorithm cannot be trained on the verdicts on the table, or in TRACE because two footprints clash.  No
other stage raises, and no stage is handed anything it does not expect. -/
theorem C192_outcome_partial (ho : Ordinary lower env t labels) (hc : CompleteTrace env le te)
    (hu : Usable env le) (hcl : Clean lower num t) (h : Outcome lower numeric str num env t r)
    {feats algos : List String} (hf : Listed t (Begins lower "feature_") feats)
    (ha : Listed t (Begins lower "algo_") algos) :
    (∃ d, r = .ok d) ∨ ((∃ e, r = .error (.stage (.sifted e))) ∧ 3 < feats.length) ∨
      ((∃ e, r = .error (.stage (.pythia e))) ∧ ∃ k z y b j, Verdicts num env.prelim t algos b ∧
        j < algos.length ∧ Untrainable ((le k).fitted z y b) b j) ∨
      ((∃ e, r = .error (.stage (.trace e))) ∧ ∃ k p, Winners num env.prelim t algos p ∧
        Clash (te k) algos.length t.nrows p) := by
  obtain ⟨feats', algos', hf', ha', h'⟩ := outcome_clean ho hc hu hcl h
  rwa [listed_unique ho.distinct hf hf', listed_unique ho.distinct ha ha']

/-- Each of the algorithms reaches the threshold `e` on one instance and misses it on another. -/
def BothSides (num : V → Num) (maximise : Bool) (e : ℚ) (t : Table V) (algos : List String) : Prop :=
  ∀ a ∈ algos, (∃ i v q, Cell t a i v ∧ num v = .fin q ∧ if maximise then e ≤ q else q ≤ e) ∧
    ∃ i v q, Cell t a i v ∧ num v = .fin q ∧ ¬ if maximise then e ≤ q else q ≤ e

/-- The library trains a model whatever it is given. -/
def Trainable (le : Nat → Late V (Kept G)) : Prop :=
  ∀ k z y b j, ∃ res, (le k).fitted z y b j = .ok res

/-- **C192, an absolute threshold.**  On a clean table with at most three features and an absolute threshold
that each algorithm reaches on one instance and misses on another, and with trainings that succeed, `run_all`
completes or two footprints clash in TRACE. -/
theorem C192_threshold_partial (ho : Ordinary lower env t labels) (hc : CompleteTrace env le te)
    (hu : Usable env le) (hcl : Clean lower num t) (h : Outcome lower numeric str num env t r)
    {feats algos : List String} (hf : Listed t (Begins lower "feature_") feats) (h3 : feats.length ≤ 3)
    (ha : Listed t (Begins lower "algo_") algos) (habs : env.prelim.absPerf = true) {e : ℚ}
    (he : env.prelim.epsilon = .fin e) (hb : BothSides num env.prelim.maxPerf e t algos)
    (htr : Trainable le) :
    (∃ d, r = .ok d) ∨ ((∃ e, r = .error (.stage (.trace e))) ∧
      ∃ k p, Winners num env.prelim t algos p ∧ Clash (te k) algos.length t.nrows p) := by
  rcases C192_outcome_partial ho hc hu hcl h hf ha with h | ⟨-, h⟩ | ⟨-, k, z, y, b, j, hv, hj, hun⟩ | h
  · exact .inl h
  · omega
  · exfalso
    obtain ⟨res, hres⟩ := htr k z y b j
    obtain ⟨v, h1, -⟩ := hun res hres
    have hja : algos[j]? = some algos[j] := List.getElem?_eq_getElem hj
    obtain ⟨⟨i, w, q, c1, c2, c3⟩, i', w', q', d1, d2, d3⟩ := hb _ (List.getElem_mem hj)
    obtain ⟨row, r1, r2⟩ := (hv.absolute habs e he i j _ w q hja c1 c2).2 c3
    have hvt : v = true := by
      have := h1 row (List.mem_of_getElem? r1)
      rw [r2] at this
      exact (Option.some.inj this).symm
    subst hvt
    apply d3
    refine (hv.absolute habs e he i' j _ w' q' hja d1 d2).1 ?_
    have hi' : i' < b.length := by rw [hv.rows]; exact cell_lt ho.rect d1
    exact ⟨b[i'], List.getElem?_eq_getElem hi', h1 _ (List.getElem_mem hi')⟩
  · exact .inr h

/-- One algorithm is better than all the others on every instance. -/
def Dominates (num : V → Num) (maximise : Bool) (t : Table V) (algos : List String) (a : String) : Prop :=
  a ∈ algos ∧ ∀ i v, Cell t a i v → BestCell num maximise t algos i (num v) ∧
    ∀ a' ∈ algos, a' ≠ a → ∀ v', Cell t a' i v' → num v' ≠ num v

/-- If one algorithm is better than all the others on every instance, no two footprints clash. -/
theorem one_winner {te : TraceEnv G} (laws : Trace.Laws te.geo) (hrect : t.Rect)
    (hdist : (t.cols.map Prod.fst).Nodup) {o : Prelim.Opts} (habs : o.absPerf = true) {algos : List String}
    (ha : Listed t (Begins lower "algo_") algos) (hsim : te.useSim = false) {a : String}
    (hd : Dominates num o.maxPerf t algos a) (hfin : ∀ s v, Cell t a s v → ∃ q, num v = .fin q) {p : List Nat}
    (hw : Winners num o t algos p) (hk : Clash te algos.length t.nrows p) : False := by
  obtain ⟨z, best, i, j, b, g, hz, hbest, hp, hij, hj, hi1, hj1, -⟩ := hk
  rw [hp hsim] at hi1 hj1
  obtain ⟨ia, hia, hia'⟩ := List.getElem_of_mem hd.1
  have hnd : algos.Nodup := ha.inOrder.nodup hdist
  obtain ⟨⟨c, hc1, rfl⟩, -⟩ := (ha.exact a).1 hd.1
  have hall : ∀ x ∈ p, x = ia + 1 := by
    intro x hx
    obtain ⟨s, hs, rfl⟩ := List.getElem_of_mem hx
    have hlen : s < c.2.length := by rw [hrect c hc1, ← hw.rows]; exact hs
    have hcell : Cell t c.1 s c.2[s] := ⟨c, hc1, rfl, List.getElem?_eq_getElem hlen⟩
    obtain ⟨hbc, hother⟩ := hd.2 s _ hcell
    obtain ⟨q, hq⟩ := hfin s _ hcell
    rw [hq] at hbc hother
    obtain ⟨j', a', v', h1, h2, h4, h5, -⟩ := hw.first s q hbc (.inr (.inl habs))
    have haa : a' = c.1 := by
      by_contra hne
      exact hother a' (List.mem_of_getElem? h2) hne v' h4 h5
    obtain ⟨hj', hj''⟩ := List.getElem?_eq_some_iff.1 h2
    have : j' = ia := (List.Nodup.getElem_inj_iff hnd).1 (by rw [hj'', haa, hia'])
    rw [List.getElem?_eq_getElem hs, this] at h1
    exact Option.some.inj h1
  have hnone : ∀ i, i ≠ ia + 1 →
      (Trace.build te.geo te.purity z (Trace.bestMask p i)).polygon = none := by
    intro i hi
    have hm : ∀ (z : List (Fin 2 → ℚ)) (p : List Nat), (∀ x ∈ p, x = ia + 1) →
        Trace.masked z (Trace.bestMask p i) = [] := by
      intro z p
      induction p generalizing z with
      | nil => intro _; cases z <;> rfl
      | cons x p ih =>
        intro hp
        cases z with
        | nil => rfl
        | cons y z =>
          have h1 := hp x (by simp)
          have h2 := ih z fun x hx => hp x (List.mem_cons_of_mem _ hx)
          have : x ≠ i := by rw [h1]; exact Ne.symm hi
          simpa [Trace.masked, Trace.bestMask, this] using h2
    have hu := laws.unique_length (Trace.masked z (Trace.bestMask p i))
    unfold Trace.build
    dsimp only
    rw [if_pos (lt_of_le_of_lt hu (by rw [hm z p hall]; simp))]
    rfl
  by_cases hi : i = ia + 1
  · rw [hnone j (by omega)] at hj1
    cases hj1
  · rw [hnone i hi] at hi1
    cases hi1

/-- **C192, one winner.**  If moreover TRACE uses the experimental data and one algorithm is better than all
the others on every instance, `run_all` completes. -/
theorem C192_winner_partial (ho : Ordinary lower env t labels) (hc : CompleteTrace env le te)
    (hu : Usable env le) (hcl : Clean lower num t) (h : Outcome lower numeric str num env t r)
    {feats algos : List String} (hf : Listed t (Begins lower "feature_") feats) (h3 : feats.length ≤ 3)
    (ha : Listed t (Begins lower "algo_") algos) (habs : env.prelim.absPerf = true) {e : ℚ}
    (he : env.prelim.epsilon = .fin e) (hb : BothSides num env.prelim.maxPerf e t algos)
    (htr : Trainable le) (hsim : ∀ k, (te k).useSim = false) {a : String}
    (hd : Dominates num env.prelim.maxPerf t algos a) : ∃ d, r = .ok d := by
  rcases C192_threshold_partial ho hc hu hcl h hf h3 ha habs he hb htr with h | ⟨-, k, p, hw, hk⟩
  · exact h
  · exfalso
    exact one_winner (hc.laws k) ho.rect ho.distinct habs ha (hsim k) hd (fun s v hv => by
      obtain ⟨c, hc1, e, hv⟩ := hv
      exact hcl.finite c hc1 (.inr (e ▸ ((ha.exact a).1 hd.1).2)) v (List.mem_of_getElem? hv)) hw hk

/-! ### Examples -/

/-- The six instances of `traceTable` with other performances. -/
def cleanTable (p q : List Nat) : Table Nat :=
  ⟨6, [("instances", [10, 11, 12, 13, 14, 15]), ("feature_a", [1, 2, 3, 1, 2, 5]),
    ("feature_b", [1, 5, 2, 4, 1, 3]), ("algo_p", p), ("algo_q", q)]⟩

/-- The run on a table. -/
def cleanRun (env : Env Nat (Kept (List (ℚ × ℚ)))) (t : Table Nat) :
    Except (RunError Name Err) (Dict Name (Val Nat (Kept (List (ℚ × ℚ))))) :=
  Runner.contents (Runner.runAll (runner defaultStages Pipeline.defaultSchedule (run env))
    Runner.State.init (args env lateNum (fromDataFrame id (fun _ => false) id t)))

theorem cleanRun_outcome (env : Env Nat (Kept (List (ℚ × ℚ)))) (t : Table Nat) :
    Outcome id (fun _ => false) id lateNum env t (cleanRun env t) :=
  ⟨defaultStages, Pipeline.listOrder, Pipeline.defaultSchedule, [], .refl _, Pipeline.default_once, rfl⟩

/-- TRACE with PYTHIA's results and a low threshold for the purity. -/
def clashTrace (_ : Nat) : TraceEnv (List (ℚ × ℚ)) := ⟨dots, 1 / 4, true, fun n => List.range n⟩

/-- The stages of `allLate` with this TRACE. -/
def clashLate (k : Nat) : Late Nat (Kept (List (ℚ × ℚ))) :=
  { allLate true k with trace := runTrace (clashTrace k) }

/-- The pipeline with them. -/
def clashEnv : Env Nat (Kept (List (ℚ × ℚ))) :=
  { allEnv true with rest := fun k s vs => runLate (clashLate k) s vs }

/-- Nine instances, three of them with the same features. -/
def clashTable : Table Nat :=
  ⟨9, [("instances", [10, 11, 12, 13, 14, 15, 16, 17, 18]), ("feature_a", [1, 1, 1, 2, 3, 4, 5, 6, 7]),
    ("feature_b", [1, 1, 1, 5, 2, 4, 3, 6, 2]), ("algo_p", [4, 4, 1, 3, 3, 3, 1, 1, 1]),
    ("algo_q", [1, 1, 4, 1, 1, 1, 3, 3, 3])]⟩

theorem clash_complete : CompleteTrace clashEnv clashLate clashTrace :=
  ⟨fun _ _ _ => rfl, fun _ => rfl, fun _ => dots_laws, fun _ _ => .refl _⟩

theorem pilot_ready (sim : Bool) (k : Nat) : PilotReady (allLate sim k) where
  numerical _ _ := rfl
  tries _ _ := le_refl _
  given n q g hg := by
    have : (some [_] : Option (List _)) = some g := hg
    cases this
    exact le_refl _
  starts x hx := by cases hx
  alpha n q shape values h := by cases h

theorem all_sized (sim : Bool) (k : Nat) (z y : Preprocessing.Mat Num) (b : List (List Bool)) (j : Nat)
    (res : Pythia.SvmRes) (h : (allLate sim k).fitted z y b j = .ok res) : Pythia.Sized b.length res := by
  cases h
  simp [Pythia.Sized]

theorem all_usable (sim : Bool) : Usable (allEnv sim) (allLate sim) where
  allFeatures := rfl
  allAlgorithms := rfl
  transforms l _ := ⟨l, rfl, rfl⟩
  pilot := pilot_ready sim
  sized := all_sized sim

theorem clash_usable : Usable clashEnv clashLate where
  allFeatures := rfl
  allAlgorithms := rfl
  transforms l _ := ⟨l, rfl, rfl⟩
  pilot k := ⟨(pilot_ready true k).numerical, (pilot_ready true k).tries, (pilot_ready true k).given,
    (pilot_ready true k).starts, (pilot_ready true k).alpha⟩
  sized := all_sized true

theorem clean_ordinary {env : Env Nat (Kept (List (ℚ × ℚ)))} {le te} (hc : CompleteTrace env le te)
    (hs : env.subset = noSubset) {t : Table Nat} (hr : t.Rect) {fa fb p q l : List Nat} {n : Nat}
    (ht : t = ⟨n, [("instances", l), ("feature_a", fa), ("feature_b", fb), ("algo_p", p), ("algo_q", q)]⟩)
    (hn : n ≠ 1) : Ordinary id env t l where
  rect := hr
  distinct := by rw [ht]; simp
  several := by rw [ht]; exact hn
  labels := ⟨"instances", by rw [ht]; rfl⟩
  sources := by rw [ht]; exact Nat.zero_le _
  tuples := hc.complete.tuples
  noFraction := by rw [hs]; simp [Prelim.UsesFraction, noSubset]
  noFile := by rw [hs]; simp [Prelim.UsesFile, noSubset]
  noDensity := by rw [hs]; simp [Prelim.UsesDensity, Prelim.AsksDensity, noSubset]

/-- Whether a name begins with a prefix, to be computed. -/
theorem begins_iff (p a : String) : Begins id p a ↔ p.toList.isPrefixOf a.toList = true := by
  rw [List.isPrefixOf_iff_prefix]
  exact ⟨fun ⟨r, h⟩ => ⟨r, h.symm⟩, fun ⟨r, h⟩ => ⟨r, h.symm⟩⟩

theorem begins_table : Begins id "feature_" "feature_a" ∧ Begins id "feature_" "feature_b" ∧
    Begins id "algo_" "algo_p" ∧ Begins id "algo_" "algo_q" ∧ ¬ Begins id "feature_" "instances" ∧
    ¬ Begins id "feature_" "algo_p" ∧ ¬ Begins id "feature_" "algo_q" ∧ ¬ Begins id "algo_" "instances" ∧
    ¬ Begins id "algo_" "feature_a" ∧ ¬ Begins id "algo_" "feature_b" := by
  simp only [begins_iff]
  decide

theorem clean_of {t : Table Nat} {fa fb p q l : List Nat} {n : Nat}
    (ht : t = ⟨n, [("instances", l), ("feature_a", fa), ("feature_b", fb), ("algo_p", p), ("algo_q", q)]⟩)
    (hn : 3 ≤ n) (h1 : ∀ x ∈ fa, 2 * fa.count x ≤ n) (h2 : ∀ x ∈ fb, 2 * fb.count x ≤ n)
    (h3 : ∃ v ∈ p, ∃ w ∈ p, v ≠ w ∧ v ≠ 0 ∧ w ≠ 0) (h4 : ∃ v ∈ q, ∃ w ∈ q, v ≠ w ∧ v ≠ 0 ∧ w ≠ 0) :
    Clean id lateNum t := by
  have hinj : Function.Injective lateNum := by
    intro a b h
    simpa [lateNum] using h
  have spread : ∀ l : List Nat, (∀ x ∈ l, 2 * l.count x ≤ n) → ∀ x, 2 * (l.map lateNum).count x ≤ n := by
    intro l hl x
    by_cases hx : x ∈ l.map lateNum
    · obtain ⟨y, hy, rfl⟩ := List.mem_map.1 hx
      rw [List.count_map_of_injective _ _ hinj]
      exact hl y hy
    · rw [List.count_eq_zero_of_not_mem hx]
      omega
  have varied : ∀ l : List Nat, (∃ v ∈ l, ∃ w ∈ l, v ≠ w ∧ v ≠ 0 ∧ w ≠ 0) →
      ∃ v ∈ l, ∃ w ∈ l, lateNum v ≠ lateNum w ∧ lateNum v ≠ .fin 0 ∧ lateNum w ≠ .fin 0 := by
    rintro l ⟨v, hv, w, hw, e1, e2, e3⟩
    exact ⟨v, hv, w, hw, fun e => e1 (hinj e), by simpa [lateNum] using e2, by simpa [lateNum] using e3⟩
  subst ht
  constructor
  · exact hn
  · exact fun c _ _ v _ => ⟨v, rfl⟩
  · exact ⟨("feature_a", fa), by simp, ("feature_b", fb), by simp, by simp, by simp [begins_table], by simp [begins_table]⟩
  · exact ⟨("algo_p", p), by simp, ("algo_q", q), by simp, by simp, by simp [begins_table], by simp [begins_table]⟩
  · intro c hc hb
    simp only [List.mem_cons, List.not_mem_nil, or_false] at hc
    rcases hc with rfl | rfl | rfl | rfl | rfl
    · exact absurd hb (by simp [begins_table])
    · exact spread _ h1
    · exact spread _ h2
    · exact absurd hb (by simp [begins_table])
    · exact absurd hb (by simp [begins_table])
  · intro c hc hb
    simp only [List.mem_cons, List.not_mem_nil, or_false] at hc
    rcases hc with rfl | rfl | rfl | rfl | rfl
    · exact absurd hb (by simp [begins_table])
    · exact absurd hb (by simp [begins_table])
    · exact absurd hb (by simp [begins_table])
    · exact varied _ h3
    · exact varied _ h4

theorem listed_of {fa fb p q l : List Nat} {n : Nat} :
    Listed ⟨n, [("instances", l), ("feature_a", fa), ("feature_b", fb), ("algo_p", p), ("algo_q", q)]⟩
        (Begins id "feature_") ["feature_a", "feature_b"] ∧
      Listed ⟨n, [("instances", l), ("feature_a", fa), ("feature_b", fb), ("algo_p", p), ("algo_q", q)]⟩
        (Begins id "algo_") ["algo_p", "algo_q"] := by
  refine ⟨⟨?_, ?_⟩, ⟨?_, ?_⟩⟩
  · change List.Sublist _ ["instances", "feature_a", "feature_b", "algo_p", "algo_q"]
    decide
  rotate_left
  · change List.Sublist _ ["instances", "feature_a", "feature_b", "algo_p", "algo_q"]
    decide
  all_goals
    intro a
    simp only [List.mem_cons, List.not_mem_nil, or_false]
    constructor
    · rintro (rfl | rfl) <;> exact ⟨by simp, by simp [begins_table]⟩
    · rintro ⟨⟨c, hc, rfl⟩, hb⟩
      rcases hc with rfl | rfl | rfl | rfl | rfl <;> first | simp; done | exact absurd hb (by simp [begins_table])

/-- Which stage raised. -/
def raisedIn (r : Except (RunError Name Err) (Dict Name (Val Nat (Kept (List (ℚ × ℚ)))))) : Nat :=
  match r with
  | .ok _ => 0
  | .error (.stage (.sifted _)) => 1
  | .error (.stage (.pythia _)) => 2
  | .error (.stage (.trace _)) => 3
  | .error _ => 4

theorem cleanTable_rect {p q : List Nat} (hp : p.length = 6) (hq : q.length = 6) :
    (cleanTable p q).Rect := by
  intro c hc
  simp only [cleanTable, List.mem_cons, List.not_mem_nil, or_false] at hc
  rcases hc with rfl | rfl | rfl | rfl | rfl
  · rfl
  · rfl
  · rfl
  · exact hp
  · exact hq

theorem clashTable_rect : clashTable.Rect := by
  intro c hc
  simp only [clashTable, List.mem_cons, List.not_mem_nil, or_false] at hc
  rcases hc with rfl | rfl | rfl | rfl | rfl <;> rfl

theorem cell_col {n : Nat} {cols : List (String × List Nat)} {a : String} {l : List Nat}
    (hm : (a, l) ∈ cols) {i v : Nat} (hv : l[i]? = some v) : Cell ⟨n, cols⟩ a i v := ⟨_, hm, rfl, hv⟩

/-- The full claim: on a clean table `run_all` completes. -/
def AlwaysCompletes : Prop :=
  ∀ (lower : String → String) (numeric : Squeezed Nat → Bool) (str : Nat → Nat) (num : Nat → Num)
    (env : Env Nat (Kept (List (ℚ × ℚ)))) (le : Nat → Late Nat (Kept (List (ℚ × ℚ))))
    (te : Nat → TraceEnv (List (ℚ × ℚ))) (t : Table Nat) (labels : List Nat)
    (r : Except (RunError Name Err) (Dict Name (Val Nat (Kept (List (ℚ × ℚ)))))),
    Ordinary lower env t labels → CompleteTrace env le te → Usable env le → Clean lower num t →
    Trainable le → Outcome lower numeric str num env t r → ∃ d, r = .ok d

/-- **C192 is false as stated.**  An algorithm that is good on every instance stops the build in PYTHIA. -/
theorem C192_refuted : ¬ AlwaysCompletes := by
  intro h
  have hc : Clean id lateNum (cleanTable [4, 2, 3, 5, 3, 4] [1, 5, 1, 1, 2, 1]) :=
    clean_of rfl (by decide) (by decide) (by decide) (by decide) (by decide)
  obtain ⟨d, hd⟩ := h id (fun _ => false) id lateNum (allEnv false) (allLate false) (exTrace false) _ _ _
    (clean_ordinary (all_complete false) rfl (cleanTable_rect rfl rfl) rfl (by decide))
    (all_complete false) (all_usable false) hc (fun _ _ _ _ _ => ⟨_, rfl⟩) (cleanRun_outcome _ _)
  have : raisedIn (cleanRun (allEnv false) (cleanTable [4, 2, 3, 5, 3, 4] [1, 5, 1, 1, 2, 1])) = 2 := by
    decide +kernel
  rw [hd] at this
  cases this

theorem clash_both : BothSides lateNum true 2 clashTable ["algo_p", "algo_q"] := by
  intro a ha
  simp only [List.mem_cons, List.not_mem_nil, or_false] at ha
  rcases ha with rfl | rfl
  · exact ⟨⟨0, 4, 4, cell_col (l := [4, 4, 1, 3, 3, 3, 1, 1, 1]) (by simp) rfl, rfl, by norm_num⟩,
      2, 1, 1, cell_col (l := [4, 4, 1, 3, 3, 3, 1, 1, 1]) (by simp) rfl, by simp [lateNum], by norm_num⟩
  · exact ⟨⟨2, 4, 4, cell_col (l := [1, 1, 4, 1, 1, 1, 3, 3, 3]) (by simp) rfl, rfl, by norm_num⟩,
      0, 1, 1, cell_col (l := [1, 1, 4, 1, 1, 1, 3, 3, 3]) (by simp) rfl, by simp [lateNum], by norm_num⟩

/-- **And the clash in TRACE does happen**, even though the table has two features, each of its two algorithms
reaches the threshold on one instance and misses it on another, and all trainings succeed. -/
theorem C192_clash_refuted : ¬ ∀ (env : Env Nat (Kept (List (ℚ × ℚ))))
    (le : Nat → Late Nat (Kept (List (ℚ × ℚ)))) (te : Nat → TraceEnv (List (ℚ × ℚ))) (t : Table Nat)
    (labels : List Nat) (r : Except (RunError Name Err) (Dict Name (Val Nat (Kept (List (ℚ × ℚ))))))
    (feats algos : List String), Ordinary id env t labels → CompleteTrace env le te → Usable env le →
    Clean id lateNum t → Trainable le → Listed t (Begins id "feature_") feats → feats.length ≤ 3 →
    Listed t (Begins id "algo_") algos → env.prelim.absPerf = true → env.prelim.epsilon = .fin 2 →
    BothSides lateNum env.prelim.maxPerf 2 t algos →
    Outcome id (fun _ => false) id lateNum env t r → ∃ d, r = .ok d := by
  intro h
  have hc : Clean id lateNum clashTable :=
    clean_of rfl (by decide) (by decide) (by decide) (by decide) (by decide)
  obtain ⟨d, hd⟩ := h clashEnv clashLate clashTrace clashTable _ _ _ _
    (clean_ordinary clash_complete rfl clashTable_rect rfl (by decide)) clash_complete clash_usable hc
    (fun _ _ _ _ _ => ⟨_, rfl⟩) listed_of.1 (by decide) listed_of.2 rfl rfl clash_both
    (cleanRun_outcome _ _)
  have : raisedIn (cleanRun clashEnv clashTable) = 3 := by decide +kernel
  rw [hd] at this
  cases this

/-- Non-vacuity: a table on which the first algorithm is better on every instance meets all hypotheses. -/
example :
    let t := cleanTable [4, 1, 5, 3, 3, 4] [2, 0, 1, 1, 2, 1]
    Ordinary id (allEnv false) t [10, 11, 12, 13, 14, 15] ∧
    CompleteTrace (allEnv false) (allLate false) (exTrace false) ∧ Usable (allEnv false) (allLate false) ∧
    Clean id lateNum t ∧ Listed t (Begins id "feature_") ["feature_a", "feature_b"] ∧
    Listed t (Begins id "algo_") ["algo_p", "algo_q"] ∧ (allEnv false).prelim.absPerf = true ∧
    (allEnv false).prelim.epsilon = .fin 2 ∧
    BothSides lateNum (allEnv false).prelim.maxPerf 2 t ["algo_p", "algo_q"] ∧
    Trainable (allLate false) ∧ (∀ k, (exTrace false k).useSim = false) ∧
    Dominates lateNum (allEnv false).prelim.maxPerf t ["algo_p", "algo_q"] "algo_p" ∧
    raisedIn (cleanRun (allEnv false) t) = 0 := by
  refine ⟨clean_ordinary (all_complete false) rfl (cleanTable_rect rfl rfl) rfl (by decide),
    all_complete false, all_usable false,
    clean_of rfl (by decide) (by decide) (by decide) (by decide) (by decide), listed_of.1, listed_of.2,
    rfl, rfl, ?_, fun _ _ _ _ _ => ⟨_, rfl⟩, fun _ => rfl, ⟨by simp, ?_⟩, by decide +kernel⟩
  · intro a ha
    simp only [List.mem_cons, List.not_mem_nil, or_false] at ha
    rcases ha with rfl | rfl
    · exact ⟨⟨0, 4, 4, cell_col (l := [4, 1, 5, 3, 3, 4]) (by simp) rfl, rfl, by norm_num [allEnv, lateEnv, smallEnv]⟩,
        1, 1, 1, cell_col (l := [4, 1, 5, 3, 3, 4]) (by simp) rfl, by simp [lateNum], by norm_num [allEnv, lateEnv, smallEnv]⟩
    · exact ⟨⟨0, 2, 2, cell_col (l := [2, 0, 1, 1, 2, 1]) (by simp) rfl, rfl, by norm_num [allEnv, lateEnv, smallEnv]⟩,
        2, 1, 1, cell_col (l := [2, 0, 1, 1, 2, 1]) (by simp) rfl, by simp [lateNum], by norm_num [allEnv, lateEnv, smallEnv]⟩
  · have hp : ∀ i v, Cell (cleanTable [4, 1, 5, 3, 3, 4] [2, 0, 1, 1, 2, 1]) "algo_p" i v →
        [4, 1, 5, 3, 3, 4][i]? = some v := by
      rintro i v ⟨c, hc, he, hv⟩
      simp only [cleanTable, List.mem_cons, List.not_mem_nil, or_false] at hc
      rcases hc with rfl | rfl | rfl | rfl | rfl <;> simp at he
      exact hv
    have hq : ∀ i v, Cell (cleanTable [4, 1, 5, 3, 3, 4] [2, 0, 1, 1, 2, 1]) "algo_q" i v →
        [2, 0, 1, 1, 2, 1][i]? = some v := by
      rintro i v ⟨c, hc, he, hv⟩
      simp only [cleanTable, List.mem_cons, List.not_mem_nil, or_false] at hc
      rcases hc with rfl | rfl | rfl | rfl | rfl <;> simp at he
      exact hv
    have hlt : ∀ i v w : Nat, [4, 1, 5, 3, 3, 4][i]? = some v → [2, 0, 1, 1, 2, 1][i]? = some w → w < v := by
      intro i v w h1 h2
      match i with
      | 0 | 1 | 2 | 3 | 4 | 5 => simp at h1 h2; omega
      | _ + 6 => simp at h1
    intro i v hv
    refine ⟨⟨⟨"algo_p", by simp, v, hv, rfl⟩, by simp [lateNum], ?_⟩, ?_⟩
    · intro a ha w hw _
      simp only [List.mem_cons, List.not_mem_nil, or_false] at ha
      have hle : w ≤ v := by
        rcases ha with rfl | rfl
        · have h1 := hp i v hv
          rw [hp i w hw] at h1
          exact (Option.some.inj h1).le
        · exact (hlt i v w (hp i v hv) (hq i w hw)).le
      have : (w : ℚ) ≤ v := by exact_mod_cast hle
      simpa [Prelim.AtLeastAsGood, allEnv, lateEnv, smallEnv, lateNum, Num.le] using this
    · intro a ha hne w hw e
      simp only [List.mem_cons, List.not_mem_nil, or_false] at ha
      rcases ha with rfl | rfl
      · exact hne rfl
      · have := hlt i v w (hp i v hv) (hq i w hw)
        simp [lateNum] at e
        omega

end Verif.EndToEnd
