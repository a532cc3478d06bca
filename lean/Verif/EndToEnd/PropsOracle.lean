import Verif.EndToEnd.OracleLemmas
import Verif.EndToEnd.PropsTally
/-!
# C222: the row of the oracle in PYTHIA's table
-/
set_option autoImplicit false
set_option linter.unusedSectionVars false

namespace Verif.EndToEnd

open Verif (Num)
open Verif.Pipeline (Stg Name outputs defaultStages runner)
open Verif.Metadata (Table Squeezed fromDataFrame)
open Verif.Runner (Dict)
open Verif.Pythia (Sized share)

variable {V W : Type} {lower : String → String} {numeric : Squeezed V → Bool} {str : V → V}
  {num : V → Num} {env : Env V W} {le : Nat → Late V W} {t : Table V} {labels : List V}
  {d : Dict Name (Val V W)}

/-- **C222, the true part about the algorithms.**  When all performances are known, no algorithm has a better
average than the oracle.  Missing for the full property: missing performances, the selector, and the
oracle's probability. -/
theorem C222_algorithms_partial (hc : Complete env le) (ho : Readable lower env t labels)
    (h : Succeeds lower numeric str num env t d) (hr : ∀ k, Rounding (le k).pythiaLib.round3)
    {y : Preprocessing.Mat Num} (hy : d .y_raw = some (.table y)) (hne : y.rows ≠ [])
    (hm : Measured (!env.prelim.absPerf) y.rows) :
    ∃ algos o, d .algo_labels = some (.names algos) ∧ Holds d "Algorithms" algos.length (.word "Oracle") ∧
      Holds d "Avg_Perf_all_instances" algos.length (.num (.fin o)) ∧ ∀ (j : Nat) name, algos[j]? = some name →
        Holds d "Algorithms" j (.word name) ∧ ∃ a, Holds d "Avg_Perf_all_instances" j (.num (.fin a)) ∧
          NotBetter env.prelim.maxPerf a o := by
  obtain ⟨k, z, y', yb, yBest, algos, o, -, p2, -, p4, p5, hp, -, -, hf⟩ := pythia_values hc h
  rw [hy] at p2
  cases p2
  obtain ⟨c, b, e1, rfl, e3, e4, e5, e6⟩ := measured_rows ho h hy p4 p5 hm
  obtain ⟨r, r1, r2, r3⟩ := hr k
  rw [e1, e3] at hp
  have hcne : c ≠ [] := fun hc => hne (by rw [e1, hc]; rfl)
  have hbne : b ≠ [] := fun hb => hcne (List.length_eq_zero_iff.1 (by rw [← e5, hb]; rfl))
  obtain ⟨hav, hor⟩ := Pythia.C136_average hp (by
    intro l hl
    obtain ⟨l', hl', rfl⟩ := List.mem_map.1 hl
    simpa using e4 l' hl')
  have hor := hor _ (average_fin hbne)
  rw [r3] at hor
  have hrows := Pythia.C136_rows hp
  refine ⟨algos, r (b.sum / b.length), p5,
    ⟨_, o.summary.algorithms.map .word, hf, rfl, by rw [hrows]; simp⟩, holds_of hf rfl hor, ?_⟩
  intro j name hj
  have hlt : j < algos.length := (List.getElem?_eq_some_iff.1 hj).1
  refine ⟨⟨_, o.summary.algorithms.map .word, hf, rfl, by
    rw [hrows, List.getElem?_map, List.getElem?_append_left hlt, hj]; rfl⟩, ?_⟩
  obtain ⟨l, l1, l2⟩ := perfOf_fin e4 hlt
  have hlne : l ≠ [] := fun hl => hcne (List.length_eq_zero_iff.1 (by rw [← l2.length_eq, hl]; rfl))
  have hav := hav j hlt (l.sum / l.length) (by rw [l1]; exact average_fin hlne)
  rw [r3, r3, r2] at hav
  exact ⟨_, holds_of hf rfl hav, (mean_bound (forall2_notBetter l2 e5 e6)).round r1⟩

/-- **C222, the true part about the selector.**  When the first algorithm is never recommended, the selector
has no better average than the oracle. -/
theorem C222_selector_partial (hc : Complete env le) (ho : Readable lower env t labels)
    (h : Succeeds lower numeric str num env t d) (hr : ∀ k, Rounding (le k).pythiaLib.round3)
    (hfit : ∀ k z y yb i res, (le k).fitted z y yb i = .ok res → Sized yb.length res)
    {y : Preprocessing.Mat Num} (hy : d .y_raw = some (.table y)) (hne : y.rows ≠ [])
    (hm : Measured (!env.prelim.absPerf) y.rows) {sel : List Nat}
    (hs : d .selection1 = some (.counts sel)) (h0 : 0 ∉ sel) :
    ∃ algos o s, d .algo_labels = some (.names algos) ∧
      Holds d "Algorithms" algos.length (.word "Oracle") ∧
      Holds d "Algorithms" (algos.length + 1) (.word "Selector") ∧
      Holds d "Avg_Perf_all_instances" algos.length (.num (.fin o)) ∧
      Holds d "Avg_Perf_all_instances" (algos.length + 1) (.num (.fin s)) ∧
      NotBetter env.prelim.maxPerf s o := by
  obtain ⟨k, z, y', yb, yBest, algos, w, o, -, p2, p3, p4, p5, -, hp, hall⟩ := pythia_all hc h
  rw [hy] at p2
  cases p2
  obtain ⟨c, b, e1, rfl, e3, e4, e5, e6⟩ := measured_rows ho h hy p4 p5 hm
  obtain ⟨r, r1, r2, r3⟩ := hr k
  obtain ⟨n, algos', bb, cc, g, q1, ⟨yb', b1, b2, b3, -⟩, -, -, hrep⟩ := reports hc ho h hfit
  rw [p5] at q1
  cases q1
  rw [p3] at b1
  cases b1
  obtain ⟨sel', s1, s2, s3⟩ := hrep.selection1
  rw [hs] at s1
  cases s1
  have hsel : o.selection1.vals = sel := by
    have := hall .selection1 _ (by simp [pythiaOut]; rfl)
    rw [hs] at this
    cases this
    rfl
  obtain ⟨n', g', feats, algos'', x, yy, -, d2, -, -, -, -, -, -, -, -, d11, d12, -⟩ := data_sizes ho h
  rw [p5] at d2
  cases d2
  obtain ⟨t1, t2, -, t4, -⟩ := d11
  rw [hy] at t2
  cases t2
  obtain ⟨u1, u2, u3, -⟩ := d12
  rw [p3] at u2
  cases u2
  have hlen : c.length = sel.length := by
    have : y.rows.length = c.length := by rw [e1]; simp
    omega
  rw [e1, e3] at hp
  have hcne : c ≠ [] := fun hc => hne (by rw [e1, hc]; rfl)
  have hbne : b ≠ [] := fun hb => hcne (List.length_eq_zero_iff.1 (by rw [← e5, hb]; rfl))
  have hrect : Pythia.Rect (c.map (·.map Num.fin)) algos.length := by
    intro l hl
    obtain ⟨l', hl', rfl⟩ := List.mem_map.1 hl
    simpa using e4 l' hl'
  have hor := (Pythia.C136_average hp hrect).2 _ (average_fin hbne)
  rw [r3] at hor
  have hrows := Pythia.C136_rows hp
  have hsl := (Pythia.C67_partial hp (hfit k z y yb) hrect b3 (by simp; omega)).1
  have hpre : ∃ l : List ℚ, Pythia.precedingPerf (c.map (·.map .fin)) sel = l.map .fin ∧
      List.Forall₂ (fun q r => q ∈ r) l c := by
    have hb : ∀ s ∈ sel, 0 < s ∧ s ≤ algos.length := by
      intro s hsm
      refine ⟨Nat.pos_of_ne_zero fun h => h0 (h ▸ hsm), ?_⟩
      obtain ⟨i, hi, rfl⟩ := List.mem_iff_getElem.1 hsm
      obtain ⟨s', h1, h2⟩ := s3 i (by omega)
      rw [List.getElem?_eq_getElem hi] at h1
      cases h1
      rcases h2 with h2 | ⟨-, h2⟩
      · exact h2.1.le
      · exact h2.1.le
    clear hrep s3 s2 hs hall hsel hsl hrows hor hp hcne e6 e5 hrect hm hy hne t4 e1 h0
    induction c generalizing sel with
    | nil => exact ⟨[], by simp [Pythia.precedingPerf], .nil⟩
    | cons row c ih =>
      cases sel with
      | nil => simp at hlen
      | cons s sel =>
        obtain ⟨l, l1, l2⟩ := ih (fun r hr => e4 r (List.mem_cons_of_mem _ hr)) (by simpa using hlen)
          fun s hs => hb s (List.mem_cons_of_mem _ hs)
        obtain ⟨g1, g2⟩ := hb s List.mem_cons_self
        have hr : s - 1 < row.length := by rw [e4 row List.mem_cons_self]; omega
        refine ⟨row[s - 1] :: l, ?_, .cons (List.getElem_mem _) l2⟩
        unfold Pythia.precedingPerf at l1 ⊢
        rw [List.map_cons, List.zip_cons_cons, List.filterMap_cons, l1]
        simp [Nat.pos_iff_ne_zero.1 g1, List.getElem?_eq_getElem hr]
  obtain ⟨l, l1, l2⟩ := hpre
  have hlne : l ≠ [] := fun hl => hcne (List.length_eq_zero_iff.1 (by rw [← l2.length_eq, hl]; rfl))
  rw [hsel, l1, Pythia.nanmean_fin hlne, r3] at hsl
  have hf := hall .pythia_summary _ (by simp [pythiaOut]; rfl)
  exact ⟨algos, _, _, p5, ⟨_, o.summary.algorithms.map .word, hf, rfl, by rw [hrows]; simp⟩,
    ⟨_, o.summary.algorithms.map .word, hf, rfl, by rw [hrows]; simp⟩, holds_of hf rfl hor, holds_of hf rfl hsl,
    (mean_bound (forall2_notBetter l2 e5 e6)).round r1⟩

/-- **C222, the true part about the probabilities.**  The oracle's probability of a good performance is at
least that of every algorithm and of the selector. -/
theorem C222_good_partial (hc : Complete env le) (ho : Readable lower env t labels)
    (h : Succeeds lower numeric str num env t d) (hr : ∀ k, Rounding (le k).pythiaLib.round3)
    (hfit : ∀ k z y yb i res, (le k).fitted z y yb i = .ok res → Sized yb.length res) :
    ∃ algos o, d .algo_labels = some (.names algos) ∧ Holds d "Probability_of_good" algos.length (.num (.fin o)) ∧
      ∀ j, j < algos.length ∨ j = algos.length + 1 →
        ∃ a, Holds d "Probability_of_good" j (.num (.fin a)) ∧ a ≤ o := by
  obtain ⟨k, z, y, yb, yBest, algos, w, o, -, p2, p3, p4, p5, -, hp, hall⟩ := pythia_all hc h
  obtain ⟨n', g', feats, algos'', x, yy, -, d2, -, -, -, -, -, -, -, -, d11, d12, -⟩ := data_sizes ho h
  rw [p5] at d2
  cases d2
  obtain ⟨t1, t2, t3, t4, t5⟩ := d11
  rw [p2] at t2
  cases t2
  obtain ⟨u1, u2, u3, u4⟩ := d12
  rw [p3] at u2
  cases u2
  rw [t3] at hp
  obtain ⟨r, r1, -, r3⟩ := hr k
  have hf := hall .pythia_summary _ (by simp [pythiaOut]; rfl)
  obtain ⟨g1, g2⟩ := Pythia.C136_good hp
  have g3 := (Pythia.C67_partial hp (hfit k z y yb) t5 u4 (by omega)).2
  have hone : ∀ {β : Type} (l : List β) (p : β → Bool), share l p ≤ 1 := by
    intro β l p
    unfold share
    rcases Nat.eq_zero_or_pos l.length with hl | hl
    · rw [hl]; simp
    · exact (div_le_one (by exact_mod_cast hl)).2 (by exact_mod_cast List.length_filter_le _ _)
  rw [show (1 : Num) = .fin 1 from rfl, r3] at g2
  refine ⟨algos, r 1, p5, holds_of hf rfl g2, fun j hj => ?_⟩
  rcases hj with hj | rfl
  · have g1 := g1 j hj
    rw [r3] at g1
    exact ⟨_, holds_of hf rfl g1, r1 (hone _ _)⟩
  · rw [r3] at g3
    exact ⟨_, holds_of hf rfl g3, r1 (hone _ _)⟩

/-! ### The full claim is false -/

/-- The number nine stands for a performance that is missing. -/
def raceNum (n : Nat) : Num := if n = 9 then .nan else .fin n

/-- Four instances with the performances of two algorithms. -/
def raceTable (p q : List Nat) : Table Nat :=
  ⟨4, [("instances", [10, 11, 12, 13]), ("feature_a", [1, 2, 3, 1]), ("feature_b", [1, 5, 2, 4]),
    ("algo_p", p), ("algo_q", q)]⟩

/-- Maximise; good means at least the given number. -/
def raceEnv (good : ℚ) : Env Nat Unit :=
  { lateEnv with prelim := { lateEnv.prelim with epsilon := .fin good } }

/-- The run. -/
def raceRun (good : ℚ) (p q : List Nat) :
    Except (Runner.RunError Name Err) (Dict Name (Val Nat Unit)) :=
  Runner.contents (Runner.runAll (runner defaultStages Pipeline.defaultSchedule (run (raceEnv good)))
    Runner.State.init
    (args (raceEnv good) raceNum (fromDataFrame id (fun _ => false) id (raceTable p q))))

theorem race_readable (good : ℚ) {p q : List Nat} (hp : p.length = 4) (hq : q.length = 4) :
    Readable id (raceEnv good) (raceTable p q) [10, 11, 12, 13] where
  rect := by
    intro c hc
    simp only [raceTable, List.mem_cons, List.not_mem_nil, or_false] at hc
    rcases hc with rfl | rfl | rfl | rfl | rfl <;> first | rfl | assumption
  distinct := by simp [raceTable]
  several := by simp [raceTable]
  labels := ⟨"instances", rfl⟩
  sources := Nat.zero_le _
  tuples := Complete.tuples (le := exLate) (env := raceEnv good) ⟨fun _ _ _ => rfl, late_complete.trace⟩

theorem race_succeeds {good : ℚ} {p q : List Nat} {d : Dict Name (Val Nat Unit)} (hd : raceRun good p q = .ok d) :
    Succeeds id (fun _ => false) id raceNum (raceEnv good) (raceTable p q) d :=
  ⟨defaultStages, Pipeline.listOrder, Pipeline.defaultSchedule, [], .refl _, Pipeline.default_once, hd⟩

theorem race_everywhere {P : Dict Name (Val Nat Unit) → Prop} (h : Everywhere P) {good : ℚ} {p q : List Nat}
    (hp : p.length = 4) (hq : q.length = 4) {d : Dict Name (Val Nat Unit)} (hd : raceRun good p q = .ok d) :
    P d :=
  h id (fun _ => false) raceNum (raceEnv good) exLate (raceTable p q) [10, 11, 12, 13] d
    ⟨fun _ _ _ => rfl, late_complete.trace⟩ (race_readable good hp hq) (race_succeeds hd) late_sized

/-- A table with headings of a value. -/
def theFrame : Option (Val Nat Unit) → Option (List (String × List Entry))
  | some (.frame l) => some l
  | _ => none

/-- A column of PYTHIA's table. -/
def summaryColumn (d : Dict Name (Val Nat Unit)) (name : String) : Option (List Entry) :=
  (theFrame (d .pythia_summary)).bind (·.lookup name)

/-- The full claim about averages, when larger performances are better: the row after the algorithms, that of
the oracle, has the largest average in the table. -/
def OracleLargest (d : Dict Name (Val Nat Unit)) : Prop :=
  ∀ algos o j a, d .algo_labels = some (.names algos) →
    Holds d "Avg_Perf_all_instances" algos.length (.num (.fin o)) →
    Holds d "Avg_Perf_all_instances" j (.num (.fin a)) → a ≤ o

/-- Everywhere, for the runs that maximise. -/
def EverywhereMax (P : Dict Name (Val Nat Unit) → Prop) : Prop :=
  ∀ (lower : String → String) (numeric : Squeezed Nat → Bool) (num : Nat → Num) (env : Env Nat Unit)
    (le : Nat → Late Nat Unit) (t : Table Nat) (labels : List Nat) (d : Dict Name (Val Nat Unit)),
    Complete env le → Readable lower env t labels → Succeeds lower numeric id num env t d →
    (∀ k z y yb i res, (le k).fitted z y yb i = .ok res → Sized yb.length res) →
    env.prelim.maxPerf = true → P d

theorem race_everywhereMax {P : Dict Name (Val Nat Unit) → Prop} (h : EverywhereMax P) {good : ℚ}
    {p q : List Nat} (hp : p.length = 4) (hq : q.length = 4) {d : Dict Name (Val Nat Unit)}
    (hd : raceRun good p q = .ok d) : P d :=
  h id (fun _ => false) raceNum (raceEnv good) exLate (raceTable p q) [10, 11, 12, 13] d
    ⟨fun _ _ _ => rfl, late_complete.trace⟩ (race_readable good hp hq) (race_succeeds hd) late_sized rfl

theorem race_beaten {good : ℚ} {p q : List Nat} (hp : p.length = 4) (hq : q.length = 4) {l : List Entry} {o a : ℚ}
    {j : Nat} (hrun : (raceRun good p q).toOption.map (fun d => ((theNames (d .algo_labels)).map List.length,
      summaryColumn d "Avg_Perf_all_instances")) = some (some 2, some l))
    (h2 : l[2]? = some (.num (.fin o))) (hj : l[j]? = some (.num (.fin a))) (hlt : o < a) :
    ¬ EverywhereMax OracleLargest := by
  intro h
  cases hd : raceRun good p q with
  | error e => rw [hd] at hrun; cases hrun
  | ok d =>
    rw [hd] at hrun
    simp only [Except.toOption, Option.map_some, Option.some.injEq, Prod.mk.injEq] at hrun
    obtain ⟨h3, h4⟩ := hrun
    have hn : ∃ l, d .algo_labels = some (.names l) ∧ l.length = 2 := by
      unfold theNames at h3
      split at h3
      · rename_i l e
        exact ⟨l, e, Option.some.inj h3⟩
      · cases h3
    obtain ⟨al, hn, hal⟩ := hn
    rw [← hal] at h2
    have hcol : ∃ f, d .pythia_summary = some (.frame f) ∧ f.lookup "Avg_Perf_all_instances" = some l := by
      unfold summaryColumn theFrame at h4
      split at h4
      · rename_i f e
        exact ⟨f, e, h4⟩
      · cases h4
    obtain ⟨f, f1, f2⟩ := hcol
    exact absurd (race_everywhereMax h hp hq hd _ o j a hn ⟨f, l, f1, f2, h2⟩ ⟨f, l, f1, f2, hj⟩) (not_le.2 hlt)

/-- **C222** is false of the selector: performances of at least four are good, and the second algorithm is
recommended for the second instance only.  The selector's average is 3, the performance there of the first
algorithm; the oracle's is 2. -/
theorem C222_selector_refuted : ¬ EverywhereMax OracleLargest :=
  race_beaten (good := 4) (p := [0, 3, 4, 0]) (q := [0, 4, 0, 0]) rfl rfl
    (l := [.num (.fin (7 / 4)), .num 1, .num 2, .num 3]) (o := 2) (a := 3) (j := 3)
    (by decide +kernel) rfl rfl (by norm_num)

/-- **C222** is false with missing performances: the first algorithm is measured on two instances only, where its
average is 5/2; the oracle's, over all four, is 2. -/
theorem C222_missing_refuted : ¬ EverywhereMax OracleLargest :=
  race_beaten (good := 2) (p := [4, 9, 9, 1]) (q := [1, 2, 1, 1]) rfl rfl
    (l := [.num (.fin (5 / 2)), .num (.fin (5 / 4)), .num 2, .word ""]) (o := 2) (a := 5 / 2) (j := 0)
    (by decide +kernel) rfl rfl (by norm_num)

/-- **C222** is false of the oracle's probability of a good performance: it is 1, and on the last instance no
algorithm is good. -/
theorem C222_good_refuted : ¬ Everywhere fun d => ∀ algos yb o, d .algo_labels = some (.names algos) →
    d .y_bin = some (.verdicts yb) → Holds d "Probability_of_good" algos.length (.num (.fin o)) →
    o = share yb fun r => r.any id := by
  intro h
  have hrun : (raceRun 2 [4, 1, 3, 1] [1, 5, 1, 1]).toOption.map (fun d => ((theNames (d .algo_labels)).map List.length,
      theVerdicts (d .y_bin), summaryColumn d "Probability_of_good")) =
      some (some 2, some [[true, false], [false, true], [true, false], [false, false]],
        some [.num (.fin (1 / 2)), .num (.fin (1 / 4)), .num 1, .num 0]) := by decide +kernel
  cases hd : raceRun 2 [4, 1, 3, 1] [1, 5, 1, 1] with
  | error e => rw [hd] at hrun; cases hrun
  | ok d =>
    rw [hd] at hrun
    have hall := race_everywhere h rfl rfl hd
    simp only [Except.toOption, Option.map_some, Option.some.injEq, Prod.mk.injEq] at hrun
    obtain ⟨h1, h2, h3⟩ := hrun
    have hn : ∃ l, d .algo_labels = some (.names l) ∧ l.length = 2 := by
      unfold theNames at h1
      split at h1
      · rename_i l e
        exact ⟨l, e, Option.some.inj h1⟩
      · cases h1
    obtain ⟨al, hn, hal⟩ := hn
    have hb : d .y_bin = some (.verdicts [[true, false], [false, true], [true, false], [false, false]]) := by
      unfold theVerdicts at h2
      split at h2
      · rename_i e
        cases h2
        exact e
      · cases h2
    have hcol : ∃ f, d .pythia_summary = some (.frame f) ∧ f.lookup "Probability_of_good" =
        some [.num (.fin (1 / 2)), .num (.fin (1 / 4)), .num 1, .num 0] := by
      unfold summaryColumn theFrame at h3
      split at h3
      · rename_i f e
        exact ⟨f, e, h3⟩
      · cases h3
    obtain ⟨f, f1, f2⟩ := hcol
    have := hall _ _ 1 hn hb ⟨f, _, f1, f2, by rw [hal]; rfl⟩
    revert this
    norm_num [share, List.filter_cons]

theorem late_rounding (k : Nat) : Rounding (exLate k).pythiaLib.round3 :=
  ⟨id, monotone_id, fun _ => rfl, fun _ => rfl⟩

/-- Non-vacuity: in a run with known performances the second algorithm is recommended for all four instances;
the averages are 3/2, 7/2, the oracle's 7/2, the selector's 3/2. -/
example : ∃ d y sel, Complete (raceEnv 2) exLate ∧
    Readable id (raceEnv 2) (raceTable [1, 1, 3, 1] [4, 5, 4, 1]) [10, 11, 12, 13] ∧
    Succeeds id (fun _ => false) id raceNum (raceEnv 2) (raceTable [1, 1, 3, 1] [4, 5, 4, 1]) d ∧
    (∀ k, Rounding (exLate k).pythiaLib.round3) ∧ d .y_raw = some (.table y) ∧ y.rows ≠ [] ∧
    Measured (!(raceEnv 2).prelim.absPerf) y.rows ∧ d .selection1 = some (.counts sel) ∧ 0 ∉ sel ∧
    summaryColumn d "Avg_Perf_all_instances" =
      some [.num (.fin (3 / 2)), .num (.fin (7 / 2)), .num (.fin (7 / 2)), .num (.fin (3 / 2))] := by
  have hrun : (raceRun 2 [1, 1, 3, 1] [4, 5, 4, 1]).toOption.map (fun d => (theTable (d .y_raw),
      theCounts (d .selection1), summaryColumn d "Avg_Perf_all_instances")) =
      some (some ⟨2, [[1, 4], [1, 5], [3, 4], [1, 1]]⟩, some [1, 1, 1, 1],
        some [.num (.fin (3 / 2)), .num (.fin (7 / 2)), .num (.fin (7 / 2)), .num (.fin (3 / 2))]) := by
    decide +kernel
  cases hd : raceRun 2 [1, 1, 3, 1] [4, 5, 4, 1] with
  | error e => rw [hd] at hrun; cases hrun
  | ok d =>
    rw [hd] at hrun
    simp only [Except.toOption, Option.map_some, Option.some.injEq, Prod.mk.injEq] at hrun
    obtain ⟨h1, h2, h3⟩ := hrun
    have hy : d .y_raw = some (.table ⟨2, [[1, 4], [1, 5], [3, 4], [1, 1]]⟩) := by
      unfold theTable at h1
      split at h1
      · rename_i e
        cases h1
        exact e
      · cases h1
    have hs : d .selection1 = some (.counts [1, 1, 1, 1]) := by
      unfold theCounts at h2
      split at h2
      · rename_i e
        cases h2
        exact e
      · cases h2
    refine ⟨d, _, _, ⟨fun _ _ _ => rfl, late_complete.trace⟩, race_readable 2 rfl rfl, race_succeeds hd,
      late_rounding, hy, by simp, ?_, hs, by decide, h3⟩
    intro r hr v hv
    simp only [List.mem_cons, List.not_mem_nil, or_false] at hr
    rcases hr with rfl | rfl | rfl | rfl <;> simp only [List.mem_cons, List.not_mem_nil, or_false] at hv <;>
      rcases hv with rfl | rfl <;> exact ⟨_, rfl, fun h => by cases h⟩

end Verif.EndToEnd
