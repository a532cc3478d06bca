import Verif.EndToEnd.TraceLemmas
import Verif.EndToEnd.SpecCompletes
import Verif.Pilot.PropsComplete
import Verif.Pythia.Props
import Verif.EndToEnd.CleanLemmas
/-! The last four stages on clean data. -/
set_option autoImplicit false
set_option linter.unusedSectionVars false

namespace Verif.EndToEnd

open Verif (Num)
open Verif.Pipeline (Stg Name inputs outputs)
open Verif.Preprocessing (Mat)
open Verif.Runner (Dict override applyAll applyStage applyStage_of override_of_not_mem RunError Pipeline)

variable {V W G : Type}

/-! ### One stage -/

theorem filterMap_of_some {N X : Type} {d : N → Option X} {l : List N} {vs : List X}
    (h : l.map d = vs.map some) : l.filterMap d = vs ∧ ∀ n ∈ l, (d n).isSome := by
  induction l generalizing vs with
  | nil => cases vs with
    | nil => exact ⟨rfl, by simp⟩
    | cons v vs => simp at h
  | cons n l ih =>
    cases vs with
    | nil => simp at h
    | cons v vs =>
      simp only [List.map_cons, List.cons.injEq] at h
      obtain ⟨h1, h2⟩ := ih h.2
      refine ⟨by simp [h.1, h1], ?_⟩
      intro m hm
      rcases List.mem_cons.1 hm with rfl | hm
      · simp [h.1]
      · exact h2 m hm

theorem applyStage_eq {S N X E : Type} [DecidableEq N] {P : Pipeline S N X E} {k : Nat} {s : S}
    {d : Dict N X} {vs : List X} (h : (P.fields s).map d = vs.map some) :
    applyStage P k s d = match P.run k s vs with
      | .error e => .error (.stage e)
      | .ok out => .ok (override d out) := by
  obtain ⟨h1, h2⟩ := filterMap_of_some h
  unfold applyStage
  have : (P.fields s).find? (fun n => (d n).isNone) = none := by
    rw [List.find?_eq_none]
    intro n hn
    have := h2 n hn
    cases hd : d n <;> simp_all
  rw [this, h1]
  rfl

/-! ### PILOT -/

theorem tableOf_cols {p n : Nat} (z : Matrix (Fin p) (Fin n) ℚ) :
    (∀ r ∈ (tableOf z).rows, FinCol n r) ∧ (tableOf z).rows.length = p := by
  refine ⟨fun r hr => ?_, by simp [tableOf]⟩
  simp only [tableOf, List.mem_ofFn] at hr
  obtain ⟨i, rfl⟩ := hr
  exact ⟨List.ofFn fun j => z i j, by simp [List.map_ofFn, Function.comp_def], by simp⟩

theorem pilot_clean {le : Late V W} (hr : PilotReady le) {x y : Mat Num} {feat : List String}
    (opts : Val V W) (hx : ∀ r ∈ x.rows, FinCol x.ncols r) (hy : noInfinity y = true)
    (hxy : y.rows.length = x.rows.length) (h3 : 3 ≤ x.rows.length) (hf : feat.length = x.ncols) :
    ∃ w1 w2 w3 w4 w5 w6 a z c b s, runPilot le [.table x, .table y, .names feat, opts] =
        .ok [(.X0, w1), (.alpha, w2), (.eoptim, w3), (.perf, w4), (.a, .table a), (.z, .table z), (.c, c),
          (.b, b), (.error, w5), (.r2, w6), (.pilot_summary, s)] ∧
      ((∀ r ∈ a.rows, FinCol a.ncols r) ∧ a.ncols = x.ncols ∧ a.rows.length = 2) ∧
      (∀ r ∈ z.rows, FinCol z.ncols r) ∧ z.ncols = 2 ∧ z.rows.length = x.rows.length := by
  obtain ⟨out, ho⟩ := (Pilot.C164_numerical_partial
      ((le.pilotLib (entries x x.rows.length x.ncols)).onGaps (entries x x.rows.length x.ncols)
        (entries y x.rows.length y.ncols) (gapsOf y x.rows.length y.ncols))
      (entries x x.rows.length x.ncols) (entries y x.rows.length y.ncols) feat
      (le.pilotOpts x.ncols y.ncols) (hr.numerical _ _)).2
    ⟨h3, hr.tries _ _, hf, hr.given _ _, hr.starts _, hr.alpha _ _⟩
  unfold runPilot
  have hc : (isFinite x && noInfinity y && y.rows.length == x.rows.length) = true := by
    simp [isFinite_iff.2 hx, hy, hxy]
  dsimp only
  rw [if_pos hc]
  unfold Pilot.pilotGaps
  rw [hr.numerical, Bool.false_and, if_neg (by simp), ho]
  exact ⟨_, _, _, _, _, _, _, _, _, _, _, rfl, ⟨(tableOf_cols _).1, rfl, (tableOf_cols _).2⟩,
    (tableOf_cols _).1, rfl, (tableOf_cols _).2⟩

/-! ### CLOISTER -/

theorem cloister_clean (le : Late V W) {x a : Mat Num} (opts : Val V W)
    (hx : ∀ r ∈ x.rows, FinCol x.ncols r) (h2 : 2 ≤ x.rows.length)
    (ha : (∀ r ∈ a.rows, FinCol a.ncols r) ∧ a.ncols = x.ncols ∧ a.rows.length = 2) :
    ∃ e c, runCloister le [.table x, .table a, opts] = .ok [(.z_edge, e), (.z_ecorr, c)] := by
  unfold runCloister
  have hc : (isFinite x && isFinite a && a.ncols == x.ncols && a.rows.length == 2) = true := by
    simp [isFinite_iff.2 hx, isFinite_iff.2 ha.1, ha.2.1, ha.2.2]
  dsimp only
  rw [if_pos hc]
  have hl : (List.ofFn (entries x x.rows.length x.ncols)).length = x.rows.length :=
    List.length_ofFn
  split
  · rename_i h
    rw [h] at hl
    simp at hl
    omega
  · rename_i r l h
    rw [h] at hl
    have : ¬ (l = [] ∧ 1 < x.ncols) := by
      rintro ⟨rfl, -⟩
      simp at hl
      omega
    rw [if_neg this]
    exact ⟨_, _, rfl⟩

/-! ### PYTHIA -/

theorem weights_varied {l : List Num} (hf : ∀ v ∈ l, ∃ q, v = .fin q) (hv : Varied l) :
    ∃ w, Pythia.weights l = .ok w := by
  obtain ⟨m, rfl, -⟩ := finCol_iff.2 ⟨rfl, hf⟩
  obtain ⟨a, ha, b, hb, hab⟩ := hv
  have hne : m ≠ [] := by rintro rfl; cases ha
  rcases Pythia.weights_fin hne with ⟨h, -⟩ | ⟨low, -, -, -, h⟩
  · exfalso
    obtain ⟨p, hp, rfl⟩ := List.mem_map.1 ha
    obtain ⟨q, hq, rfl⟩ := List.mem_map.1 hb
    have h1 := h _ (List.mem_map_of_mem hp)
    have h2 := h _ (List.mem_map_of_mem hq)
    rw [abs_eq_zero, sub_eq_zero] at h1 h2
    exact hab (by rw [h1, h2])
  · exact ⟨_, h⟩

/-- The weights on the performances of a clean table. -/
theorem weights_clean {o : Prelim.Opts} {n k : Nat} {m : List (List Num)} (hm : ∀ r ∈ m, FinCol n r)
    (hn : 0 < n) (hv : ∀ c ∈ Prelim.columns n m, VariedNonzero c) (u : Bool) :
    ∃ w, Pythia.weightMatrix u k n (Prelim.yRawOut o (fun _ => m) 0 0) = .ok w := by
  unfold Pythia.weightMatrix
  cases u with
  | false => exact ⟨_, rfl⟩
  | true =>
    have e : Prelim.yRawOut o (fun _ => m) 0 0 =
        m.map fun r => if o.absPerf then r else r.map Prelim.fixZero := by
      unfold Prelim.yRawOut Prelim.afterPrelim
      cases o.absPerf <;> simp
    rw [e]
    obtain ⟨a, ha, b, hb, hab, ha0, hb0⟩ := hv _ (List.mem_map_of_mem (f := fun j =>
      m.map fun r => r.getD j .nan) (List.mem_range.2 hn))
    have key : ∀ v : Num, v ≠ .fin 0 → v ∈ (m.map fun r => r.getD 0 .nan) →
        v ∈ (m.map fun r => if o.absPerf then r else r.map Prelim.fixZero).flatten := by
      intro v hv0 hvm
      obtain ⟨r, hr1, rfl⟩ := List.mem_map.1 hvm
      have hl := (finCol_iff.1 (hm r hr1)).1
      have hmem : r.getD 0 .nan ∈ r := by
        rw [List.getD_eq_getElem?_getD, List.getElem?_eq_getElem (by omega : 0 < r.length)]
        exact List.getElem_mem _
      refine List.mem_flatten.2 ⟨_, List.mem_map_of_mem hr1, ?_⟩
      cases o.absPerf with
      | true => exact hmem
      | false => exact List.mem_map.2 ⟨_, hmem, Prelim.fixZero_ne hv0⟩
    obtain ⟨w, hw⟩ := weights_varied (l := (m.map fun r => if o.absPerf then r else
        r.map Prelim.fixZero).flatten) (by
      intro v hv
      obtain ⟨r, hr, hvr⟩ := List.mem_flatten.1 hv
      obtain ⟨r', hr', rfl⟩ := List.mem_map.1 hr
      have hf := (finCol_iff.1 (hm r' hr')).2
      revert hvr
      cases o.absPerf with
      | true => exact fun hvr => hf v hvr
      | false =>
        intro hvr
        obtain ⟨v', hv', rfl⟩ := List.mem_map.1 hvr
        obtain ⟨q, rfl⟩ := hf v' hv'
        obtain ⟨q', h', -⟩ := fixZero_fin q
        exact ⟨q', h'⟩) ⟨a, key a ha0 ha, b, key b hb0 hb, hab⟩
    simp only [if_true]
    rw [hw]
    exact ⟨_, rfl⟩

theorem pythia_clean (le : Late V W) (z y : Mat Num) (b : List (List Bool)) (best : List Num)
    (algo : List String) (o1 o2 : Val V W) (hn : 1 < y.ncols) (hb : Pythia.Rect b y.ncols)
    (hw : ∀ u, ∃ w, Pythia.weightMatrix u b.length y.ncols y.rows = .ok w)
    (hs : ∀ j res, le.fitted z y b j = .ok res → Pythia.Sized b.length res) :
    (∃ w1 w2 w3 w4 w5 w6 w7 w8 w9 w10 w11 w12 w13 w14 w15 w16 yHat sel,
      runPythia le [.table z, .table y, .verdicts b, .numbers best, .names algo, o1, o2] =
        .ok [(.mu, w1), (.sigma, w2), (.w, w3), (.cp, w4), (.svm, w5), (.cvcmat, w6), (.y_sub, w7),
          (.y_hat, .verdicts yHat), (.pr0_sub, w8), (.pr0_hat, w9), (.box_consnt, w10), (.k_scale, w11),
          (.accuracy, w12), (.precision, w13), (.recall, w14), (.selection0, .counts sel),
          (.selection1, w15), (.pythia_summary, w16)] ∧ Pythia.Rect yHat y.ncols ∧
          sel.length = b.length ∧ yHat.length = b.length) ∨
    ((∃ e, runPythia le [.table z, .table y, .verdicts b, .numbers best, .names algo, o1, o2] =
        .error (.pythia e)) ∧ ∃ j < y.ncols, Untrainable (le.fitted z y b) b j) := by
  obtain ⟨w, hw⟩ := hw le.useWeights
  cases hp : Pythia.pythia le.pythiaLib y.ncols algo y.rows b best (le.fitted z y b) with
  | ok o =>
    left
    obtain ⟨ht, -, dflt, -, hsel, -⟩ := Pythia.pythia_ok hp
    have inv := Pythia.train_done hs ht
    have hsl : o.selection0.vals.length = b.length := by
      rw [hsel]
      simp [Pythia.Sel.vals, inv.rows.2.1]
    unfold runPythia
    dsimp only
    rw [hw, hp]
    exact ⟨_, _, _, _, _, _, _, _, _, _, _, _, _, _, _, _, _, _, rfl, inv.rect.2.1, hsl, inv.rows.2.1⟩
  | error e =>
    right
    refine ⟨⟨e, by unfold runPythia; dsimp only; rw [hw, hp]⟩, ?_⟩
    by_contra hne
    push Not at hne
    have hall := (Pythia.C97_partial (lib := le.pythiaLib) (labels := algo) (y := y.rows) (yBin := b)
      (yBest := best) (fitted := le.fitted z y b) hn).2 (by
        intro i hi
        have hu := hne i hi
        unfold Untrainable at hu
        push Not at hu
        obtain ⟨res, h1, h2⟩ := hu
        refine ⟨res, h1, ?_⟩
        have key : ∀ v : Bool, (!v) ∈ Pythia.goodColumn b i ∨ (!v) ∈ res.ySub := by
          intro v
          by_contra hcon
          push Not at hcon
          obtain ⟨w, hw, hwv⟩ := h2 v (by
            intro r hr
            have hl := hb r hr
            rw [List.getElem?_eq_getElem (by omega), Option.some.injEq]
            by_contra hrv
            apply hcon.1
            refine List.mem_map.2 ⟨r, hr, ?_⟩
            rw [List.getElem?_eq_getElem (by omega)]
            cases v <;> simp_all)
          apply hcon.2
          cases v <;> cases w <;> simp_all
        exact ⟨key false, key true⟩)
    obtain ⟨out, ho⟩ := hall
    rw [hp] at ho
    cases ho

/-! ### TRACE -/

theorem trace_clean {te : TraceEnv G} (laws : Trace.Laws te.geo)
    (order : ∀ n, (te.order n).Perm (List.range n)) {z : Mat Num} {sel p : List Nat} {beta : List Bool}
    {algo : List String} {yHat yBin : List (List Bool)} (o1 o2 : Val V (Kept G))
    (hz : ∀ r ∈ z.rows, FinCol z.ncols r) (hc : z.ncols = 2) (hh : Pythia.Rect yHat algo.length)
    (hb : Pythia.Rect yBin algo.length) :
    (∃ out, runTrace te [.table z, .counts sel, .counts p, .flags beta, .names algo, .verdicts yHat,
        .verdicts yBin, o1, o2] = .ok out) ∨
    ((∃ e, runTrace te [.table z, .counts sel, .counts p, .flags beta, .names algo, .verdicts yHat,
        .verdicts yBin, o1, o2] = .error (.trace e)) ∧
      ∃ i j b t, i < j ∧ j < algo.length ∧
        (Trace.build te.geo te.purity (z.rows.map place)
          (Trace.bestMask (if te.useSim then sel else p) i)).polygon = some b ∧
        (Trace.build te.geo te.purity (z.rows.map place)
          (Trace.bestMask (if te.useSim then sel else p) j)).polygon = some t ∧
        Trace.Conflict te.geo (z.rows.map place) b t (Trace.bestMask (if te.useSim then sel else p) i)
          (Trace.bestMask (if te.useSim then sel else p) j)) := by
  unfold runTrace
  dsimp only
  have hcond : (isFinite z && z.ncols == 2 &&
      (if te.useSim then yHat else yBin).all (fun r => r.length == algo.length)) = true := by
    simp only [isFinite_iff.2 hz, hc, Bool.and_eq_true, List.all_eq_true, beq_iff_eq, true_and]
    cases te.useSim
    · exact hb
    · exact hh
  rw [if_pos hcond]
  obtain ⟨quals, hq, hiff, hout⟩ := Trace.C94_completes te.geo laws te.purity (z.rows.map place)
    (if te.useSim then yHat else yBin) (if te.useSim then sel else p) beta algo.length
    (te.order algo.length) (order _)
  by_cases hno : ∃ out, Trace.trace te.geo te.purity (z.rows.map place) (if te.useSim then sel else p)
      beta algo.length quals = .ok out
  · left
    obtain ⟨out, ho⟩ := hno
    obtain ⟨-, -, hg, hbst⟩ := hout out ho
    obtain ⟨rows, hr, -⟩ := Trace.summaryRows_ok out algo 0 (by simp [hg]) (by simp [hg, hbst])
    have : footprints te (z.rows.map place) (if te.useSim then yHat else yBin)
        (if te.useSim then sel else p) beta algo = .ok (out, algo.zip rows) := by
      unfold footprints
      rw [hq]
      simp only [ho]
      unfold Trace.summaryTable
      rw [hr]
    rw [this]
    exact ⟨_, rfl⟩
  · right
    have hcon := mt hiff.2 hno
    push Not at hcon
    refine ⟨?_, ?_⟩
    · have : ∃ e, footprints te (z.rows.map place) (if te.useSim then yHat else yBin)
          (if te.useSim then sel else p) beta algo = .error e := by
        unfold footprints
        rw [hq]
        cases ho : Trace.trace te.geo te.purity (z.rows.map place) (if te.useSim then sel else p)
            beta algo.length quals with
        | ok out => exact absurd ⟨out, ho⟩ hno
        | error e => exact ⟨e, by simp only [ho]⟩
      obtain ⟨e, he⟩ := this
      rw [he]
      exact ⟨e, rfl⟩
    · obtain ⟨i, j, b, t, h1, h2, h3, h4, h5⟩ := hcon
      exact ⟨i, j, b, t, h1, h2, h3, h4, h5⟩

/-! ### The last four stages -/

/-- The dictionary after SIFTED. -/
structure Handed (d : Dict Name (Val V W)) (x y yRaw : Mat Num) (feat algo : List String)
    (b : List (List Bool)) (best : List Num) (p : List Nat) (beta : List Bool) : Prop where
  x : d .x = some (.table x)
  y : d .y = some (.table y)
  yRaw : d .y_raw = some (.table yRaw)
  feat : d .feat_labels = some (.names feat)
  algo : d .algo_labels = some (.names algo)
  b : d .y_bin = some (.verdicts b)
  best : d .y_best = some (.numbers best)
  p : d .p = some (.counts p)
  beta : d .beta = some (.flags beta)
  options : ∀ n ∈ [Name.pilot_options, .pythia_options, .cloister_options, .trace_options,
    .parallel_options], (d n).isSome

/-- What PILOT returns. -/
def pilotTuple (w1 w2 w3 w4 a z c b w5 w6 s : Val V W) : List (Name × Val V W) :=
  [(.X0, w1), (.alpha, w2), (.eoptim, w3), (.perf, w4), (.a, a), (.z, z), (.c, c),
    (.b, b), (.error, w5), (.r2, w6), (.pilot_summary, s)]

/-- What PYTHIA returns. -/
def pythiaTuple (u1 u2 u3 u4 u5 u6 u7 yHat u8 u9 u10 u11 u12 u13 u14 sel u15 u16 : Val V W) :
    List (Name × Val V W) :=
  [(.mu, u1), (.sigma, u2), (.w, u3), (.cp, u4), (.svm, u5), (.cvcmat, u6), (.y_sub, u7),
    (.y_hat, yHat), (.pr0_sub, u8), (.pr0_hat, u9), (.box_consnt, u10), (.k_scale, u11),
    (.accuracy, u12), (.precision, u13), (.recall, u14), (.selection0, sel),
    (.selection1, u15), (.pythia_summary, u16)]

theorem late_clean {env : Env V (Kept G)} {le : Nat → Late V (Kept G)} {te : Nat → TraceEnv G}
    (hc : CompleteTrace env le te) (hp : ∀ k, PilotReady (le k))
    (hs : ∀ k z y b j res, (le k).fitted z y b j = .ok res → Pythia.Sized b.length res)
    {d : Dict Name (Val V (Kept G))} {x y yRaw : Mat Num} {feat algo : List String}
    {b : List (List Bool)} {best : List Num} {p : List Nat} {beta : List Bool}
    (h : Handed d x y yRaw feat algo b best p beta)
    (hx : ∀ r ∈ x.rows, FinCol x.ncols r) (hy : noInfinity y = true)
    (hxy : y.rows.length = x.rows.length) (h3 : 3 ≤ x.rows.length) (hf : feat.length = x.ncols)
    (hbl : b.length = x.rows.length) (hpl : p.length = x.rows.length)
    (ha : yRaw.ncols = algo.length) (ha2 : 1 < algo.length) (hb : Pythia.Rect b algo.length)
    (hw : ∀ u, ∃ w, Pythia.weightMatrix u b.length yRaw.ncols yRaw.rows = .ok w)
    (sched : List (List Stg)) (k : Nat) {post : List Stg}
    (hpost : post = [.pilot, .pythia, .cloister, .trace] ∨ post = [.pilot, .cloister, .pythia, .trace]) :
    (∃ d', applyAll ⟨sched, fun s => (inputs s).map Prod.fst, run env⟩ k post d = .ok d') ∨
    ((∃ e, applyAll ⟨sched, fun s => (inputs s).map Prod.fst, run env⟩ k post d =
        .error (.stage (.pythia e))) ∧
      ∃ k z j, j < algo.length ∧ Untrainable ((le k).fitted z yRaw b) b j) ∨
    ((∃ e, applyAll ⟨sched, fun s => (inputs s).map Prod.fst, run env⟩ k post d =
        .error (.stage (.trace e))) ∧ ∃ k, Clash (te k) algo.length x.rows.length p) := by
  have opt : ∀ n ∈ [Name.pilot_options, .pythia_options, .cloister_options, .trace_options,
      .parallel_options], ∃ v, d n = some v := fun n hn => Option.isSome_iff_exists.1 (h.options n hn)
  obtain ⟨o1, ho1⟩ := opt .pilot_options (by simp)
  obtain ⟨o2, ho2⟩ := opt .pythia_options (by simp)
  obtain ⟨o3, ho3⟩ := opt .cloister_options (by simp)
  obtain ⟨o4, ho4⟩ := opt .trace_options (by simp)
  obtain ⟨o5, ho5⟩ := opt .parallel_options (by simp)
  have run1 : ∀ k vs, run env k .pilot vs = runPilot (le k) vs := fun k vs => hc.stages k .pilot vs
  have run2 : ∀ k vs, run env k .pythia vs = runPythia (le k) vs := fun k vs => hc.stages k .pythia vs
  have run3 : ∀ k vs, run env k .cloister vs = runCloister (le k) vs :=
    fun k vs => hc.stages k .cloister vs
  have run4 : ∀ k vs, run env k .trace vs = runTrace (te k) vs :=
    fun k vs => (hc.stages k .trace vs).trans (congrFun (hc.trace k) vs)
  obtain ⟨w1, w2, w3, w4, w5, w6, a, z, c, b', s, hpil, hfa, hz1, hz2, hz3⟩ :=
    pilot_clean (hp k) o1 hx hy hxy h3 hf
  have e1 : applyStage ⟨sched, fun s => (inputs s).map Prod.fst, run env⟩ k .pilot d = _ :=
    applyStage_eq (vs := [.table x, .table y, .names feat, o1]) (by
      simp [inputs, h.x, h.y, h.feat, ho1])
  dsimp only at e1
  rw [run1, hpil] at e1
  dsimp only at e1
  have pil : ∀ (k' : Nat) (D : Dict Name (Val V (Kept G))), D .z = some (.table z) →
      (∀ n ∈ [Name.y_raw, .y_bin, .y_best, .algo_labels, .pythia_options, .parallel_options], D n = d n) →
      applyStage ⟨sched, fun s => (inputs s).map Prod.fst, run env⟩ k' .pythia D =
        match runPythia (le k') [.table z, .table yRaw, .verdicts b, .numbers best, .names algo, o2, o5] with
        | .error e => .error (.stage e)
        | .ok out => .ok (override D out) := by
    intro k' D h1 h2
    have := applyStage_eq (P := ⟨sched, fun s => (inputs s).map Prod.fst, run env⟩) (k := k')
      (s := Stg.pythia) (d := D)
      (vs := [.table z, .table yRaw, .verdicts b, .numbers best, .names algo, o2, o5]) (by
      change [D .z, D .y_raw, D .y_bin, D .y_best, D .algo_labels, D .pythia_options,
        D .parallel_options] = _
      rw [h1, h2 .y_raw (by simp), h2 .y_bin (by simp), h2 .y_best (by simp), h2 .algo_labels (by simp),
        h2 .pythia_options (by simp), h2 .parallel_options (by simp), h.yRaw, h.b, h.best, h.algo, ho2, ho5]
      rfl)
    rw [this]
    dsimp only
    rw [run2]
    cases runPythia (le k') [.table z, .table yRaw, .verdicts b, .numbers best, .names algo, o2, o5] <;> rfl
  have clo : ∀ (k' : Nat) (D : Dict Name (Val V (Kept G))),
      D .x = some (.table x) → D .a = some (.table a) → D .cloister_options = some o3 →
      ∃ e c', applyStage ⟨sched, fun s => (inputs s).map Prod.fst, run env⟩ k' .cloister D =
        .ok (override D [(.z_edge, e), (.z_ecorr, c')]) := by
    intro k' D h1 h2 h4
    obtain ⟨e, c', hcl⟩ := cloister_clean (le k') o3 hx (by omega) hfa
    refine ⟨e, c', ?_⟩
    have := applyStage_eq (P := ⟨sched, fun s => (inputs s).map Prod.fst, run env⟩) (k := k')
      (s := Stg.cloister) (d := D) (vs := [.table x, .table a, o3]) (by
        change [D .x, D .a, D .cloister_options] = _
        rw [h1, h2, h4]
        rfl)
    rw [this]
    dsimp only
    rw [run3, hcl]
  have tra : ∀ (k' : Nat) (D : Dict Name (Val V (Kept G))) (sel : List Nat) (yHat : List (List Bool)),
      D .z = some (.table z) → D .selection0 = some (.counts sel) → D .y_hat = some (.verdicts yHat) →
      (∀ n ∈ [Name.p, .beta, .algo_labels, .y_bin, .trace_options, .parallel_options], D n = d n) →
      applyStage ⟨sched, fun s => (inputs s).map Prod.fst, run env⟩ k' .trace D =
        match runTrace (te k') [.table z, .counts sel, .counts p, .flags beta, .names algo,
          .verdicts yHat, .verdicts b, o4, o5] with
        | .error e => .error (.stage e)
        | .ok out => .ok (override D out) := by
    intro k' D sel yHat h1 h2 h4 h5
    have := applyStage_eq (P := ⟨sched, fun s => (inputs s).map Prod.fst, run env⟩) (k := k')
      (s := Stg.trace) (d := D) (vs := [.table z, .counts sel, .counts p, .flags beta, .names algo,
        .verdicts yHat, .verdicts b, o4, o5]) (by
      change [D .z, D .selection0, D .p, D .beta, D .algo_labels, D .y_hat, D .y_bin, D .trace_options,
        D .parallel_options] = _
      rw [h1, h2, h4, h5 .p (by simp), h5 .beta (by simp), h5 .y_bin (by simp), h5 .algo_labels (by simp),
        h5 .trace_options (by simp), h5 .parallel_options (by simp), h.p, h.beta, h.algo, h.b, ho4, ho5]
      rfl)
    rw [this]
    dsimp only
    rw [run4]
    cases runTrace (te k') [.table z, .counts sel, .counts p, .flags beta, .names algo,
      .verdicts yHat, .verdicts b, o4, o5] <;> rfl
  have fin : ∀ (k' : Nat) (D : Dict Name (Val V (Kept G))) (sel : List Nat) (yHat : List (List Bool)),
      D .z = some (.table z) → D .selection0 = some (.counts sel) → D .y_hat = some (.verdicts yHat) →
      (∀ n ∈ [Name.p, .beta, .algo_labels, .y_bin, .trace_options, .parallel_options], D n = d n) →
      Pythia.Rect yHat algo.length → sel.length = x.rows.length →
      (∃ d', applyStage ⟨sched, fun s => (inputs s).map Prod.fst, run env⟩ k' .trace D = .ok d') ∨
      ((∃ e, applyStage ⟨sched, fun s => (inputs s).map Prod.fst, run env⟩ k' .trace D =
        .error (.stage (.trace e))) ∧ ∃ k, Clash (te k) algo.length x.rows.length p) := by
    intro k' D sel yHat h1 h2 h4 h5 h6 h7
    rw [tra k' D sel yHat h1 h2 h4 h5]
    rcases trace_clean (hc.laws k') (hc.order k') (sel := sel) (p := p) (beta := beta)
      (algo := algo) (yHat := yHat) (yBin := b) o4 o5 hz1 hz2 h6 hb with
      ⟨out, ho⟩ | ⟨⟨e, ho⟩, hcl⟩
    · rw [ho]
      exact .inl ⟨_, rfl⟩
    · rw [ho]
      obtain ⟨i, j, b1, t1, hcl⟩ := hcl
      refine .inr ⟨⟨e, rfl⟩, k', _, _, i, j, b1, t1, ?_, ?_, ?_, hcl⟩
      · simp [hz3]
      · cases (te k').useSim
        · exact hpl
        · exact h7
      · intro hsim
        rw [hsim]
        rfl
  have same : ∀ (l : List Name) (D : Dict Name (Val V (Kept G))) (out : List (Name × Val V (Kept G))),
      (∀ n ∈ l, D n = d n) → (∀ n ∈ l, n ∉ out.map Prod.fst) → ∀ n ∈ l, override D out n = d n :=
    fun l D out h1 h2 n hn => (override_of_not_mem (h2 n hn)).trans (h1 n hn)
  rcases hpost with rfl | rfl
  · have e2 := pil (k + 1) (override d (pilotTuple w1 w2 w3 w4 (.table a) (.table z) c b' w5 w6 s)) rfl
      (same _ _ _ (fun _ _ => rfl) (by simp [pilotTuple]))
    rcases pythia_clean (le (k + 1)) z yRaw b best algo o2 o5 (by omega) (by rw [ha]; exact hb) hw
      (hs (k + 1) z yRaw b) with
      ⟨u1, u2, u3, u4, u5, u6, u7, u8, u9, u10, u11, u12, u13, u14, u15, u16, yHat, sel, hpy, hr1, hsl, -⟩ |
        ⟨⟨e, hpy⟩, j, hj, hun⟩
    · rw [hpy] at e2
      dsimp only at e2
      obtain ⟨e, c', e3⟩ := clo (k + 1 + 1) (override (override d (pilotTuple w1 w2 w3 w4 (.table a)
        (.table z) c b' w5 w6 s)) (pythiaTuple u1 u2 u3 u4 u5 u6 u7 (.verdicts yHat) u8 u9 u10
        u11 u12 u13 u14 (.counts sel) u15 u16)) h.x rfl ho3
      have e4 := fin (k + 1 + 1 + 1) (override (override (override d
          (pilotTuple w1 w2 w3 w4 (.table a) (.table z) c b' w5 w6 s))
          (pythiaTuple u1 u2 u3 u4 u5 u6 u7 (.verdicts yHat) u8 u9 u10 u11 u12 u13 u14 (.counts sel)
            u15 u16)) [(.z_edge, e), (.z_ecorr, c')]) sel yHat rfl rfl rfl
        (same _ _ _ (same _ _ _ (same _ _ _ (fun _ _ => rfl) (by simp [pilotTuple]))
          (by simp [pythiaTuple])) (by simp)) (by rw [← ha]; exact hr1) (hsl.trans hbl)
      simp only [applyAll, e1, pilotTuple, pythiaTuple] at e2 e3 e4 ⊢
      simp only [e2, e3]
      rcases e4 with ⟨d', e4⟩ | ⟨⟨e, e4⟩, hcl⟩
      · left
        rw [e4]
        exact ⟨_, rfl⟩
      · right; right
        rw [e4]
        exact ⟨⟨e, rfl⟩, hcl⟩
    · right; left
      refine ⟨⟨e, ?_⟩, k + 1, z, j, by omega, hun⟩
      rw [hpy] at e2
      simp only [applyAll, e1, pilotTuple] at e2 ⊢
      rw [e2]
  · obtain ⟨e, c', e2⟩ := clo (k + 1) (override d (pilotTuple w1 w2 w3 w4 (.table a)
        (.table z) c b' w5 w6 s)) h.x rfl ho3
    have e3 := pil (k + 1 + 1) (override (override d (pilotTuple w1 w2 w3 w4 (.table a) (.table z) c b' w5
      w6 s)) [(.z_edge, e), (.z_ecorr, c')]) rfl
      (same _ _ _ (same _ _ _ (fun _ _ => rfl) (by simp [pilotTuple])) (by simp))
    rcases pythia_clean (le (k + 1 + 1)) z yRaw b best algo o2 o5 (by omega) (by rw [ha]; exact hb) hw
      (hs (k + 1 + 1) z yRaw b) with
      ⟨u1, u2, u3, u4, u5, u6, u7, u8, u9, u10, u11, u12, u13, u14, u15, u16, yHat, sel, hpy, hr1, hsl, -⟩ |
        ⟨⟨e', hpy⟩, j, hj, hun⟩
    · rw [hpy] at e3
      dsimp only at e3
      have e4 := fin (k + 1 + 1 + 1) (override (override (override d
          (pilotTuple w1 w2 w3 w4 (.table a) (.table z) c b' w5 w6 s)) [(.z_edge, e), (.z_ecorr, c')])
          (pythiaTuple u1 u2 u3 u4 u5 u6 u7 (.verdicts yHat) u8 u9 u10 u11 u12 u13 u14 (.counts sel)
            u15 u16)) sel yHat rfl rfl rfl
        (same _ _ _ (same _ _ _ (same _ _ _ (fun _ _ => rfl) (by simp [pilotTuple])) (by simp))
          (by simp [pythiaTuple])) (by rw [← ha]; exact hr1) (hsl.trans hbl)
      simp only [applyAll, e1, pilotTuple, pythiaTuple] at e2 e3 e4 ⊢
      simp only [e2, e3]
      rcases e4 with ⟨d', e4⟩ | ⟨⟨e, e4⟩, hcl⟩
      · left
        rw [e4]
        exact ⟨_, rfl⟩
      · right; right
        rw [e4]
        exact ⟨⟨e, rfl⟩, hcl⟩
    · right; left
      refine ⟨⟨e', ?_⟩, k + 1 + 1, z, j, by omega, hun⟩
      rw [hpy] at e3
      simp only [applyAll, e1, pilotTuple] at e2 e3 ⊢
      simp only [e2, e3]

end Verif.EndToEnd
