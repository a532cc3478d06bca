import Verif.EndToEnd.SpecGaps
import Verif.EndToEnd.TriesLemmas
import Verif.EndToEnd.RescoreLemmas
import Verif.Pilot.PropsVector
import Verif.Pilot.GapsLemmas
/-! Missing performances in a run. -/
set_option autoImplicit false
set_option linter.unusedSectionVars false

namespace Verif.EndToEnd

open Verif (Num)
open Verif.Pipeline (Stg Name inputs outputs)
open Verif.Metadata (Table Squeezed fromDataFrame)
open Verif.Preprocessing (Mat)
open Verif.Runner (Dict override)
open Matrix

variable {V W : Type} {lower : String → String} {numeric : Squeezed V → Bool} {str : V → V}
  {num : V → Num} {env : Env V W} {le : Nat → Late V W} {t : Table V} {d : Dict Name (Val V W)}

theorem filterMap_sum {α : Type} (f : α → Option ℚ) (l : List α) :
    (l.filterMap f).sum = (l.map fun a => (f a).getD 0).sum ∧
      (((l.filterMap f).length : Nat) : ℚ) = (l.map fun a => if (f a).isSome then (1 : ℚ) else 0).sum := by
  induction l with
  | nil => simp
  | cons a l ih =>
    cases h : f a with
    | none => simp [List.filterMap_cons, h, ih]
    | some v => simp [List.filterMap_cons, h, ih]; ring

theorem errorGaps_misfit {p n q : Nat} (x : Matrix (Fin p) (Fin n) ℚ) (y : Fin p → Fin q → Num)
    (hy : ∀ i k, y i k = .nan ∨ ∃ v, y i k = .fin v) (v : Fin (2 * (n + q) + 2 * n) → ℚ) :
    Pilot.errorGaps (Pilot.xBar x fun i k => value (y i k)) (fun i k => (y i k).isNan) v =
      misfit x y (Pilot.aOf v) (fun j => Pilot.bOf v (Fin.castAdd q j)) fun k j => Pilot.bOf v (Fin.natAdd n j) k := by
  unfold Pilot.errorGaps misfit average
  dsimp only
  rw [List.length_map, List.length_finRange, ← Fin.sum_univ_def]
  congr 1
  refine Finset.sum_congr rfl fun i _ => ?_
  have happ : ∀ j, (Pilot.bOf v * Pilot.aOf v *
      Matrix.transpose fun i j => Pilot.xBar x (fun i k => value (y i k)) i (Fin.castAdd q j)).transpose i j =
         (∑ l, x i l * Pilot.aOf v 0 l) * Pilot.bOf v j 0 + (∑ l, x i l * Pilot.aOf v 1 l) * Pilot.bOf v j 1 := by
    intro j
    rw [Matrix.mul_assoc, transpose_apply, mul_apply, Fin.sum_univ_two]
    simp only [mul_apply, Pilot.xBar, Fin.append_left]
    rw [mul_comm (Pilot.bOf v j 0), mul_comm (Pilot.bOf v j 1)]
    simp only [mul_comm]
    rfl
  have hlen : ((Finset.univ.filter fun j => Pilot.isThere (n := n) (fun i k => (y i k).isNan) i j = true).card : ℚ) =
      (n : ℚ) + ∑ k, if (y i k).isNan then (0 : ℚ) else 1 := by
    rw [Finset.card_filter, Nat.cast_sum, Fin.sum_univ_add]
    congr 1
    · simp [Pilot.isThere]
    · refine Finset.sum_congr rfl fun k _ => ?_
      cases h : (y i k).isNan <;> simp [Pilot.isThere, h]
  congr 1
  · rw [Fin.sum_univ_add]
    unfold leftOver
    rw [List.sum_append, (filterMap_sum _ _).1, ← Fin.sum_univ_def, ← Fin.sum_univ_def]
    congr 1
    · refine Finset.sum_congr rfl fun j _ => ?_
      rw [happ]
      simp [Pilot.isThere, Pilot.xBar]
    · refine Finset.sum_congr rfl fun k _ => ?_
      rw [happ]
      rcases hy i k with h | ⟨w, h⟩
      · simp [Pilot.isThere, h, Num.isNan]
      · simp [Pilot.isThere, h, Num.isNan, Pilot.xBar, value]
  · rw [hlen]
    unfold leftOver
    rw [List.length_append, List.length_map, List.length_finRange, Nat.cast_add, (filterMap_sum _ _).2,
      ← Fin.sum_univ_def]
    congr 1
    refine Finset.sum_congr rfl fun k _ => ?_
    rcases hy i k with h | ⟨w, h⟩ <;> simp [h, Num.isNan]

theorem storesSome_entries {n : Name} {m : Mat Num} {p : Nat} (h : d n = some (.table m))
    (hf : noInfinity m = true) (hp : m.rows.length = p) :
    StoresSome d n (fun (i : Fin p) (j : Fin m.ncols) => (m.rows.getD i []).getD j .nan) ∧
      ∀ (i : Fin p) (j : Fin m.ncols), (m.rows.getD i []).getD j .nan = .nan ∨
        ∃ v, (m.rows.getD i []).getD j .nan = .fin v := by
  obtain ⟨h1, h2⟩ := noInfinity_mem hf
  have key : ∀ (i : Fin p) (j : Fin m.ncols), At m.rows i j ((m.rows.getD i []).getD j .nan) := by
    intro i j
    have hi : i.val < m.rows.length := by rw [hp]; exact i.isLt
    have hmem : m.rows[i.val] ∈ m.rows := List.getElem_mem _
    have hj : j.val < (m.rows[i.val]).length := by rw [h1 _ hmem]; exact j.isLt
    refine ⟨m.rows[i.val], List.getElem?_eq_getElem hi, ?_⟩
    simp [List.getD_eq_getElem?_getD, List.getElem?_eq_getElem hi, List.getElem?_eq_getElem hj]
  refine ⟨⟨m, h, rfl, hp, key⟩, fun i j => ?_⟩
  obtain ⟨r, hr, hv⟩ := key i j
  exact h2 r (List.mem_of_getElem? hr) _ (List.mem_of_getElem? hv)

theorem column_of {n q : Nat} {l : List (Fin (2 * (n + q) + 2 * n) → ℚ)} {i : Nat} {f : ℚ → ℚ}
    {v : Fin (2 * (n + q) + 2 * n) → ℚ} (h : l[i]? = some fun k => f (v k)) :
    Column (columnsOf l).rows i f (Pilot.aOf v) (fun j => Pilot.bOf v (Fin.castAdd q j))
      fun k j => Pilot.bOf v (Fin.natAdd n j) k := by
  refine ⟨fun k j => ?_, fun j k => ?_, fun j k => ?_⟩
  · have hr : k.val * n + j.val < 2 * (n + q) + 2 * n := by
      have : k.val * n ≤ 1 * n := Nat.mul_le_mul_right _ (by omega)
      omega
    exact at_columnsOf h hr
  · have hr : 2 * n + (2 * j.val + k.val) < 2 * (n + q) + 2 * n := by omega
    exact at_columnsOf h hr
  · have hr : 2 * n + 2 * n + (2 * j.val + k.val) < 2 * (n + q) + 2 * n := by omega
    have := at_columnsOf h hr
    convert this using 3
    unfold Pilot.bOf
    congr 1
    apply Fin.ext
    simp only [Fin.val_natAdd]
    omega

/-- Where the rows of the processed and the raw performances come from. -/
theorem scores_routed
    (htup : ∀ k s vs out, env.rest k s vs = .ok out → out.map Prod.fst = (outputs s).map Prod.fst)
    (h : Succeeds lower numeric str num env t d) :
    ∃ (n : Nat) (m raw y cols : List (List Num)) (best : List Num) (outs : List Prelim.Row),
      d .y_raw = some (.table ⟨n, raw⟩) ∧ d .y = some (.table ⟨n, y⟩) ∧ d .y_best = some (.numbers best) ∧
      Prelim.rows env.prelim m = some outs ∧ Prelim.outY env.prelim env.tr n m = some cols ∧
      y.length = raw.length ∧ ∀ (k : Nat) r, y[k]? = some r → ∃ i < outs.length, r = cols.map (·.getD i .nan) ∧
        raw[k]? = (outs.map Prelim.Row.yIn)[i]? ∧ best[k]? = (outs.map Prelim.Row.yBest)[i]? := by
  obtain ⟨vs1, vs2, vs3, o1, o2, o3, r1, r2, r3, i1, i2, i3, hd⟩ := succeeds_stages htup h
  generalize fromDataFrame lower numeric str t = m at *
  obtain ⟨feat, algo, inst, s, x, y, z, o, rfl, hrun, rfl⟩ := preprocessing_ok r1
  obtain ⟨x', y', xRaw', yRaw', s', inst', z1, z2, outs, ys, a, dense, rfl, hrows, hys, hfil, rfl⟩ :=
    prelim_ok r2
  obtain ⟨x2, y2, yBin2, xRaw2, yRaw2, beta2, ng2, yb2, p2, inst2, feat2, s2, z3, z4, present, z5, corr, sel,
    rfl, hcorr, hsel, rfl⟩ := sifted_ok r3
  have j2 : [some (Val.table o.data.x), some (.table o.data.y), some (.table o.data.x),
      some (.table o.data.y), some (.sources o.data.s), some (.labels o.data.inst),
      args env num m .prelim_options, args env num m .selvars_options] =
      [some (Val.table x'), some (.table y'), some (.table xRaw'), some (.table yRaw'),
        some (.sources s'), some (.labels inst'), some z1, some z2] := i2
  simp only [List.cons.injEq, Option.some.injEq, Val.labels.injEq, Val.sources.injEq, Val.table.injEq,
    and_true] at j2
  obtain ⟨rfl, rfl, rfl, rfl, rfl, rfl, -, -⟩ := j2
  have j3 : [some (Val.table ⟨o.data.x.ncols, a.x⟩), some (.table ⟨o.data.y.ncols, a.y⟩),
      some (.verdicts a.yBin), some (.table ⟨o.data.x.ncols, a.xRaw⟩),
      some (.table ⟨o.data.y.ncols, a.yRaw⟩),
      some (.flags a.beta), some (.counts a.numGood),
      some (.numbers a.yBest), some (.counts a.p),
      some (.labels o.data.inst), some (.names o.data.feat), some (.sources a.s),
      args env num m .sifted_options, args env num m .selvars_options, some (.dense dense.isSome),
      args env num m .parallel_options] =
      [some (Val.table x2), some (.table y2), some (.verdicts yBin2), some xRaw2, some yRaw2, some beta2, some ng2,
        some yb2, some p2, some inst2, some (.names feat2), some s2, some z3, some z4,
        some (.dense present), some z5] := i3
  simp only [List.cons.injEq, Option.some.injEq, Val.names.injEq, Val.dense.injEq, Val.table.injEq,
    Val.verdicts.injEq,
    and_true] at j3
  obtain ⟨rfl, rfl, rfl, rfl, rfl, rfl, rfl, rfl, rfl, rfl, rfl, rfl, -, -, rfl, -⟩ := j3
  have look : ∀ (n : Name) (v : Val V W),
      (∀ st ∈ [Stg.pilot, .pythia, .cloister, .trace], n ∉ (outputs st).map Prod.fst) →
      override (override (override (args env num m) _) _) _ n = some v → d n = some v :=
    fun n v h1 h2 => (hd n h1).trans h2
  have hyr := Prelim.rows_yIn hrows
  have hlen : o.data.y.rows.length = outs.length := by
    simpa using congrArg List.length (Prelim.rows_iff.1 hrows)
  have hw := outY_width hys
  obtain ⟨g1, g2⟩ := Prelim.filter_scores (by simp [arrays, rowsOf, hyr, hlen])
    (by simp [arrays, rowsOf, hlen]) hfil
  refine ⟨o.data.y.ncols, o.data.y.rows, a.yRaw, a.y, ys, a.yBest, outs,
    look .y_raw (.table ⟨o.data.y.ncols, a.yRaw⟩) (by decide) rfl,
    look .y (.table ⟨o.data.y.ncols, a.y⟩) (by decide) rfl, look .y_best (.numbers a.yBest) (by decide) rfl,
    hrows, hys, g1, fun k r hk => ?_⟩
  obtain ⟨i, h1, h2, h3⟩ := g2 k r hk
  simp only [arrays] at h1 h2 h3
  rw [hyr] at h2
  rw [rowsOf, List.getElem?_map] at h1
  obtain ⟨i', h4, rfl⟩ := Option.map_eq_some_iff.1 h1
  obtain ⟨hi, rfl⟩ := List.getElem?_eq_some_iff.1 h4
  simp only [List.length_range] at hi
  exact ⟨i, by omega, by simp, h2, h3⟩

/-- With normalisation, a missing performance wipes all processed performances. -/
theorem wiped (htup : ∀ k s vs out, env.rest k s vs = .ok out → out.map Prod.fst = (outputs s).map Prod.fst)
    (hn : env.prelim.norm = true) (h : Succeeds lower numeric str num env t d) {raw : Mat Num}
    (hraw : d .y_raw = some (.table raw)) {k j : Nat} (hj : j < raw.ncols) (hm : At raw.rows k j .nan) :
    ∃ y, d .y = some (.table y) ∧ y.rows.length = raw.rows.length ∧
      ∀ r ∈ y.rows, r.length = raw.ncols ∧ ∀ v ∈ r, v = .nan := by
  obtain ⟨n, m, raw', y, cols, best, outs, e1, e2, -, hr, hy, hl, hrow⟩ := scores_routed htup h
  rw [hraw, Option.some.injEq, Val.table.injEq] at e1
  subst e1
  obtain ⟨u, hu, hv⟩ := hm
  have hk : k < y.length := by rw [hl]; exact (List.getElem?_eq_some_iff.1 hu).1
  obtain ⟨i, hi, -, h2, -⟩ := hrow k _ (List.getElem?_eq_getElem hk)
  dsimp only at hu
  rw [h2, List.getElem?_map, List.getElem?_eq_getElem hi, Option.map_some, Option.some.injEq] at hu
  subst hu
  have hnan : Num.nan ∈ (Prelim.columns n (outs.map Prelim.Row.yIn)).flatten := by
    rw [List.mem_flatten]
    refine ⟨_, List.mem_map.2 ⟨j, List.mem_range.2 hj, rfl⟩, List.mem_map.2 ⟨outs[i].yIn,
      List.mem_map_of_mem (List.getElem_mem hi), ?_⟩⟩
    rw [List.getD_eq_getElem?_getD, hv]
    rfl
  have hcols : ∀ c ∈ cols, ∀ v ∈ c, v = .nan := by
    unfold Prelim.outY at hy
    rw [hr] at hy
    simp only [Option.map_some, Option.some.injEq, hn, if_true] at hy
    rw [Prelim.C42_y_wiped_partial _ _ hnan] at hy
    subst hy
    intro c hc v hv
    obtain ⟨c', -, rfl⟩ := List.mem_map.1 hc
    obtain ⟨_, -, rfl⟩ := List.mem_map.1 hv
    rfl
  have hw := outY_width hy
  refine ⟨⟨n, y⟩, e2, hl, fun r hr' => ?_⟩
  obtain ⟨k', hk'⟩ := List.mem_iff_getElem?.1 hr'
  obtain ⟨i', -, rfl, -⟩ := hrow k' r hk'
  refine ⟨by simpa using hw, fun v hv => ?_⟩
  obtain ⟨c, hc, rfl⟩ := List.mem_map.1 hv
  rw [List.getD_eq_getElem?_getD]
  cases hci : c[i']? with
  | none => rfl
  | some w => exact hcols c hc w (List.mem_of_getElem? hci)

/-- Without normalisation, what becomes of a performance. -/
theorem unwiped (htup : ∀ k s vs out, env.rest k s vs = .ok out → out.map Prod.fst = (outputs s).map Prod.fst)
    (hn : env.prelim.norm = false) (h : Succeeds lower numeric str num env t d) :
    ∃ raw y best, d .y_raw = some (.table raw) ∧ d .y = some (.table y) ∧ d .y_best = some (.numbers best) ∧
      y.rows.length = raw.rows.length ∧ ∀ (k j : Nat) w, j < raw.ncols → At raw.rows k j w → ∃ b, best[k]? = some b ∧
        At y.rows k j (if env.prelim.absPerf then w else if env.prelim.maxPerf then 1 - w / b else 1 - b / w) := by
  obtain ⟨n, m, raw, y, cols, best, outs, e1, e2, e3, hr, hy, hl, hrow⟩ := scores_routed htup h
  refine ⟨_, _, _, e1, e2, e3, hl, ?_⟩
  rintro k j w hj ⟨u, hu, hv⟩
  dsimp only at hj hu
  have hk : k < y.length := by rw [hl]; exact (List.getElem?_eq_some_iff.1 hu).1
  obtain ⟨i, hi, h1, h2, h3⟩ := hrow k _ (List.getElem?_eq_getElem hk)
  rw [h2, List.getElem?_map, List.getElem?_eq_getElem hi, Option.map_some, Option.some.injEq] at hu
  rw [List.getElem?_map, List.getElem?_eq_getElem hi, Option.map_some] at h3
  subst hu
  refine ⟨_, h3, _, List.getElem?_eq_getElem hk, ?_⟩
  unfold Prelim.outY at hy
  rw [hr] at hy
  simp only [Option.map_some, Option.some.injEq, hn, Bool.false_eq_true, if_false] at hy
  obtain ⟨row, hrow⟩ := Prelim.rows_step hr (List.getElem_mem hi)
  obtain ⟨-, hyy⟩ := Prelim.rowStep_parts hrow
  rw [h1, ← hy]
  simp only [Prelim.columns, List.map_map, List.getElem?_map, List.getElem?_range hj, Option.map_some,
    Option.some.injEq, Function.comp_apply]
  rw [List.getD_eq_getElem?_getD, List.getElem?_map, List.getElem?_eq_getElem hi, Option.map_some, Option.getD_some,
    Function.comp_apply, List.getD_eq_getElem?_getD, hyy]
  cases env.prelim.absPerf <;> simp [hv]

/-- The tries of PILOT fit what is present. -/
theorem fitted_all (hc : Complete env le) (hm : ∀ k n q, ((le k).pilotOpts n q).analytic = false) {round : ℚ → ℚ}
    (hr : ∀ k p n q (x : Matrix (Fin p) (Fin n) ℚ) v, ((le k).pilotLib (q := q) x).half v = round v)
    (hh : ∀ v, round (round v) = round v)
    (hd : ∀ k p n q (x : Matrix (Fin p) (Fin n) ℚ), Descends ((le k).pilotLib (q := q) x))
    (h : Succeeds lower numeric str num env t d) :
    ∃ perf, d .perf = some (.numbers perf) ∧ 0 < perf.length ∧ ∀ i < perf.length, Fitted d round i := by
  obtain ⟨k, x, y, feat, o, hx, hy, f1, f2, f3, hp, hall⟩ := pilot_all hc h
  replace hp := (Pilot.pilotGaps_ok hp).1
  obtain ⟨x0, idx, -, -, hx0, hlen, hlt, -, -, ho0, hperf, -, heo, -⟩ := Pilot.numerical_ok (hm k _ _) hp
  have halpha := Pilot.numerical_alpha (hm k _ _) hp
  rw [← hx0] at halpha
  obtain ⟨hs, hfin⟩ := storesSome_entries hy f2 f3
  generalize hlib : ((le k).pilotLib (entries x x.rows.length x.ncols)).onGaps (entries x x.rows.length x.ncols)
    (entries y x.rows.length y.ncols) (gapsOf y x.rows.length y.ncols) = lib at *
  have hh' : ∀ v, lib.half v = round v := by subst hlib; exact hr k _ _ _ _
  simp only [hh', hh] at halpha
  have hobj : ∀ g v, lib.bfgs g v = ((le k).pilotLib (entries x x.rows.length x.ncols)).bfgs
      (Pilot.errorGaps (Pilot.xBar (entries x x.rows.length x.ncols) (entries y x.rows.length y.ncols))
        (gapsOf y x.rows.length y.ncols)) v := by
    subst hlib
    intro g v
    rfl
  refine ⟨_, hall .perf (.numbers _) (by simp [pilotOut, hperf]; rfl), by simp; omega, fun i hi => ?_⟩
  have hi' : i < ((le k).pilotOpts x.ncols y.ncols).nTries := by
    simp only [List.length_map, List.length_take] at hi
    omega
  have hg : (x0.take ((le k).pilotOpts x.ncols y.ncols).nTries)[i]? = some x0[i] := by
    rw [List.getElem?_take, if_pos hi', List.getElem?_eq_getElem (by omega)]
  have hval := hd k _ _ _ (entries x x.rows.length x.ncols) (Pilot.errorGaps (Pilot.xBar (entries x x.rows.length x.ncols)
    (entries y x.rows.length y.ncols)) (gapsOf y x.rows.length y.ncols)) x0[i]
  have hmis := errorGaps_misfit (entries x x.rows.length x.ncols)
    (fun (i : Fin x.rows.length) (j : Fin y.ncols) => (y.rows.getD i []).getD j .nan) hfin
  refine ⟨_, _, _, _, _, _, _, _, _, _, _, _, _, stores_entries hx f1 rfl, hs,
    hall .alpha (.table _) (by simp [pilotOut, halpha]; rfl), hall .X0 (.table _) (by simp [pilotOut, ho0]; rfl),
    column_of (v := (lib.bfgs (Pilot.errorFunction (Pilot.xBar (entries x x.rows.length x.ncols)
      (entries y x.rows.length y.ncols))) x0[i]).1) ?_, column_of (f := id) (v := x0[i]) ?_,
    ⟨_, hall .eoptim (.numbers _) (by simp [pilotOut, heo]; rfl), ?_⟩, ?_⟩
  · rw [← List.map_take, List.getElem?_map, hg]
    rfl
  · exact List.getElem?_eq_getElem _
  · rw [← List.map_take, List.getElem?_map, hg]
    simp only [Option.map_some, Option.some.injEq, Function.comp_apply, Num.fin.injEq]
    refine Eq.trans ?_ (hmis _)
    rw [hobj]
    exact hval.1
  · refine le_of_eq_of_le (hmis _).symm (le_of_le_of_eq ?_ (hmis _))
    rw [hobj]
    exact hval.1 ▸ hval.2

end Verif.EndToEnd
