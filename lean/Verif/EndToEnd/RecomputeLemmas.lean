import Verif.EndToEnd.SpaceLemmas
import Verif.EndToEnd.SpecRecompute
import Verif.Prelim.RecordedLemmas
/-! From the raw feature values to the coordinates. -/
set_option autoImplicit false
set_option linter.unusedSectionVars false

namespace Verif.Sifted

/-- The labels do not matter for the other outputs. -/
theorem sifted_unlabelled {α : Type} {lib : Lib} {rho : List (List Num)} {thr : Num} {k nalgos : Nat}
    {x : List α} {labels : List String} {dense : Bool} {out : Out α}
    (h : sifted lib rho thr k nalgos x labels dense = .ok out) :
    ∃ l, Aligned x (List.replicate x.length "") ⟨out.x, l, out.selvars, out.idx, out.silhouettes, out.clust⟩ := by
  have h' : ∃ l, sifted lib rho thr k nalgos x (List.replicate x.length "") dense =
      .ok ⟨out.x, l, out.selvars, out.idx, out.silhouettes, out.clust⟩ := by
    unfold sifted at h ⊢
    simp only at h ⊢
    split at h
    · cases h
    rename_i c1
    rw [if_neg c1]
    split at h
    · rename_i c2
      rw [if_pos c2]
      cases h
      exact ⟨_, rfl⟩
    rename_i c2
    rw [if_neg c2]
    split at h
    · cases h
    rename_i c3
    rw [if_neg c3]
    split at h
    · rename_i c4
      rw [if_pos c4]
      cases h
      exact ⟨_, rfl⟩
    rename_i c4
    rw [if_neg c4]
    split at h
    · cases h
    split at h
    · cases h
    split at h
    · cases h
    split at h
    · cases h
    rename_i c5
    rw [if_neg c5]
    cases h
    exact ⟨_, rfl⟩
  obtain ⟨l, h'⟩ := h'
  exact ⟨l, sifted_aligned (by simp) h'⟩

theorem sifted_columns {α : Type} {lib : Lib} {rho : List (List Num)} {thr : Num} {k nalgos : Nat}
    {x : List α} {labels : List String} {dense : Bool} {out : Out α}
    (h : sifted lib rho thr k nalgos x labels dense = .ok out) :
    (∀ i ∈ out.selvars, i < x.length) ∧ out.x.length = out.selvars.length ∧
      ∀ j i : Nat, out.selvars[j]? = some i → out.x[j]? = x[i]? := by
  obtain ⟨l, this⟩ := sifted_unlabelled h
  exact ⟨this.inRange, this.columns, fun j i hj => (this.same j i hj).1⟩

theorem sifted_increasing {α : Type} {lib : Lib} {rho : List (List Num)} {thr : Num} {k nalgos : Nat}
    {x : List α} {labels : List String} {dense : Bool} {out : Out α}
    (h : sifted lib rho thr k nalgos x labels dense = .ok out) : out.selvars.Pairwise (· < ·) :=
  (sifted_unlabelled h).choose_spec.increasing

theorem sifted_few {α : Type} {lib : Lib} {rho : List (List Num)} {thr : Num} {k nalgos n : Nat}
    {x : List α} {labels : List String} {dense : Bool} {out : Out α} (hx : x.length = n ∧ n ≤ 3)
    (h : sifted lib rho thr k nalgos x labels dense = .ok out) : out.selvars = List.range n := by
  obtain ⟨rfl, hx⟩ := hx
  unfold sifted at h
  simp only [hx, if_true] at h
  split at h
  · cases h
  cases h
  rfl

end Verif.Sifted

namespace Verif.Prelim

theorem mask_pair {α β : Type} : ∀ (l : List α) (l' : List β) (m : List Bool), l.length = l'.length →
    (mask l m).length = (mask l' m).length ∧
      ∀ (k : Nat) (r : α), (mask l m)[k]? = some r → ∃ i : Nat, l[i]? = some r ∧ (mask l' m)[k]? = l'[i]?
  | [], [], m, _ => by simp [mask]
  | a :: l, b :: l', [], _ => by simp [mask]
  | a :: l, b :: l', c :: m, h => by
    obtain ⟨h1, h2⟩ := mask_pair l l' m (by simpa using h)
    cases c with
    | false =>
      refine ⟨by simpa [mask] using h1, fun k r hk => ?_⟩
      obtain ⟨i, h3, h4⟩ := h2 k r (by simpa [mask] using hk)
      exact ⟨i + 1, by simpa using h3, by simpa [mask] using h4⟩
    | true =>
      refine ⟨by simpa [mask] using h1, fun k r hk => ?_⟩
      cases k with
      | zero => exact ⟨0, by simpa [mask] using hk, by simp [mask]⟩
      | succ k =>
        obtain ⟨i, h3, h4⟩ := h2 k r (by simpa [mask] using hk)
        exact ⟨i + 1, by simpa using h3, by simpa [mask] using h4⟩

variable {X Y B N T P L S : Type}

theorem filter_pair {o : SubsetOpts} {tests : Filter.Tests (X × Y × B)} {nfeats : Nat}
    {split : Option (List Nat)} {file : Option (List Int)} {a b : Arrays X Y B N T P L S}
    {dense : Option (Arrays X Y B N T P L S)} (hl : a.x.length = a.xRaw.length)
    (h : filter o tests nfeats split file a = .ok (b, dense)) :
    b.x.length = b.xRaw.length ∧
      ∀ (k : Nat) r, b.x[k]? = some r → ∃ i : Nat, a.x[i]? = some r ∧ b.xRaw[k]? = a.xRaw[i]? := by
  unfold filter at h
  split at h
  · cases h
  split at h
  · cases h
    exact mask_pair _ _ _ hl
  · cases h
    exact ⟨hl, fun k r hk => ⟨k, hk, rfl⟩⟩

end Verif.Prelim

namespace Verif.EndToEnd

open Verif (Num)
open Verif.Pipeline (Stg Name inputs outputs)
open Verif.Metadata (Table Squeezed fromDataFrame)
open Verif.Preprocessing (Mat)
open Verif.Runner (Dict override)

variable {V W : Type} {lower : String → String} {numeric : Squeezed V → Bool} {str : V → V}
  {num : V → Num} {env : Env V W} {le : Nat → Late V W} {t : Table V} {d : Dict Name (Val V W)}

/-- The Model's arrays, from the features that PRELIM gets. -/
structure Route (env : Env V W) (d : Dict Name (Val V W)) (x : Mat Num)
    (a : Prelim.Arrays (List Num) (List Num) (List Bool) Nat Num Nat V V)
    (sel : Sifted.Out (List Num)) : Prop where
  same : a.x.length = a.xRaw.length
  rows : ∀ (k : Nat) r, a.x[k]? = some r → ∃ i : Nat, (rowsOf x.rows.length
    (Prelim.outX env.prelim env.junk env.tr (Prelim.columns x.ncols x.rows)))[i]? = some r ∧
      a.xRaw[k]? = x.rows[i]?
  inRange : ∀ i ∈ sel.selvars, i < x.ncols
  columns : sel.x.length = sel.selvars.length
  picked : ∀ j i : Nat, sel.selvars[j]? = some i → sel.x[j]? = some (a.x.map fun r => r.getD i .nan)
  x_raw : d .x_raw = some (.table ⟨x.ncols, a.xRaw⟩)
  proc : d .x = some (.table ⟨sel.x.length, rowsOf a.x.length sel.x⟩)
  selvars : d .selvars = some (.counts sel.selvars)
  few : x.ncols ≤ 3 → sel.selvars = List.range x.ncols
  lists : ∀ i, i < x.ncols →
    let s := Prelim.recordX env.prelim env.junk env.mid env.fit (x.rows.map fun r => r.getD i .nan)
    Ruled d i ⟨s.lo, s.hi, s.min, s.lambda, s.mu, s.sigma⟩

theorem routed (htup : ∀ k s vs out, env.rest k s vs = .ok out → out.map Prod.fst = (outputs s).map Prod.fst)
    (h : Succeeds lower numeric str num env t d) : ∃ x a sel, Route env d x a sel := by
  obtain ⟨vs1, vs2, vs3, o1, o2, o3, r1, r2, r3, i1, i2, i3, hd⟩ := succeeds_stages htup h
  generalize fromDataFrame lower numeric str t = m at *
  obtain ⟨feat, algo, inst, s, x, y, z, o, rfl, hrun, rfl⟩ := preprocessing_ok r1
  obtain ⟨x', y', xRaw', yRaw', s', inst', z1, z2, outs, ys, a, dense, rfl, hrows, hys, hfil, rfl⟩ :=
    prelim_ok r2
  obtain ⟨x2, y2, yBin2, xRaw2, yRaw2, beta2, ng2, yb2, p2, inst2, feat2, s2, z3, z4, present, z5, corr, sel,
    rfl, hcorr, hsel, rfl⟩ := sifted_ok r3
  have j2 : [some (Val.table o.data.x), some (.table o.data.y), some (.table o.data.x),
      some (.table o.data.y), some (.sources o.data.s), some (.labels o.data.inst),
      args env num m .prelim_options, args env num m .selvars_options] =
      [some (Val.table x'), some (.table y'), some (.table xRaw'), some (.table yRaw'),
        some (.sources s'), some (.labels inst'), some z1, some z2] := i2
  simp only [List.cons.injEq, Option.some.injEq, Val.labels.injEq, Val.sources.injEq, Val.table.injEq,
    and_true] at j2
  obtain ⟨rfl, rfl, rfl, rfl, rfl, rfl, -, -⟩ := j2
  have j3 : [some (Val.table ⟨o.data.x.ncols, a.x⟩), some (.table ⟨o.data.y.ncols, a.y⟩),
      some (.verdicts a.yBin), some (.table ⟨o.data.x.ncols, a.xRaw⟩),
      some (.table ⟨o.data.y.ncols, a.yRaw⟩),
      some (.flags a.beta), some (.counts a.numGood),
      some (.numbers a.yBest), some (.counts a.p),
      some (.labels o.data.inst), some (.names o.data.feat), some (.sources a.s),
      args env num m .sifted_options, args env num m .selvars_options, some (.dense dense.isSome),
      args env num m .parallel_options] =
      [some (Val.table x2), some (.table y2), some (.verdicts yBin2), some xRaw2, some yRaw2, some beta2, some ng2,
        some yb2, some p2, some inst2, some (.names feat2), some s2, some z3, some z4,
        some (.dense present), some z5] := i3
  simp only [List.cons.injEq, Option.some.injEq, Val.names.injEq, Val.dense.injEq, Val.table.injEq,
    Val.verdicts.injEq,
    and_true] at j3
  obtain ⟨rfl, rfl, rfl, rfl, rfl, rfl, rfl, rfl, rfl, rfl, rfl, rfl, -, -, rfl, -⟩ := j3
  have look : ∀ (n : Name) (v : Val V W),
      (∀ st ∈ [Stg.pilot, .pythia, .cloister, .trace], n ∉ (outputs st).map Prod.fst) →
      override (override (override (args env num m) _) _) _ n = some v → d n = some v :=
    fun n v h1 h2 => (hd n h1).trans h2
  obtain ⟨g1, g2⟩ := Prelim.filter_pair (by simp [arrays, rowsOf]) hfil
  obtain ⟨g3, g4, g5⟩ := Sifted.sifted_columns hsel
  simp only [Prelim.columns, List.length_map, List.length_range] at g3
  refine ⟨o.data.x, a, sel, {
    same := g1
    rows := g2
    inRange := g3
    columns := g4
    picked := ?_
    x_raw := look _ _ (by decide) rfl
    proc := look _ _ (by decide) rfl
    selvars := look _ _ (by decide) rfl
    few := fun hf => Sifted.sifted_few ⟨by simp [Prelim.columns], hf⟩ hsel
    lists := ?_ }⟩
  · intro j i hj
    rw [g5 j i hj]
    have := g3 i (List.mem_of_getElem? hj)
    simp [Prelim.columns, this]
  · intro i hi
    have hcol : (Prelim.columns o.data.x.ncols o.data.x.rows)[i]? =
        some (o.data.x.rows.map fun r => r.getD i .nan) := by
      simp [Prelim.columns, hi]
    exact
      { lo := ⟨_, look _ _ (by decide) rfl, by simp only [List.getElem?_map, hcol, Option.map_some]⟩
        hi := ⟨_, look _ _ (by decide) rfl, by simp only [List.getElem?_map, hcol, Option.map_some]⟩
        min := ⟨_, look _ _ (by decide) rfl, by simp only [List.getElem?_map, hcol, Option.map_some]⟩
        lambda := ⟨_, look _ _ (by decide) rfl, by simp only [List.getElem?_map, hcol, Option.map_some]⟩
        mu := ⟨_, look _ _ (by decide) rfl, by simp only [List.getElem?_map, hcol, Option.map_some]⟩
        sigma := ⟨_, look _ _ (by decide) rfl, by simp only [List.getElem?_map, hcol, Option.map_some]⟩ }

theorem outX_each (o : Prelim.Opts) (junk : Num × Num) (tr : List Num → List Num) (cols : List (List Num)) :
    Prelim.outX o junk tr cols = cols.map fun col =>
      let c := if o.bound then Prelim.boundCol junk col else col
      if o.norm then Prelim.normX tr c else c := by
  unfold Prelim.outX
  cases o.bound <;> cases o.norm <;> simp

/-- One processed value of the Model. -/
theorem Route.place {x : Mat Num} {a : Prelim.Arrays (List Num) (List Num) (List Bool) Nat Num Nat V V}
    {sel : Sifted.Out (List Num)} (h : Route env d x a sel) {power : Num → Num → Num}
    (hfit : FitsBy env.tr env.fit power) (hj : env.junk.2.lt env.junk.1 = false) {k j i : Nat} {q : ℚ}
    (hs : sel.selvars[j]? = some i) (hk : k < a.x.length)
    (hq : ((rowsOf a.x.length sel.x).getD k []).getD j .nan = .fin q) :
    ∃ ruler v, Ruled d i ruler ∧ At a.xRaw k i v ∧
      ruler.place env.prelim.bound env.prelim.norm power v = .fin q := by
  have hi := h.inRange i (List.mem_of_getElem? hs)
  have hp := h.picked j i hs
  obtain ⟨i', h1, h2⟩ := h.rows k _ (List.getElem?_eq_getElem hk)
  have hq' : (a.x[k]).getD i .nan = .fin q := by
    rw [← hq]
    simp [rowsOf, List.getD_eq_getElem?_getD, hk, hp]
  rw [outX_each, rowsOf, List.getElem?_map] at h1
  by_cases hi' : i' < x.rows.length
  swap
  · simp [hi'] at h1
  rw [List.getElem?_range hi', Option.map_some, Option.some.injEq] at h1
  have hcol : (Prelim.columns x.ncols x.rows)[i]? = some (x.rows.map fun r => r.getD i .nan) := by
    simp [Prelim.columns, hi]
  rw [← h1, List.getD_eq_getElem?_getD, List.getElem?_map, List.getElem?_map, hcol] at hq'
  simp only [Option.map_some, Option.getD_some] at hq'
  obtain ⟨hv, hplace⟩ := Prelim.outX_place env.mid hfit hj
    (col := x.rows.map fun r => r.getD i .nan) (i := i') (v := (x.rows[i']).getD i .nan) (q := q)
    (by simp [hi']) (by
      rw [List.getD_eq_getElem?_getD] at hq'
      dsimp only at hq' ⊢
      cases hc : (if env.prelim.norm = true then
          Prelim.normX env.tr
            (if env.prelim.bound = true then Prelim.boundCol env.junk (x.rows.map fun r => r.getD i .nan)
              else x.rows.map fun r => r.getD i .nan)
        else
          if env.prelim.bound = true then Prelim.boundCol env.junk (x.rows.map fun r => r.getD i .nan)
          else x.rows.map fun r => r.getD i .nan)[i']? with
      | none => rw [hc] at hq'; cases hq'
      | some w => rw [hc] at hq'; exact congrArg some hq')
  refine ⟨_, _, h.lists i hi, ⟨x.rows[i'], by rw [h2, List.getElem?_eq_getElem hi'], ?_⟩, hplace⟩
  cases hr : (x.rows[i'])[i]? with
  | none => exact absurd (by simp [List.getD_eq_getElem?_getD, hr]) hv
  | some w => simp [List.getD_eq_getElem?_getD, hr]

theorem getD_mem {α : Type} {l : List α} {j : Nat} (h : j < l.length) (v : α) : l.getD j v ∈ l := by
  rw [List.getD_eq_getElem?_getD, List.getElem?_eq_getElem h]
  exact List.getElem_mem _

theorem at_tableOf {p n : Nat} (z : Matrix (Fin p) (Fin n) ℚ) (i : Fin p) (j : Fin n) :
    At (tableOf z).rows i j (.fin (z i j)) :=
  ⟨List.ofFn fun j => .fin (z i j), by simp [tableOf], by simp⟩

theorem zip_ofFn {n : Nat} (f g : Fin n → ℚ) :
    (List.zipWith (· * ·) (List.ofFn f) (List.ofFn g)).sum = ∑ j, f j * g j := by
  rw [← List.sum_ofFn]
  congr 1
  apply List.ext_getElem?
  intro i
  by_cases hi : i < n <;> simp [hi]

theorem recomputed (hc : Complete env le) {power : Num → Num → Num} (hfit : FitsBy env.tr env.fit power)
    (hjunk : env.junk.2.lt env.junk.1 = false) (h : Succeeds lower numeric str num env t d) :
    ∃ raw z a sel, d .x_raw = some (.table raw) ∧ d .z = some (.table z) ∧ d .a = some (.table a) ∧
      d .selvars = some (.counts sel) ∧ z.rows.length = raw.rows.length ∧
      ∀ k < raw.rows.length, ∀ r < 2,
        Recomputed env.prelim.bound env.prelim.norm power d raw.rows z.rows a.rows sel k r := by
  obtain ⟨x, a, sel, hr⟩ := routed hc.tuples h
  obtain ⟨n, vs, out, h1, h2, h3⟩ := succeeds_rest hc.tuples h .pilot (by decide)
  rw [hc.stages] at h1
  obtain ⟨x', y', feat, opts, o, rfl, f1, f2, f3, hp, rfl⟩ := runPilot_ok h1
  simp only [inputs, List.map_cons, List.map_nil, List.cons.injEq] at h2
  have hx := h2.1.symm.trans hr.proc
  simp only [Option.some.injEq, Val.table.injEq] at hx
  subst hx
  have hlen : (rowsOf a.x.length sel.x).length = a.x.length := by simp [rowsOf]
  have hproj := pilot_projects (Pilot.pilotGaps_ok hp).1
  obtain ⟨-, hfin⟩ := isFinite_mem f1
  refine ⟨_, _, _, _, hr.x_raw, h3 .z (.table (tableOf o.z)) (by simp [pilotOut]),
    h3 .a (.table (tableOf o.a)) (by simp [pilotOut]), hr.selvars, ?_, ?_⟩
  · simp [tableOf, rowsOf, hr.same]
  · intro k hk r hr2
    rw [← hr.same] at hk
    have hk' : k < (rowsOf a.x.length sel.x).length := by rw [hlen]; exact hk
    refine ⟨List.ofFn (entries ⟨sel.x.length, rowsOf a.x.length sel.x⟩ _ sel.x.length ⟨k, hk'⟩),
      List.ofFn (o.a ⟨r, hr2⟩), by simp [hr.columns], by simp [hr.columns], ?_, ?_, ?_⟩
    · intro j i hj
      have hjl : j < sel.x.length := by rw [hr.columns]; exact (List.getElem?_eq_some_iff.1 hj).1
      obtain ⟨q, hq⟩ : ∃ q, ((rowsOf a.x.length sel.x).getD k []).getD j .nan = .fin q := by
        apply hfin ((rowsOf a.x.length sel.x).getD k [])
        · exact getD_mem hk' _
        · have : j < ((rowsOf a.x.length sel.x).getD k []).length := by
            simp [rowsOf, List.getD_eq_getElem?_getD, hk, hjl]
          exact getD_mem this _
      obtain ⟨ruler, v, g1, g2, g3⟩ := hr.place hfit hjunk hj hk hq
      refine ⟨ruler, v, q, g1, g2, ?_, g3⟩
      rw [List.getElem?_ofFn, dif_pos hjl]
      simp only [entries]
      rw [hq]
      rfl
    · intro j q hq
      rw [List.getElem?_ofFn] at hq
      split at hq
      · rename_i hjl
        cases hq
        exact at_tableOf o.a ⟨r, hr2⟩ ⟨j, hjl⟩
      · cases hq
    · have := at_tableOf o.z ⟨k, hk'⟩ ⟨r, hr2⟩
      rw [hproj] at this
      rw [zip_ofFn]
      exact this

end Verif.EndToEnd
