import Verif.EndToEnd.SampleLemmas
import Verif.EndToEnd.SpecSample
/-! With a subset of the instances, all arrays are about the same rows of the table. -/
set_option autoImplicit false
set_option linter.unusedSectionVars false

namespace Verif.EndToEnd

open Verif (Num)
open Verif.Pipeline (Stg Name)
open Verif.Metadata (Table Squeezed Begins fromDataFrame Meta)
open Verif.Preprocessing (Lists pick)
open Verif.Prelim (worst)
open Verif.Runner (Dict)

variable {V W : Type} {lower : String → String} {numeric : Squeezed V → Bool} {str : V → V}
  {num : V → Num} {env : Env V W} {t : Table V} {labels : List V} {d : Dict Name (Val V W)}

theorem at_pick {α : Type} {l : List α} {is : List Nat} (hl : ∀ i ∈ is, i < l.length) {k q : Nat}
    (hq : is[k]? = some q) : (pick l is)[k]? = l[q]? := by
  rw [Preprocessing.pick_getElem? _ _ hl, hq]
  rfl

theorem of_pick {α : Type} {l : List α} {is : List Nat} (hl : ∀ i ∈ is, i < l.length) {k : Nat} {i : α}
    (hq : (pick l is)[k]? = some i) : ∃ q : Nat, is[k]? = some q ∧ l[q]? = some i := by
  rw [Preprocessing.pick_getElem? _ _ hl] at hq
  cases h : is[k]? with
  | none => rw [h] at hq; cases hq
  | some q => exact ⟨q, rfl, by rw [h] at hq; exact hq⟩

variable {m : Meta V} {inst : List V} {s : Option (List V)} {o : Preprocessing.Output Num String V V}
  {outs : List Prelim.Row} {ys : List (List Num)}
  {a : Prelim.Arrays (List Num) (List Num) (List Bool) Nat Num Nat V V} {sel : Sifted.Out (List Num)}
  {rows is : List Nat}

/-- The arrays are about the rows at the positions `is`. -/
theorem about (ho : Readable lower env t labels) (hk : KeptRows lower num env t rows)
    (tr : Sampled num env (fromDataFrame lower numeric str t) d inst s o outs ys a sel)
    (hs : o.data.s = s.map (pick · rows)) (hsl : ∀ l, s = some l → l.length = t.nrows)
    (hy : Located num t rows o.algo o.data.y.rows) (hx : Located num t rows o.data.feat o.data.x.rows)
    (hyn : o.data.y.ncols = o.algo.length) (hxn : o.data.x.ncols = o.data.feat.length)
    (hin : ∀ i ∈ is, i < o.data.x.rows.length)
    (hp : Prelim.SamePicks is
      (arrays env o.data.x o.data.y o.data.x o.data.y o.data.s o.data.inst outs ys) a) :
    AboutRows lower num env t d o.algo sel.featLabels rows (pick rows is) := by
  have hr : ∀ i ∈ rows, i < t.nrows := fun i hi => ((hk.exact i).1 hi).1
  have hlen : o.data.x.rows.length = rows.length := hx.nrows
  have hlen2 : o.data.y.rows.length = rows.length := hy.nrows
  rw [hlen] at hin
  have hsub : (pick rows is).length = is.length := Preprocessing.pick_length _ _ hin
  obtain ⟨hol, hor⟩ := outs_row tr.rows
  have hout : ∀ {β : Type} (f : Prelim.Row → β) (i : Nat), i ∈ is → i < (outs.map f).length := by
    intro β f i hi
    rw [List.length_map, hol, hlen2]
    exact hin i hi
  have hyb : a.yBin = pick (outs.map (·.yBin)) is := hp.yBin
  have hpp : a.p = pick (outs.map (·.p)) is := hp.p
  have hbest : a.yBest = pick (outs.map (·.yBest)) is := hp.yBest
  have hng : a.numGood = pick (outs.map (·.numGood)) is := hp.numGood
  have hbeta : a.beta = pick (outs.map (·.beta)) is := hp.beta
  have hxr : a.xRaw = pick o.data.x.rows is := hp.xRaw
  have hyr : a.yRaw = pick (o.data.y.rows.map fun r =>
      if env.prelim.absPerf then r else r.map Prelim.fixZero) is := by
    rw [← yRawOut_eq]
    exact hp.yRaw
  have hax : a.x = pick (rowsOf o.data.x.rows.length
      (Prelim.outX env.prelim env.junk env.tr (Prelim.columns o.data.x.ncols o.data.x.rows))) is := hp.x
  have has : a.s = o.data.s.map fun s => pick s is := hp.s
  obtain ⟨lib, rho, bb, hsel⟩ := tr.sifted
  have al := Sifted.C69_aligned (by simp [Prelim.columns, hxn]) hsel
  constructor
  · rcases tr.sources with ⟨h1, rfl⟩ | ⟨l, h1, rfl⟩
    · refine .inl ⟨by rw [tr.s_out, has, hs]; rfl, ?_⟩
      intro c hc hcs
      simp only [fromDataFrame] at h1
      split at h1
      · cases h1
      · rename_i hn
        exact hn (List.any_eq_true.2 ⟨c, hc, by simp [Metadata.isSource, hcs]⟩)
    · obtain ⟨name, hone, hll⟩ := sources_series ho h1
      have hpl : (pick l rows).length = rows.length :=
        Preprocessing.pick_length _ _ (by rw [hll]; exact hr)
      refine .inr ⟨_, by rw [tr.s_out, has, hs]; rfl, ?_, ?_⟩
      · rw [hsub, Preprocessing.pick_length _ _ (by rw [hpl]; exact hin)]
      · intro k i hki
        obtain ⟨q, hq, hqi⟩ := of_pick hin hki
        have hm : (name, l) ∈ t.cols.filter fun c => lower c.1 == "source" := by simp [hone]
        refine ⟨(name, l), (List.mem_filter.1 hm).1, by simpa using (List.mem_filter.1 hm).2, ?_⟩
        rw [at_pick (by rw [hpl]; exact hin) hq, Preprocessing.pick_getElem? _ _ (by rw [hll]; exact hr),
          hqi]
        rfl
  · intro habs e he
    refine ⟨_, tr.y_bin, by rw [hyb, Preprocessing.pick_length _ _ (hout _), hsub], ?_⟩
    intro k i j a v hki hja hv
    obtain ⟨q, hq, hqi⟩ := of_pick hin hki
    obtain ⟨r, hr⟩ := row_exists hy hqi
    obtain ⟨out, ho1, ho2⟩ := hor q r hr
    have hcell := (located_row hy hqi hr).2.1 j a v hja hv
    rw [← Prelim.C35_absolute env.prelim e habs he r out ho2 j (num v) hcell]
    unfold At Prelim.MarkedGood
    rw [hyb, at_pick (hout _) hq, List.getElem?_map, ho1]
    simp
  · intro habs e he he1
    refine ⟨_, tr.y_bin, by rw [hyb, Preprocessing.pick_length _ _ (hout _), hsub], ?_⟩
    intro k i j a v b hki hja hv hb hpos
    obtain ⟨q, hq, hqi⟩ := of_pick hin hki
    obtain ⟨r, hr⟩ := row_exists hy hqi
    obtain ⟨out, ho1, ho2⟩ := hor q r hr
    have hcell := (located_row hy hqi hr).2.1 j a v hja hv
    rw [← Prelim.C36_partial env.prelim e r out j (num v) b habs he he1 ho2 hcell
      (isBest_of_cell hy hqi hr hb) hpos]
    unfold At Prelim.MarkedGood
    rw [hyb, at_pick (hout _) hq, List.getElem?_map, ho1]
    simp
  · refine ⟨_, _, tr.p, tr.y_best, by rw [hpp, Preprocessing.pick_length _ _ (hout _), hsub],
      by rw [hbest, Preprocessing.pick_length _ _ (hout _), hsub], ?_⟩
    intro k i b hki hb hw hex
    obtain ⟨q, hq, hqi⟩ := of_pick hin hki
    obtain ⟨r, hr⟩ := row_exists hy hqi
    obtain ⟨out, ho1, ho2⟩ := hor q r hr
    obtain ⟨hrl, hrc, -⟩ := located_row hy hqi hr
    obtain ⟨p1, p2, p3, p4, p5⟩ := Prelim.C38_partial env.prelim r out b ho2
      (isBest_of_cell hy hqi hr hb) hw (by
        rcases hex with h | h | h
        · exact .inl h
        · exact .inr (.inl h)
        · exact .inr (.inr (.inl h)))
    have hj : out.p - 1 < o.algo.length := by rw [← hrl]; omega
    have hja : o.algo[out.p - 1]? = some o.algo[out.p - 1] := List.getElem?_eq_getElem hj
    obtain ⟨v, hv⟩ := hy.all q i _ _ hqi hja
    have hcell := hrc _ _ v hja hv
    rw [p3] at hcell
    refine ⟨out.p - 1, o.algo[out.p - 1], v, ?_, hja, hv, (Option.some.inj hcell).symm, ?_, ?_⟩
    · rw [hpp, at_pick (hout _) hq, List.getElem?_map, ho1]
      simp only [Option.map_some, Option.some.injEq]
      omega
    · intro j' a' v' hlt hja' hv' he
      apply p4 j' hlt
      rw [hrc j' a' v' hja' hv', he]
    · intro hz
      rw [hbest, at_pick (hout _) hq, List.getElem?_map, ho1]
      simp only [Option.map_some, Option.some.injEq]
      rw [p5, if_neg]
      rintro ⟨q1, q2⟩
      rcases hz with hz | hz
      · rw [q1] at hz; cases hz
      · exact hz q2
  · have hyrl : ∀ i ∈ is, i < (o.data.y.rows.map fun r =>
        if env.prelim.absPerf then r else r.map Prelim.fixZero).length := by
      intro i hi
      rw [List.length_map, hlen2]
      exact hin i hi
    refine ⟨_, tr.y_raw, by rw [hyr, Preprocessing.pick_length _ _ hyrl, hsub], hyn, ?_⟩
    intro k i j a v hki hja hv
    obtain ⟨q, hq, hqi⟩ := of_pick hin hki
    obtain ⟨r, hr, hrj⟩ := bind_at.1 (hy.cells q i j a v hqi hja hv)
    refine ⟨_, by rw [hyr, at_pick hyrl hq, List.getElem?_map, hr]; rfl, ?_⟩
    cases env.prelim.absPerf with
    | true => simpa using hrj
    | false =>
      simp only [Bool.false_eq_true, if_false, true_and]
      rw [List.getElem?_map, hrj]
      simp only [Option.map_some, Option.some.injEq]
      by_cases h0 : num v = 0
      · rw [h0]; rfl
      · rw [if_neg h0, Prelim.fixZero_ne h0]
  · have hxl : ∀ i ∈ is, i < o.data.x.rows.length := by rw [hlen]; exact hin
    refine ⟨_, _, tr.x_raw, tr.selvars, by rw [hxr, Preprocessing.pick_length _ _ hxl, hsub], ?_⟩
    intro k i j a v hki hja hv
    obtain ⟨q, hq, hqi⟩ := of_pick hin hki
    have hjl : j < sel.selvars.length := by
      rw [← al.names]; exact (List.getElem?_eq_some_iff.1 hja).1
    have hjc : sel.selvars[j]? = some sel.selvars[j] := List.getElem?_eq_getElem hjl
    refine ⟨_, hjc, ?_⟩
    rw [(al.same j _ hjc).2] at hja
    obtain ⟨r, hr, hrj⟩ := bind_at.1 (hx.cells q i _ a v hqi hja hv)
    exact ⟨r, by rw [hxr, at_pick hxl hq, hr], hrj⟩
  · have hfl : ∀ i ∈ is, i < (rowsOf o.data.x.rows.length
        (Prelim.outX env.prelim env.junk env.tr (Prelim.columns o.data.x.ncols o.data.x.rows))).length := by
      intro i hi
      simp only [rowsOf, List.length_map, List.length_range, hlen]
      exact hin i hi
    have haxl : a.x.length = is.length := by rw [hax, Preprocessing.pick_length _ _ hfl]
    refine ⟨_, tr.x, by simp [rowsOf, haxl, hsub], by rw [al.columns, al.names], ?_⟩
    intro j f col hja hcl hcol k q i hki hqi
    obtain ⟨q', hq, hqi'⟩ := of_pick hin hki
    have hqq : q' = q := by
      have h1 := (List.getElem?_eq_some_iff.1 hqi').1
      have h2 := (List.getElem?_eq_some_iff.1 hqi).1
      have hnd : rows.Nodup := hk.increasing.imp fun h => Nat.ne_of_lt h
      exact (List.Nodup.getElem_inj_iff hnd).1
        (Option.some.inj ((List.getElem?_eq_getElem h1).symm.trans
          (hqi'.trans (hqi.symm.trans (List.getElem?_eq_getElem h2)))))
    subst hqq
    have hkl : k < is.length := (List.getElem?_eq_some_iff.1 hq).1
    have hql : q' < rows.length := (List.getElem?_eq_some_iff.1 hqi).1
    have hjl : j < sel.selvars.length := by
      rw [← al.names]; exact (List.getElem?_eq_some_iff.1 hja).1
    have hjc : sel.selvars[j]? = some sel.selvars[j] := List.getElem?_eq_getElem hjl
    obtain ⟨hxj, hfj⟩ := al.same j _ hjc
    rw [hfj] at hja
    generalize sel.selvars[j] = c at hxj hfj hja hjc
    have hc : c < o.data.x.ncols := by rw [hxn]; exact (List.getElem?_eq_some_iff.1 hja).1
    have hraw : o.data.x.rows.map (fun r => r.getD c .nan) = col := by
      apply List.ext_getElem
      · rw [List.length_map, hx.nrows, hcl]
      · intro p h1 h2
        have hp' : p < rows.length := by rw [← hcl]; exact h2
        have hpi : rows[p]? = some rows[p] := List.getElem?_eq_getElem hp'
        obtain ⟨v, hv⟩ := hx.all p _ c f hpi hja
        obtain ⟨r, hr, hrc⟩ := bind_at.1 (hx.cells p _ c f v hpi hja hv)
        have h3 := hcol p _ v hpi hv
        rw [List.getElem?_eq_getElem h2] at h3
        rw [List.getElem_map]
        have hp'' : p < o.data.x.rows.length := by simpa using h1
        have h4 : o.data.x.rows[p]? = some o.data.x.rows[p] := List.getElem?_eq_getElem hp''
        rw [hr] at h4
        rw [← Option.some.inj h4, List.getD_eq_getElem?_getD, hrc]
        exact (Option.some.inj h3).symm
    have hrowk : a.x[k]? = some ((Prelim.outX env.prelim env.junk env.tr
        (Prelim.columns o.data.x.ncols o.data.x.rows)).map fun c => c.getD q' .nan) := by
      rw [hax, at_pick hfl hq]
      unfold rowsOf
      rw [List.getElem?_map, List.getElem?_range (by rw [hlen]; exact hql)]
      rfl
    have hentry : (sel.x[j]?.bind (·[k]?)) = some ((featureStep env col).getD q' .nan) := by
      rw [hxj]
      unfold Prelim.columns
      rw [List.getElem?_map, List.getElem?_range hc]
      simp only [Option.map_some, Option.bind_some]
      rw [List.getElem?_map, hrowk]
      simp only [Option.map_some, Option.some.injEq]
      rw [outX_map, List.map_map, List.getD_eq_getElem?_getD, List.getElem?_map]
      unfold Prelim.columns
      rw [List.getElem?_map, List.getElem?_range hc]
      simp only [Option.map_some, Option.getD_some, Function.comp, hraw]
    refine ⟨sel.x.map fun c => c.getD k .nan, ?_, ?_⟩
    · unfold rowsOf
      rw [haxl, List.getElem?_map, List.getElem?_range hkl]
      rfl
    · rw [List.getElem?_map]
      cases hxc : sel.x[j]? with
      | none => rw [hxc] at hentry; cases hentry
      | some xc =>
        rw [hxc] at hentry
        simp only [Option.bind_some] at hentry
        simp [List.getD_eq_getElem?_getD, hentry]
  · intro b hb
    refine ⟨_, _, _, tr.y_bin, tr.num_good_algos, tr.beta,
      by rw [hng, Preprocessing.pick_length _ _ (hout _), hsub],
      by rw [hbeta, Preprocessing.pick_length _ _ (hout _), hsub], ?_⟩
    intro k r hkr
    rw [hyb] at hkr
    obtain ⟨q, hq, hqr⟩ := of_pick (hout _) hkr
    have hk1 : q < o.data.y.rows.length := by
      have := (List.getElem?_eq_some_iff.1 hqr).1
      rw [List.length_map, hol] at this
      exact this
    obtain ⟨out, ho1, ho2⟩ := hor q _ (List.getElem?_eq_getElem hk1)
    rw [List.getElem?_map, ho1] at hqr
    simp only [Option.map_some, Option.some.injEq] at hqr
    subst hqr
    have hrl := hy.ncols _ (List.getElem_mem hk1)
    obtain ⟨c1, -, c3⟩ := Prelim.C39_counts env.prelim b hb _ out ho2
    obtain ⟨best0, -, -, -, -, -, c2, -⟩ := Prelim.rowStep_some ho2
    rw [hrl] at c1 c3
    refine ⟨c1, ?_, out.beta, by rw [hbeta, at_pick (hout _) hq, List.getElem?_map, ho1]; rfl,
      by rw [c3, c2]⟩
    rw [hng, at_pick (hout _) hq, List.getElem?_map, ho1, Option.map_some, c2]

end Verif.EndToEnd
