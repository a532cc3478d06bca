import Verif.EndToEnd.SubsetLemmas
import Verif.EndToEnd.OrderLemmas
import Verif.EndToEnd.LateLemmas
import Verif.EndToEnd.SpecShape
import Verif.Pythia.PropsDraws
/-! The sizes of the arrays. -/
set_option autoImplicit false
set_option linter.unusedSectionVars false

namespace Verif.EndToEnd

open Verif (Num)
open Verif.Pipeline (Stg Name inputs)
open Verif.Metadata (Table Squeezed Begins fromDataFrame Meta)
open Verif.Preprocessing (Lists pick Mat)
open Verif.Runner (Dict)
open Verif.Pythia (Sized)

variable {V W : Type} {lower : String → String} {numeric : Squeezed V → Bool} {str : V → V}
  {num : V → Num} {env : Env V W} {le : Nat → Late V W} {t : Table V} {labels : List V}
  {d : Dict Name (Val V W)}

theorem isFinite_rect {m : Mat Num} (h : isFinite m = true) : ∀ r ∈ m.rows, r.length = m.ncols := by
  intro r hr
  have := List.all_eq_true.1 h r hr
  simp only [Bool.and_eq_true, beq_iff_eq] at this
  exact this.1

theorem noInfinity_rect {m : Mat Num} (h : noInfinity m = true) : ∀ r ∈ m.rows, r.length = m.ncols := by
  intro r hr
  have := List.all_eq_true.1 h r hr
  simp only [Bool.and_eq_true, beq_iff_eq] at this
  exact this.1

/-- The sizes of what PRELIM makes, before the finiteness that PILOT asks for. -/
theorem data_sizes (ho : Readable lower env t labels) (h : Succeeds lower numeric str num env t d) :
    ∃ n g feats algos x y, d .feat_labels = some (.names feats) ∧ d .algo_labels = some (.names algos) ∧
      IsCounts d .selvars feats.length ∧
      d .x = some (.table x) ∧ x.rows.length = n ∧ x.ncols = feats.length ∧
      d .y = some (.table y) ∧ y.rows.length = n ∧ y.ncols = algos.length ∧
      IsTable d .x_raw n g ∧ IsTable d .y_raw n algos.length ∧ IsTruths d .y_bin n algos.length ∧
      IsNumbers d .y_best n ∧ IsCounts d .p n ∧ IsCounts d .num_good_algos n ∧
      (∃ l, d .beta = some (.flags l) ∧ l.length = n) ∧
      (∃ o, d .s = some (.sources o) ∧ ∀ l, o = some l → l.length = n) := by
  obtain ⟨rows, hk⟩ := kept_exists lower num env t
  obtain ⟨inst, s, o, outs, ys, a, sel, f, tr, -, -, -, -, hs, hsl, hy, hx, hyn, hxn⟩ :=
    run_sampled ho h hk
  obtain ⟨dense, hfil⟩ := tr.filtered
  obtain ⟨is, h1, h2, h3⟩ := Prelim.C43_one_selection _ _ _ _ _ _ _ _ _ tr.fits hfil
  have fits := tr.fits
  have len : ∀ {β : Type} {l : List β}, l.length = o.data.x.rows.length → (pick l is).length = is.length := by
    intro β l hl
    exact Preprocessing.pick_length _ _ (by rw [hl]; exact h2)
  obtain ⟨lib, rho, bb, hsel⟩ := tr.sifted
  have al := Sifted.C69_aligned (by simp [Prelim.columns, hxn]) hsel
  have hax : a.x.length = is.length := by rw [h3.x, len fits.x]
  obtain ⟨hol, hor⟩ := outs_row tr.rows
  refine ⟨is.length, o.data.x.ncols, sel.featLabels, o.algo, _, _, tr.feat_labels, tr.algo_labels,
    ⟨_, tr.selvars, al.names.symm⟩, tr.x, by simp [rowsOf, hax], by rw [al.columns, al.names],
    tr.y, by rw [h3.y, len fits.y], hyn, ⟨_, tr.x_raw, rfl, by rw [h3.xRaw, len fits.xRaw], ?_⟩,
    ⟨_, tr.y_raw, hyn, by rw [h3.yRaw, len fits.yRaw], ?_⟩, ⟨_, tr.y_bin, by rw [h3.yBin, len fits.yBin], ?_⟩,
    ⟨_, tr.y_best, by rw [h3.yBest, len fits.yBest]⟩, ⟨_, tr.p, by rw [h3.p, len fits.p]⟩,
    ⟨_, tr.num_good_algos, by rw [h3.numGood, len fits.numGood]⟩,
    ⟨_, tr.beta, by rw [h3.beta, len fits.beta]⟩, _, tr.s_out, ?_⟩
  · intro r hr
    rw [h3.xRaw] at hr
    have hr' : r ∈ o.data.x.rows := Preprocessing.mem_pick hr
    rw [hx.ncols r hr', hxn]
  · intro r hr
    rw [h3.yRaw] at hr
    have hr' := Preprocessing.mem_pick hr
    simp only [arrays, yRawOut_eq] at hr'
    obtain ⟨r', hr'', rfl⟩ := List.mem_map.1 hr'
    have := hy.ncols r' hr''
    split <;> simpa using this
  · intro r hr
    rw [h3.yBin] at hr
    have hr' := Preprocessing.mem_pick hr
    obtain ⟨out, hout, rfl⟩ := List.mem_map.1 hr'
    obtain ⟨q, hq⟩ := List.getElem?_of_mem hout
    have hql : q < o.data.y.rows.length := by rw [← hol]; exact (List.getElem?_eq_some_iff.1 hq).1
    obtain ⟨out', ho1, ho2⟩ := hor q _ (List.getElem?_eq_getElem hql)
    rw [hq] at ho1
    cases ho1
    rw [← hy.ncols _ (List.getElem_mem hql)]
    obtain ⟨b, -, -, -, hb, -⟩ := Prelim.rowStep_some ho2
    rw [hb, List.length_map]
  · intro l hl
    rw [h3.s] at hl
    obtain ⟨l', h4, rfl⟩ := Option.map_eq_some_iff.1 hl
    exact len (fits.s l' h4)

/-- Everything PYTHIA leaves behind. -/
theorem pythia_all (hc : Complete env le) (h : Succeeds lower numeric str num env t d) :
    ∃ k z y yBin yBest algo w o, d .z = some (.table z) ∧ d .y_raw = some (.table y) ∧
      d .y_bin = some (.verdicts yBin) ∧ d .y_best = some (.numbers yBest) ∧
      d .algo_labels = some (.names algo) ∧
      Pythia.weightMatrix (le k).useWeights yBin.length y.ncols y.rows = .ok w ∧
      Pythia.pythia (le k).pythiaLib y.ncols algo y.rows yBin yBest ((le k).fitted z y yBin) = .ok o ∧
      ∀ n v, (n, v) ∈ pythiaOut (le k) y.ncols w o → d n = some v := by
  obtain ⟨k, vs, out, h1, h2, h3⟩ := succeeds_rest hc.tuples h .pythia (by decide)
  rw [hc.stages] at h1
  obtain ⟨z, y, yBin, yBest, algo, o1, o2, w, o, rfl, hw, hp, rfl⟩ := runPythia_ok h1
  simp only [inputs, List.map_cons, List.map_nil, List.cons.injEq] at h2
  exact ⟨k, z, y, yBin, yBest, algo, w, o, h2.1, h2.2.1, h2.2.2.1, h2.2.2.2.1, h2.2.2.2.2.1, hw, hp, h3⟩

/-- Everything PILOT leaves behind. -/
theorem pilot_leaves (hc : Complete env le) (h : Succeeds lower numeric str num env t d) :
    ∃ k x y feat, ∃ o : Pilot.Out ℚ x.rows.length x.ncols y.ncols, d .x = some (.table x) ∧
      d .y = some (.table y) ∧ d .feat_labels = some (.names feat) ∧ isFinite x = true ∧ noInfinity y = true ∧
      y.rows.length = x.rows.length ∧
      Pilot.pilotGaps ((le k).pilotLib (entries x x.rows.length x.ncols))
          (entries x x.rows.length x.ncols) (entries y x.rows.length y.ncols) (gapsOf y x.rows.length y.ncols) feat
          ((le k).pilotOpts x.ncols y.ncols) = .ok o ∧
      ∀ n v, (n, v) ∈ pilotOut (le k) (gapsOf y x.rows.length y.ncols) o → d n = some v := by
  obtain ⟨k, vs, out, h1, h2, h3⟩ := succeeds_rest hc.tuples h .pilot (by decide)
  rw [hc.stages] at h1
  obtain ⟨x, y, feat, opts, o, rfl, f1, f2, f3, hp, rfl⟩ := runPilot_ok h1
  simp only [inputs, List.map_cons, List.map_nil, List.cons.injEq] at h2
  exact ⟨k, x, y, feat, o, h2.1, h2.2.1, h2.2.2.1, f1, f2, f3, hp, h3⟩

theorem tableOf_shape {n m : Nat} {name : Name} {z : Matrix (Fin n) (Fin m) ℚ}
    (h : d name = some (.table (tableOf z))) : IsTable d name n m := by
  refine ⟨_, h, rfl, by simp [tableOf], ?_⟩
  intro r hr
  simp only [tableOf, List.mem_ofFn] at hr
  obtain ⟨i, rfl⟩ := hr
  simp

theorem pointsOf_shape {name : Name} {l : List (Fin 2 → ℚ)}
    (h : d name = some (.table (pointsOf l))) : ∃ e, IsTable d name e 2 := by
  refine ⟨_, _, h, rfl, rfl, ?_⟩
  intro r hr
  obtain ⟨p, -, rfl⟩ := List.mem_map.1 hr
  rfl

theorem exactTable_shape {n m : Nat} {name : Name} {q : List (List ℚ)}
    (h : d name = some (.table (exactTable m q))) (hl : q.length = n) (hr : ∀ r ∈ q, r.length = m) :
    IsTable d name n m := by
  refine ⟨_, h, rfl, by simp [exactTable, hl], ?_⟩
  intro r hr'
  obtain ⟨r', h', rfl⟩ := List.mem_map.1 hr'
  simpa using hr r' h'

/-- All sizes but those of the labels and of `c`. -/
theorem all_sizes (hc : Complete env le) (ho : Readable lower env t labels)
    (h : Succeeds lower numeric str num env t d)
    (hfit : ∀ k z y yb i res, (le k).fitted z y yb i = .ok res → Sized yb.length res) :
    ∃ n g f m, DataShapes d n g f m ∧ LateShapes d n f m := by
  obtain ⟨n, g, feats, algos, x, y, e1, e2, e3, e4, e5, e6, e7, e8, e9, e10, e11, e12, e13, e14, e15, e16,
    e17⟩ := data_sizes ho h
  obtain ⟨k, x', y', feats', o, p1, p2, p3, p4, p5, p6, -, p7⟩ := pilot_leaves hc h
  rw [e4] at p1
  cases p1
  rw [e7] at p2
  cases p2
  obtain ⟨k', z, yr, yb, yBest, algos', w, o', q1, q2, q3, q4, q5, q6, q7, q8⟩ := pythia_all hc h
  rw [e2] at q5
  cases q5
  obtain ⟨kc, vs, out, c1, -, c3⟩ := succeeds_rest hc.tuples h .cloister (by decide)
  rw [hc.stages] at c1
  obtain ⟨xc, ac, oc, rc, lc, -, -, -, -, -, -, rfl⟩ := runCloister_ok c1
  obtain ⟨yr', y1, y2, y3, y4⟩ := e11
  rw [y1] at q2
  cases q2
  obtain ⟨yb', b1, b2, b3⟩ := e12
  rw [b1] at q3
  cases q3
  rw [y2] at q6 q7
  have hinv := Pythia.train_done (hfit k' z yr yb) (Pythia.pythia_ok q7).1
  obtain ⟨-, -, dd, -, s0, s1, -⟩ := Pythia.pythia_ok q7
  refine ⟨n, g, feats.length, algos.length, ?_, ?_⟩
  · exact ⟨⟨_, e1, rfl⟩, ⟨_, e2, rfl⟩, e3, ⟨_, e4, e6, e5, fun r hr => (isFinite_rect p4 r hr).trans e6⟩,
      ⟨_, e7, e9, e8, fun r hr => (noInfinity_rect p5 r hr).trans e9⟩, e10, ⟨_, y1, y2, y3, y4⟩,
      ⟨_, b1, b2, b3⟩, e13, e14, e15, e16, e17⟩
  · have hwl : w.length = n ∧ ∀ r ∈ w, r.length = algos.length := by
      rw [b2, ← y3] at q6
      have hm := (Pythia.C100_matrix q6 y4).1
      have hl : w.length = yr.rows.length := by simpa using congrArg List.length hm
      refine ⟨by rw [hl, y3], ?_⟩
      intro r hr
      have : r.length ∈ yr.rows.map List.length := by
        rw [← hm]
        exact List.mem_map_of_mem hr
      obtain ⟨r', h1, h2⟩ := List.mem_map.1 this
      rw [← h2, y4 r' h1]
    have hcv : ∀ r ∈ o'.trained.cvcmat.map (fun r => r.map fun (c : Nat) => (c : ℚ)), r.length = 4 := by
      intro r hr
      obtain ⟨r', h1, rfl⟩ := List.mem_map.1 hr
      obtain ⟨i, hi⟩ := List.getElem?_of_mem h1
      have hil : i < algos.length := by
        rw [← hinv.lens.1]; exact (List.getElem?_eq_some_iff.1 hi).1
      obtain ⟨res, -, tn, fp, fn, tp, h2, -⟩ := Pythia.C98_confusion q7 (hfit k' z yr yb) hil
      rw [hi] at h2
      cases h2
      rfl
    have pa := p7 .a _ (by simp [pilotOut]; rfl)
    have pz := p7 .z _ (by simp [pilotOut]; rfl)
    have pb := p7 .b _ (by simp [pilotOut]; rfl)
    constructor
    · have := tableOf_shape pa
      rwa [e6] at this
    · have := tableOf_shape pz
      rwa [e5] at this
    · have := tableOf_shape pb
      rwa [e6] at this
    · exact pointsOf_shape (c3 _ _ (by simp; rfl))
    · exact pointsOf_shape (c3 _ _ (by simp; rfl))
    · exact ⟨_, q8 .w (.table ⟨_, w⟩) (by simp [pythiaOut]), y2, hwl.1, hwl.2⟩
    · exact exactTable_shape (q8 .cvcmat (.table _) (by simp [pythiaOut])) (by simp [hinv.lens.1]) hcv
    · exact ⟨_, q8 .y_sub (.verdicts o'.trained.ySub) (by simp [pythiaOut]), by rw [hinv.rows.1, b2], hinv.rect.1⟩
    · exact ⟨_, q8 .y_hat (.verdicts o'.trained.yHat) (by simp [pythiaOut]), by rw [hinv.rows.2.1, b2], hinv.rect.2.1⟩
    · exact exactTable_shape (by rw [← y2]; exact q8 .pr0_sub (.table (exactTable _ o'.trained.pr0sub)) (by simp [pythiaOut]))
        (by rw [hinv.rows.2.2.1, b2]) hinv.rect.2.2.1
    · exact exactTable_shape (by rw [← y2]; exact q8 .pr0_hat (.table (exactTable _ o'.trained.pr0hat)) (by simp [pythiaOut]))
        (by rw [hinv.rows.2.2.2, b2]) hinv.rect.2.2.2
    · exact ⟨_, q8 _ _ (by simp [pythiaOut]; rfl), by simp [hinv.lens.2.1]⟩
    · exact ⟨_, q8 _ _ (by simp [pythiaOut]; rfl), by simp [hinv.lens.2.2.1]⟩
    · exact ⟨_, q8 _ _ (by simp [pythiaOut]; rfl), by simp [hinv.lens.2.2.2.1]⟩
    · exact ⟨_, q8 _ _ (by simp [pythiaOut]; rfl), by simp [hinv.lens.2.2.2.2.1]⟩
    · exact ⟨_, q8 _ _ (by simp [pythiaOut]; rfl), by simp [hinv.lens.2.2.2.2.2]⟩
    · exact ⟨_, q8 _ _ (by simp [pythiaOut]; rfl), by simp [s0, Pythia.Sel.vals, hinv.rows.2.1, b2]⟩
    · exact ⟨_, q8 _ _ (by simp [pythiaOut]; rfl), by simp [s1, Pythia.Sel.vals, hinv.rows.2.1, b2]⟩

end Verif.EndToEnd
