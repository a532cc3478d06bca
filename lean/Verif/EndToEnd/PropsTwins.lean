import Verif.EndToEnd.SpecTwins
import Verif.EndToEnd.PropsAlike
import Verif.EndToEnd.PropsGrounds
import Verif.EndToEnd.PropsTrace
import Verif.EndToEnd.PatchyLemmas
import Verif.Pythia.PropsDraws
/-!
# Two algorithms with the same performances are treated alike (C217)
-/
set_option autoImplicit false
set_option linter.unusedSectionVars false

namespace Verif.EndToEnd

open Verif (Num)
open Verif.Pipeline (Stg Name outputs defaultStages runner)
open Verif.Metadata (Table Squeezed Begins fromDataFrame)
open Verif.Runner (Dict)
open Verif.Pythia (Sized share)

variable {V W : Type} {lower : String → String} {numeric : Squeezed V → Bool} {str : V → V}
  {num : V → Num} {env : Env V W} {le : Nat → Late V W} {t : Table V} {labels : List V}
  {d : Dict Name (Val V W)}

theorem same_map {α β : Type} {f : α → β} {r : List α} {j l : Nat} {v : α} (h : r[j]? = some v) (h' : r[l]? = some v) :
    ∃ w, (r.map f)[j]? = some w ∧ (r.map f)[l]? = some w :=
  ⟨f v, by simp [h], by simp [h']⟩

theorem idxOf_ne {α : Type} [DecidableEq α] {l : List α} {a : α} {j k : Nat} {v : α} (ha : a ∈ l) (hjk : j < k)
    (hj : l[j]? = some v) (hk : l[k]? = some v) : l.idxOf a ≠ k := by
  intro e
  have hlt := List.idxOf_lt_length_of_mem ha
  have h1 : l[l.idxOf a]? = some a := by
    rw [List.getElem?_eq_getElem hlt, List.getElem_idxOf hlt]
  rw [e, hk] at h1
  injection h1 with h1
  subst h1
  obtain ⟨hjl, hjv⟩ := List.getElem?_eq_some_iff.1 hj
  have : l.idxOf v ≤ j := by
    by_contra hc
    have := List.not_of_lt_findIdx (xs := l) (p := (· == v)) (i := j) (by rw [List.idxOf] at hc; omega)
    simp [hjv] at this
  omega

/-- One row with the same performance twice. -/
theorem rowStep_twins {o : Prelim.Opts} {r : List Num} {out : Prelim.Row} {j l : Nat} {v : Num} (hjl : j < l)
    (hj : r[j]? = some v) (hl : r[l]? = some v) (h : Prelim.rowStep o r = some out) :
    (∃ b, out.yBin[j]? = some b ∧ out.yBin[l]? = some b) ∧ (∃ w, out.y[j]? = some w ∧ out.y[l]? = some w) ∧
      (∃ w, out.yIn[j]? = some w ∧ out.yIn[l]? = some w) ∧ out.p ≠ l + 1 := by
  obtain ⟨b0, h1, -, -, h4, h5, -, -, h8, h9⟩ := Prelim.rowStep_some h
  refine ⟨by rw [h4]; exact same_map hj hl, ?_, ?_, ?_⟩
  · rw [h9]
    split
    · exact ⟨v, hj, hl⟩
    · rw [List.map_map]
      exact same_map hj hl
  · rw [h8]
    split
    · exact ⟨v, hj, hl⟩
    · exact same_map hj hl
  · rw [h5]
    split
    · rename_i hc
      have hm : true ∈ r.map fun v => v.eq out.yBest := List.count_pos_iff.1 (by omega)
      have := idxOf_ne (j := j) (k := l) (v := v.eq out.yBest) hm hjl (by simp [hj]) (by simp [hl])
      unfold Prelim.firstTrue
      omega
    · have := idxOf_ne (j := j) (k := l) (v := Prelim.aux o.maxPerf v) h1 hjl (by simp [hj]) (by simp [hl])
      omega

theorem equalColumns_getD {α : Type} {m : List (List α)} {j l : Nat} (h : EqualColumns m j l) (e : α) :
    (m.map fun r => r.getD j e) = m.map fun r => r.getD l e := by
  apply List.map_congr_left
  intro r hr
  obtain ⟨v, h1, h2⟩ := h r hr
  simp [List.getD_eq_getElem?_getD, h1, h2]

/-- The performances PRELIM returns. -/
theorem outY_twins {o : Prelim.Opts} {tr : List Num → List Num} {n : Nat} {m : List (List Num)} {ys : List (List Num)}
    {outs : List Prelim.Row} {j l : Nat} (hj : j < n) (hl : l < n) (hrow : Prelim.rows o m = some outs)
    (h : Prelim.outY o tr n m = some ys) (h1 : EqualColumns (outs.map (·.y)) j l)
    (h2 : EqualColumns (outs.map (·.yIn)) j l) : ∃ c, ys[j]? = some c ∧ ys[l]? = some c := by
  have col : ∀ {w : List (List Num)}, EqualColumns w j l →
      ∃ c, (Prelim.columns n w)[j]? = some c ∧ (Prelim.columns n w)[l]? = some c := by
    intro w hw
    refine ⟨w.map fun r => r.getD j .nan, by simp [Prelim.columns, hj], ?_⟩
    rw [equalColumns_getD hw]
    simp [Prelim.columns, hl]
  unfold Prelim.outY at h
  rw [hrow] at h
  simp only [Option.map_some, Option.some.injEq] at h
  subst h
  split
  · obtain ⟨c, c1, c2⟩ := col h2
    unfold Prelim.normY
    split
    · exact ⟨c, c1, c2⟩
    · exact same_map c1 c2
  · exact col h1

theorem EqualColumns.map_of {α β : Type} {m : List α} {f : α → List β} {j l : Nat}
    (h : ∀ r ∈ m, ∃ v, (f r)[j]? = some v ∧ (f r)[l]? = some v) : EqualColumns (m.map f) j l := by
  intro r hr
  obtain ⟨q, hq, rfl⟩ := List.mem_map.1 hr
  exact h q hq

theorem EqualColumns.pick {α : Type} {m : List (List α)} {is : List Nat} {j l : Nat} (h : EqualColumns m j l) :
    EqualColumns (Preprocessing.pick m is) j l :=
  fun r hr => h r (Preprocessing.mem_pick hr)

/-- **C217, performances.**  If the columns of two algorithms of the metadata table are the same, then so are
their columns in the raw performances, in the performances PRELIM returns, and in the verdicts; and the later
of the two is never the best algorithm of an instance. -/
theorem C217_performances (ho : Readable lower env t labels) (h : Succeeds lower numeric str num env t d)
    {algos : List String} (ha : d .algo_labels = some (.names algos)) {j l : Nat} {a b : String} (hjl : j < l)
    (hj : algos[j]? = some a) (hl : algos[l]? = some b) (hab : SamePerformances num t a b) :
    ∃ raw y yb p, d .y_raw = some (.table raw) ∧ d .y = some (.table y) ∧ d .y_bin = some (.verdicts yb) ∧
      d .p = some (.counts p) ∧ EqualColumns raw.rows j l ∧ EqualColumns y.rows j l ∧ EqualColumns yb j l ∧
      l + 1 ∉ p := by
  obtain ⟨rows, hk⟩ := kept_exists lower num env t
  obtain ⟨inst, s, o, outs, ys, ar, sel, f, tr, -, -, -, -, -, -, hy, -, hyn, -⟩ := run_sampled ho h hk
  obtain ⟨dense, hfil⟩ := tr.filtered
  obtain ⟨is, -, -, h3⟩ := Prelim.C43_one_selection _ _ _ _ _ _ _ _ _ tr.fits hfil
  have ha' := tr.algo_labels
  rw [ha] at ha'
  simp only [Option.some.injEq, Val.names.injEq] at ha'
  subst ha'
  have hraw : EqualColumns o.data.y.rows j l := by
    intro r hr
    obtain ⟨k, hkl, rfl⟩ := List.getElem_of_mem hr
    have hki : rows[k]? = some (rows[k]'(by rw [← hy.nrows]; exact hkl)) := List.getElem?_eq_getElem _
    obtain ⟨v, hv⟩ := hy.all k _ j a hki hj
    obtain ⟨w, hw⟩ := hy.all k _ l b hki hl
    obtain ⟨-, hc, -⟩ := located_row hy hki (List.getElem?_eq_getElem hkl)
    exact ⟨num v, hc j a v hj hv, by rw [hab _ v w hv hw]; exact hc l b w hl hw⟩
  obtain ⟨hlen, hstep⟩ := rows_step tr.rows
  have hout : ∀ out ∈ outs, (∃ b, out.yBin[j]? = some b ∧ out.yBin[l]? = some b) ∧
      (∃ w, out.y[j]? = some w ∧ out.y[l]? = some w) ∧
      (∃ w, out.yIn[j]? = some w ∧ out.yIn[l]? = some w) ∧ out.p ≠ l + 1 := by
    intro out hout
    obtain ⟨k, hkl, rfl⟩ := List.getElem_of_mem hout
    obtain ⟨out', h1, h2⟩ := hstep k (by omega)
    rw [List.getElem?_eq_getElem hkl] at h1
    cases h1
    obtain ⟨v, c1, c2⟩ := hraw _ (List.getElem_mem (by omega : k < o.data.y.rows.length))
    exact rowStep_twins hjl c1 c2 h2
  have jn := (List.getElem?_eq_some_iff.1 hj).1
  have ln := (List.getElem?_eq_some_iff.1 hl).1
  obtain ⟨c, c1, c2⟩ := outY_twins (j := j) (l := l) (by omega) (by omega) tr.rows tr.outY
    (EqualColumns.map_of fun q hq => (hout q hq).2.1) (EqualColumns.map_of fun q hq => (hout q hq).2.2.1)
  refine ⟨_, _, _, _, tr.y_raw, tr.y, tr.y_bin, tr.p, ?_, ?_, ?_, ?_⟩
  · dsimp only
    rw [h3.yRaw]
    refine EqualColumns.pick ?_
    simp only [arrays, yRawOut_eq]
    refine EqualColumns.map_of fun r hr => ?_
    obtain ⟨v, c1, c2⟩ := hraw r hr
    split
    · exact ⟨v, c1, c2⟩
    · exact same_map c1 c2
  · dsimp only
    rw [h3.y]
    refine EqualColumns.pick ?_
    exact EqualColumns.map_of fun i _ => same_map c1 c2
  · rw [h3.yBin]
    refine EqualColumns.pick ?_
    exact EqualColumns.map_of fun q hq => (hout q hq).1
  · intro hm
    rw [h3.p] at hm
    obtain ⟨q, hq, e⟩ := List.mem_map.1 (Preprocessing.mem_pick hm)
    exact (hout q hq).2.2.2 e

theorem paired_twins {x y : List (List Num)} {i j l : Nat} (h : EqualColumns y j l) : paired x y i j = paired x y i l := by
  unfold paired
  apply List.filterMap_congr
  rintro ⟨u, r⟩ hr
  obtain ⟨v, h1, h2⟩ := h r (List.of_mem_zip hr).2
  simp [h1, h2]

/-- **C217, correlations.**  The correlations of each selected feature with the two algorithms, and their
p-values, are the same. -/
theorem C217_correlations {x y rho pval : Preprocessing.Mat Num} {sel : List Nat} (hc : Complete env le)
    (ho : Readable lower env t labels) (h : Succeeds lower numeric str num env t d)
    (hr : Reported d x y rho pval sel) {algos : List String} (ha : d .algo_labels = some (.names algos)) {j l : Nat}
    {a b : String} (hjl : j < l) (hj : algos[j]? = some a) (hl : algos[l]? = some b) (hab : SamePerformances num t a b) :
    ∀ i ∈ sel, ∃ c p, At rho.rows i j c ∧ At rho.rows i l c ∧ At pval.rows i j p ∧ At pval.rows i l p := by
  obtain ⟨-, y', -, -, -, e1, -, -, -, hy, -, -⟩ := C217_performances ho h ha hjl hj hl hab
  rw [hr.y] at e1
  cases e1
  obtain ⟨n, g, feats, algos', x', y'', -, e2, -, -, -, -, e7, -, e9, -⟩ := data_sizes ho h
  rw [ha] at e2
  cases e2
  rw [hr.y] at e7
  cases e7
  have ln := (List.getElem?_eq_some_iff.1 hl).1
  intro i hi
  obtain ⟨k, hk⟩ := List.mem_iff_getElem?.1 hi
  obtain ⟨c, p, p1, p2, p3⟩ := C205_correlated hc h hr k i hk j (by omega)
  obtain ⟨c', p', q1, q2, q3⟩ := C205_correlated hc h hr k i hk l (by omega)
  rw [← paired_twins hy, p1] at q1
  cases q1
  exact ⟨_, p, p3, q3, p2, q2⟩

theorem share_congr {α : Type} {l : List α} {f g : α → Bool} (h : ∀ x ∈ l, f x = g x) : share l f = share l g := by
  unfold share
  rw [List.filter_congr h]

theorem shown_equal {name : Name} {n m j l : Nat} {b : Nat → Nat → Bool} {v : List (List Bool)} (h : Shown d name n m b)
    (hv : d name = some (.verdicts v)) (hj : j < m) (hl : l < m) (he : EqualColumns v j l) : ∀ i < n, b i j = b i l := by
  obtain ⟨w, h1, -, -, h4⟩ := h
  rw [hv] at h1
  cases h1
  intro i hi
  obtain ⟨r, a1, a2⟩ := h4 i hi j hj
  obtain ⟨r', b1, b2⟩ := h4 i hi l hl
  rw [a1] at b1
  cases b1
  obtain ⟨u, c1, c2⟩ := he r (List.mem_of_getElem? a1)
  rw [c1] at a2
  rw [c2] at b2
  exact (Option.some.inj a2).symm.trans (Option.some.inj b2)

theorem precisionOf_equal {n j l : Nat} {b h : Nat → Nat → Bool} (hb : ∀ i < n, b i j = b i l)
    (hh : ∀ i < n, h i j = h i l) : precisionOf n b h j = precisionOf n b h l := by
  unfold precisionOf
  rw [List.filter_congr (q := fun i => h i l) fun i hi => hh i (List.mem_range.1 hi)]
  exact share_congr fun i hi => hb i (List.mem_range.1 (List.mem_of_mem_filter hi))

theorem recallOf_equal {n j l : Nat} {b h : Nat → Nat → Bool} (hb : ∀ i < n, b i j = b i l)
    (hh : ∀ i < n, h i j = h i l) : recallOf n b h j = recallOf n b h l := by
  unfold recallOf
  rw [List.filter_congr (q := fun i => b i l) fun i hi => hb i (List.mem_range.1 hi)]
  exact share_congr fun i hi => hh i (List.mem_range.1 (List.mem_of_mem_filter hi))

theorem accuracyOf_equal {n j l : Nat} {b h : Nat → Nat → Bool} (hb : ∀ i < n, b i j = b i l)
    (hh : ∀ i < n, h i j = h i l) : accuracyOf n b h j = accuracyOf n b h l :=
  share_congr fun i hi => by rw [hb i (List.mem_range.1 hi), hh i (List.mem_range.1 hi)]

theorem tally_equal {n j l : Nat} {b h : Nat → Nat → Bool} (hb : ∀ i < n, b i j = b i l)
    (hh : ∀ i < n, h i j = h i l) (u v : Bool) : tally n b h j u v = tally n b h l u v := by
  unfold tally
  congr 1
  apply List.filter_congr
  intro i hi
  rw [hb i (List.mem_range.1 hi), hh i (List.mem_range.1 hi)]

/-- The later of two algorithms that agree is not advised. -/
theorem advised_ne {n m i s j l : Nat} {b h : Nat → Nat → Bool} (hjl : j < l) (hl : l < m) (hi : i < n)
    (hb : ∀ i < n, b i j = b i l) (hh : ∀ i < n, h i j = h i l) (ha : Advised n m b h i s) : s ≠ l := by
  rintro rfl
  obtain ⟨-, a2, -, a4⟩ := ha
  have := (a4 j (by omega) (by rw [hh i hi]; exact a2)).2 hjl
  rw [precisionOf_equal hb hh] at this
  exact lt_irrefl _ this

theorem oftenGood_ne {n m s j l : Nat} {b : Nat → Nat → Bool} (hjl : j < l) (hl : l < m)
    (hb : ∀ i < n, b i j = b i l) (ha : OftenGood n m b s) : s ≠ l := by
  rintro rfl
  have := (ha.2 j (by omega)).2 hjl
  rw [List.filter_congr (q := fun i => b i s) fun i hi => hb i (List.mem_range.1 hi)] at this
  omega

theorem equal_of_at {α : Type} {m : List (List α)} {n j l : Nat} (hn : m.length = n)
    (h : ∀ i < n, ∃ v, At m i j v ∧ At m i l v) : EqualColumns m j l := by
  intro r hr
  obtain ⟨i, hi, rfl⟩ := List.getElem_of_mem hr
  obtain ⟨v, ⟨r1, a1, a2⟩, r2, b1, b2⟩ := h i (by omega)
  rw [List.getElem?_eq_getElem hi] at a1 b1
  cases a1
  cases b1
  exact ⟨v, a2, b2⟩

/-- **C217, models.**  If training is about the column of the algorithm alone, the two algorithms get the same
hyper-parameters, predictions, probabilities, counts and measures, and the later of the two is never selected.
Missing: PYTHIA draws other candidates for the hyper-parameters for each algorithm, so that training is about
the column alone only as far as the candidates do not matter (`C217_models_refuted`). -/
theorem C217_models_partial (hc : Complete env le) (ho : Readable lower env t labels)
    (h : Succeeds lower numeric str num env t d)
    (hfit : ∀ k z y yb i res, (le k).fitted z y yb i = .ok res → Sized yb.length res)
    (hown : ∀ k, OwnColumn (le k).fitted) {algos : List String} (ha : d .algo_labels = some (.names algos))
    {j l : Nat} {a b : String} (hjl : j < l) (hj : algos[j]? = some a) (hl : algos[l]? = some b)
    (hab : SamePerformances num t a b) :
    ∃ ys yh ps ph bc ks cv ac pr rc s0 s1, d .y_sub = some (.verdicts ys) ∧ d .y_hat = some (.verdicts yh) ∧
      d .pr0_sub = some (.table ps) ∧ d .pr0_hat = some (.table ph) ∧ d .box_consnt = some (.numbers bc) ∧
      d .k_scale = some (.numbers ks) ∧ d .cvcmat = some (.table cv) ∧ d .accuracy = some (.numbers ac) ∧
      d .precision = some (.numbers pr) ∧ d .recall = some (.numbers rc) ∧ d .selection0 = some (.counts s0) ∧
      d .selection1 = some (.counts s1) ∧
      EqualColumns ys j l ∧ EqualColumns yh j l ∧ EqualColumns ps.rows j l ∧ EqualColumns ph.rows j l ∧
      bc[j]? = bc[l]? ∧ ks[j]? = ks[l]? ∧ cv.rows[j]? = cv.rows[l]? ∧ ac[j]? = ac[l]? ∧ pr[j]? = pr[l]? ∧
      rc[j]? = rc[l]? ∧ l ∉ s0 ∧ l ∉ s1 := by
  have jn := (List.getElem?_eq_some_iff.1 hj).1
  have ln := (List.getElem?_eq_some_iff.1 hl).1
  obtain ⟨raw, y, yb, p, r1, -, r3, -, r5, -, r7, -⟩ := C217_performances ho h ha hjl hj hl hab
  obtain ⟨k, algos', z, y', yb', ys, yh, ps, ph, bc, ks, m1, -, m3, m4, m5, m6, m7, m8, m9, m10, m11⟩ :=
    C208_models_partial hc ho h hfit
  rw [ha] at m1; cases m1
  rw [r1] at m3; cases m3
  rw [r3] at m4; cases m4
  obtain ⟨n, algos', vb, vc, vg, s1, s2, s3, s4, rep⟩ := C208_partial hc ho h hfit
  rw [ha] at s1; cases s1
  obtain ⟨n', g, f, m, ds, ls⟩ := C209_partial hc ho h hfit
  have hn : yb.length = n := by
    obtain ⟨w, h1, h2, -⟩ := s2
    rw [r3] at h1; cases h1; exact h2
  have hn' : yb.length = n' := by
    obtain ⟨w, h1, h2, -⟩ := ds.y_bin
    rw [r3] at h1; cases h1; exact h2
  have lys : ys.length = n := by
    obtain ⟨w, h1, h2, -⟩ := s3
    rw [m5] at h1; cases h1; exact h2
  have lyh : yh.length = n := by
    obtain ⟨w, h1, h2, -⟩ := s4
    rw [m6] at h1; cases h1; exact h2
  have lps : ps.rows.length = n := by
    obtain ⟨w, h1, -, h2, -⟩ := ls.pr0_sub
    rw [m7] at h1; cases h1; omega
  have lph : ph.rows.length = n := by
    obtain ⟨w, h1, -, h2, -⟩ := ls.pr0_hat
    rw [m8] at h1; cases h1; omega
  obtain ⟨res, a1, a2, a3, a4⟩ := m11 j jn
  obtain ⟨res', b1, b2, b3, b4⟩ := m11 l ln
  rw [← hown k z raw yb j l r5 r7, a1] at b1
  cases b1
  have all : ∀ i < n, (∃ v, At ys i j v ∧ At ys i l v) ∧ (∃ v, At yh i j v ∧ At yh i l v) ∧
      (∃ v, At ps.rows i j v ∧ At ps.rows i l v) ∧ (∃ v, At ph.rows i j v ∧ At ph.rows i l v) := by
    intro i hi
    obtain ⟨u, v, p, q, c1, c2, c3, c4, c5, c6, c7, c8⟩ := a4 i (by omega)
    obtain ⟨u', v', p', q', e1, e2, e3, e4, e5, e6, e7, e8⟩ := b4 i (by omega)
    rw [c1] at e1; cases e1
    rw [c3] at e3; cases e3
    rw [c5] at e5; cases e5
    rw [c7] at e7; cases e7
    exact ⟨⟨_, c2, e2⟩, ⟨_, c4, e4⟩, ⟨_, c6, e6⟩, _, c8, e8⟩
  have eys := equal_of_at lys fun i hi => (all i hi).1
  have eyh := equal_of_at lyh fun i hi => (all i hi).2.1
  have hb := shown_equal s2 r3 jn ln r7
  have hc := shown_equal s3 m5 jn ln eys
  have hg := shown_equal s4 m6 jn ln eyh
  obtain ⟨cv, v1, -, -, v2⟩ := rep.counts
  obtain ⟨ac, w1, -, w2⟩ := rep.accuracy
  obtain ⟨pr, x1, -, x2⟩ := rep.precision
  obtain ⟨rc, y1, -, y2⟩ := rep.recall
  obtain ⟨l0, z1, z2, z3⟩ := rep.selection0
  obtain ⟨l1, q1, q2, q3⟩ := rep.selection1
  refine ⟨ys, yh, ps, ph, bc, ks, cv, ac, pr, rc, l0, l1, m5, m6, m7, m8, m9, m10, v1, w1, x1, y1, z1, q1, eys, eyh,
    equal_of_at lps fun i hi => (all i hi).2.2.1, equal_of_at lph fun i hi => (all i hi).2.2.2, by rw [a2, b2],
    by rw [a3, b3], ?_, ?_, ?_, ?_, ?_, ?_⟩
  · rw [v2 j jn, v2 l ln, tally_equal hb hc, tally_equal hb hc, tally_equal hb hc, tally_equal hb hc]
  · rw [w2 j jn, w2 l ln, accuracyOf_equal hb hg]
  · rw [x2 j jn, x2 l ln, precisionOf_equal hb hg]
  · rw [y2 j jn, y2 l ln, recallOf_equal hb hg]
  · intro hm
    obtain ⟨i, hi, e⟩ := List.getElem_of_mem hm
    obtain ⟨s, g1, g2⟩ := z3 i (by omega)
    rw [List.getElem?_eq_getElem hi, e] at g1
    cases g1
    rcases g2 with g2 | ⟨-, g2⟩
    · exact advised_ne hjl ln (by omega) hb hg g2 rfl
    · omega
  · intro hm
    obtain ⟨i, hi, e⟩ := List.getElem_of_mem hm
    obtain ⟨s, g1, g2⟩ := q3 i (by omega)
    rw [List.getElem?_eq_getElem hi, e] at g1
    cases g1
    rcases g2 with g2 | ⟨-, g2⟩
    · exact advised_ne hjl ln (by omega) hb hg g2 rfl
    · exact oftenGood_ne hjl ln hb g2 rfl

theorem masked_none {α : Type} : ∀ (z : List α) (m : List Bool), (∀ b ∈ m, b = false) → Trace.masked z m = []
  | [], m, _ => by cases m <;> rfl
  | a :: z, [], _ => rfl
  | a :: z, b :: m, h => by
    have hb : b = false := h b (by simp)
    subst hb
    simpa [Trace.masked] using masked_none z m fun c hc => h c (by simp [hc])

section footprints

variable {G : Type} {env : Env V (Kept G)} {le : Nat → Late V (Kept G)} {te : Nat → TraceEnv G}
  {d : Dict Name (Val V (Kept G))}

/-- **C217, footprints.**  The good footprints of the two algorithms are the same.  If TRACE is told to use the
predictions, the later of the two has no best footprint.  Missing: the best footprint from the experimental
data (`C217_best_refuted`). -/
theorem C217_footprints_partial (hc : CompleteTrace env le te) (ho : Readable lower env t labels)
    (h : Succeeds lower numeric str num env t d)
    (hfit : ∀ k z y yb i res, (le k).fitted z y yb i = .ok res → Sized yb.length res)
    (hown : ∀ k, OwnColumn (le k).fitted) {algos : List String} (ha : d .algo_labels = some (.names algos))
    {j l : Nat} {a b : String} (hjl : j < l) (hj : algos[j]? = some a) (hl : algos[l]? = some b)
    (hab : SamePerformances num t a b) :
    ∃ good best g w, d .good = some (.other (.footprints good)) ∧ d .best = some (.other (.footprints best)) ∧
      good[j]? = some g ∧ good[l]? = some g ∧ best[l]? = some w ∧
      ((∀ k, (te k).useSim = true) → w.polygon = none) := by
  have jn := (List.getElem?_eq_some_iff.1 hj).1
  have ln := (List.getElem?_eq_some_iff.1 hl).1
  obtain ⟨-, -, yb, -, -, -, r3, -, -, -, r7, -⟩ := C217_performances ho h ha hjl hj hl hab
  obtain ⟨-, yh, -, -, -, -, -, -, -, -, s0, -, -, m6, -, -, -, -, -, -, -, -, m13, -, -, m16, -, -, -, -, -, -, -, -,
    m17, -⟩ := C217_models_partial hc.complete ho h hfit hown ha hjl hj hl hab
  obtain ⟨k, z, sel, p', beta, algo, yHat, yBin, o, -, t2, -, -, t5, t6, t7, -, t9, t10, t11, -⟩ := trace_values hc h
  rw [ha] at t5; cases t5
  rw [m6] at t6; cases t6
  rw [r3] at t7; cases t7
  rw [m13] at t2; cases t2
  obtain ⟨quals, f1, f2, -⟩ := footprints_ok t9
  obtain ⟨q, c1, -, c2⟩ := Trace.C94_completes (te k).geo (hc.laws k) (te k).purity (z.rows.map place)
    (if (te k).useSim then yh else yb) (if (te k).useSim then s0 else p') beta
    algos.length ((te k).order algos.length) (hc.order k _)
  rw [f1] at c1
  cases c1
  obtain ⟨-, -, e3, e4⟩ := c2 _ f2
  refine ⟨_, _, _, _, t10, t11, by rw [e3]; simp [jn]; rfl, ?_, by rw [e4]; simp [ln]; rfl, ?_⟩
  · rw [e3]
    simp only [List.getElem?_map, List.getElem?_range ln, Option.map_some, Option.some.injEq]
    congr 1
    unfold Trace.goodMask
    refine (equalColumns_getD ?_ _).symm
    split
    · exact m16
    · exact r7
  · intro hs
    simp only [hs k, if_true]
    have hm : Trace.masked (z.rows.map place) (Trace.bestMask s0 l) = [] := by
      apply masked_none
      intro b hb
      obtain ⟨v, hv, rfl⟩ := List.mem_map.1 hb
      simp only [decide_eq_false_iff_not]
      rintro rfl
      exact m17 hv
    have hu := (hc.laws k).unique_length (Trace.masked (z.rows.map place) (Trace.bestMask s0 l))
    unfold Trace.build
    dsimp only
    rw [if_pos (by rw [hm] at hu ⊢; simp at hu; simp [hu])]
    rfl

end footprints

/-! ### Models -/

/-- The full claim about PYTHIA: two algorithms with the same performances and verdicts get the same
predictions, the training being a function of the labels, the weights and the candidates. -/
def TwinModels : Prop :=
  ∀ (S : Type) (lib : Pythia.Lib) (rng : Pythia.Rng S) (grid useWeights : Bool)
    (svm : List Bool → List Num → List ℚ → List ℚ → Except Pythia.Err Pythia.SvmRes) (n : Nat)
    (names : List String) (y : List (List Num)) (yb : List (List Bool)) (best : List Num) (out : Pythia.Out) (j l : Nat),
    Pythia.SizedSvm svm → Pythia.pythiaFull lib rng grid useWeights none svm n names y yb best = .ok out →
    j < n → l < n → EqualColumns y j l → EqualColumns yb j l → EqualColumns out.trained.yHat j l

/-- **C217** is false of the models: the candidates for the hyper-parameters are drawn anew for each
algorithm, also with the grid, so that the second of two equal algorithms gets another model. -/
theorem C217_models_refuted : ¬ TwinModels := by
  intro H
  have h1 : (Pythia.drawRun Pythia.candSvm false [[1, 1], [3, 3]] [[false, false], [true, true]]).toOption.map
      (·.trained.yHat) = some [[true, false], [true, true]] := by decide +kernel
  obtain ⟨out, ho, e⟩ := Pythia.run_value h1
  have := H Nat _ _ _ _ Pythia.candSvm 2 _ _ _ _ out 0 1 Pythia.candSvm_sized ho (by decide) (by decide)
    (by simp [EqualColumns]) (by simp [EqualColumns]) [true, false] (by rw [e]; simp)
  simp at this

theorem weights_map {y w : List Num} (h : Pythia.weights y = .ok w) : ∃ f : Num → Num, w = y.map f := by
  unfold Pythia.weights at h
  dsimp only at h
  split at h
  · cases h
  · split at h
    · cases h
    · cases h
      simp only [List.map_map]
      exact ⟨_, rfl⟩

theorem reshapeLike_map {α β : Type} (f : α → β) : ∀ m : List (List α),
    Pythia.reshapeLike m (m.flatten.map f) = m.map (·.map f)
  | [] => rfl
  | r :: m => by
    have h1 : List.take r.length ((r ++ m.flatten).map f) = r.map f := by simp
    have h2 : List.drop r.length ((r ++ m.flatten).map f) = m.flatten.map f := by simp
    simp only [Pythia.reshapeLike, List.flatten_cons, h1, h2, reshapeLike_map f m, List.map_cons]

theorem weightMatrix_twins {u : Bool} {ninst n j l : Nat} {y w : List (List Num)} (hj : j < n) (hl : l < n)
    (hy : EqualColumns y j l) (h : Pythia.weightMatrix u ninst n y = .ok w) :
    Pythia.column .nan w j = Pythia.column .nan w l := by
  unfold Pythia.weightMatrix at h
  split at h
  · split at h
    · cases h
    · rename_i v hv
      cases h
      obtain ⟨f, rfl⟩ := weights_map hv
      rw [reshapeLike_map]
      refine equalColumns_getD (fun r hr => ?_) _
      obtain ⟨q, hq, rfl⟩ := List.mem_map.1 hr
      obtain ⟨v, h1, h2⟩ := hy q hq
      exact same_map h1 h2
  · cases h
    rw [Pythia.column_replicate _ _ _ hj, Pythia.column_replicate _ _ _ hl]

/-- **C217, the same candidates.**  With and without cost-sensitive weights, with the grid and with the random
search: PYTHIA reports the same about two algorithms with the same performances and verdicts, if the candidates
drawn for them are the same. -/
theorem C217_candidates_partial {S : Type} {lib : Pythia.Lib} {rng : Pythia.Rng S} {grid useWeights : Bool}
    {params : Option (List (List ℚ) × Nat)}
    {svm : List Bool → List Num → List ℚ → List ℚ → Except Pythia.Err Pythia.SvmRes} {n : Nat}
    {names : List String} {y : List (List Num)} {yb : List (List Bool)} {best : List Num} {out : Pythia.Out} {j l : Nat}
    (hs : Pythia.SizedSvm svm) (h : Pythia.pythiaFull lib rng grid useWeights params svm n names y yb best = .ok out)
    (hj : j < n) (hl : l < n) (hy : EqualColumns y j l) (hb : EqualColumns yb j l)
    (hd : rng.drawn j = rng.drawn l) : Pythia.SameAbout out out j l := by
  have hg : Pythia.goodColumn yb j = Pythia.goodColumn yb l := by
    unfold Pythia.goodColumn
    apply List.map_congr_left
    intro r hr
    obtain ⟨v, h1, h2⟩ := hb r hr
    rw [h1, h2]
  unfold Pythia.pythiaFull at h
  split at h
  · cases h
  · rename_i w hw
    refine Pythia.same_results h h (Pythia.sized_round hs) (Pythia.sized_round hs) hj hl hg ?_
    intro res res' e e'
    have a := Pythia.round_ok e
    have b := Pythia.round_ok e'
    rw [hg, weightMatrix_twins hj hl hy hw, hd, b] at a
    exact (Except.ok.inj a).symm

/-- Non-vacuity: a generator that always draws the same, and weights. -/
example : ∃ out, Pythia.pythiaFull Pythia.exLib (⟨0, fun s => (([0], [1]), s + 1)⟩ : Pythia.Rng Nat) false true none
      Pythia.candSvm 2 ["A", "B"] [[1, 1], [3, 3]] [[false, false], [true, true]] [1, 1] = .ok out ∧
    out.trained.yHat = [[true, true], [true, true]] ∧ EqualColumns [[1, 1], [3, 3]] 0 1 := by
  obtain ⟨out, h, e⟩ := Pythia.run_value (f := (·.trained.yHat)) (v := [[true, true], [true, true]])
    (e := Pythia.pythiaFull Pythia.exLib (⟨0, fun s => (([0], [1]), s + 1)⟩ : Pythia.Rng Nat) false true none
      Pythia.candSvm 2 ["A", "B"] [[1, 1], [3, 3]] [[false, false], [true, true]] [1, 1]) (by decide +kernel)
  exact ⟨out, h, e, by simp [EqualColumns]⟩

/-! ### Examples -/

/-- Six instances and two algorithms with the same performances. -/
def pairTable : Table Nat :=
  ⟨6, [("instances", [10, 11, 12, 13, 14, 15]), ("feature_a", [1, 2, 3, 1, 2, 5]),
    ("feature_b", [1, 5, 2, 4, 1, 3]), ("algo_p", [4, 1, 3, 1, 3, 4]), ("algo_q", [4, 1, 3, 1, 3, 4])]⟩

theorem pair_ordinary (sim : Bool) : Ordinary id (allEnv sim) pairTable [10, 11, 12, 13, 14, 15] := by
  refine clean_ordinary (all_complete sim) rfl ?_ rfl (by decide)
  intro c hc
  simp only [pairTable, List.mem_cons, List.not_mem_nil, or_false] at hc
  rcases hc with rfl | rfl | rfl | rfl | rfl <;> rfl

theorem pair_same : SamePerformances lateNum pairTable "algo_p" "algo_q" := by
  rintro i v w ⟨c, hc, e, hv⟩ ⟨c', hc', e', hw⟩
  simp only [pairTable, List.mem_cons, List.not_mem_nil, or_false] at hc hc'
  rcases hc with rfl | rfl | rfl | rfl | rfl <;> rcases hc' with rfl | rfl | rfl | rfl | rfl <;>
    first
      | exact absurd e (by decide)
      | exact absurd e' (by decide)
      | exact congrArg lateNum (Option.some.inj (hv.symm.trans hw))

theorem pair_sized (sim : Bool) : ∀ k z y yb i res, (allLate sim k).fitted z y yb i = .ok res → Sized yb.length res := by
  intro k z y yb i res hres
  cases hres
  simp [Sized]

theorem pair_own (sim : Bool) (k : Nat) : OwnColumn (allLate sim k).fitted := by
  intro z y b j l _ hb
  simp only [allLate, exLate, equalColumns_getD hb]

/-- The places of the algorithms, the best algorithms, the selections and the sizes of the footprints. -/
def pairView (d : Dict Name (Val Nat (Kept (List (ℚ × ℚ))))) :
    Option (List String × List Nat × List Nat × List (Option (List (ℚ × ℚ))) × List (Option (List (ℚ × ℚ)))) :=
  match d .algo_labels, d .p, d .selection0, d .good, d .best with
  | some (.names a), some (.counts p), some (.counts s), some (.other (.footprints g)), some (.other (.footprints b)) =>
    some (a, p, s, g.map (·.polygon), b.map (·.polygon))
  | _, _, _, _, _ => none

theorem pairView_some {d : Dict Name (Val Nat (Kept (List (ℚ × ℚ))))} {a : List String} {p s : List Nat}
    {g b : List (Option (List (ℚ × ℚ)))} (h : pairView d = some (a, p, s, g, b)) :
    d .algo_labels = some (.names a) ∧ d .p = some (.counts p) ∧ d .selection0 = some (.counts s) ∧
      ∃ gs bs, d .good = some (.other (.footprints gs)) ∧ d .best = some (.other (.footprints bs)) ∧
        gs.map (·.polygon) = g ∧ bs.map (·.polygon) = b := by
  unfold pairView at h
  split at h
  · next h1 h2 h3 h4 h5 =>
    cases h
    exact ⟨h1, h2, h3, _, _, h4, h5, rfl, rfl⟩
  · cases h

/-- The full claim about the best footprints: the later of two algorithms with the same performances is
never the best, so it has none. -/
def TwinWithoutBest : Prop :=
  ∀ (env : Env Nat (Kept (List (ℚ × ℚ)))) (le : Nat → Late Nat (Kept (List (ℚ × ℚ))))
    (te : Nat → TraceEnv (List (ℚ × ℚ))) (t : Table Nat) (labels : List Nat)
    (d : Dict Name (Val Nat (Kept (List (ℚ × ℚ))))) (algos : List String) (j l : Nat) (a b : String),
    CompleteTrace env le te → Ordinary id env t labels → Succeeds id (fun _ => false) id lateNum env t d →
    (∀ k, OwnColumn (le k).fitted) → d .algo_labels = some (.names algos) → j < l → algos[j]? = some a →
    algos[l]? = some b → SamePerformances lateNum t a b →
    ∃ best w, d .best = some (.other (.footprints best)) ∧ best[l]? = some w ∧ w.polygon = none

set_option synthInstance.maxSize 1000 in
set_option synthInstance.maxHeartbeats 200000 in
theorem pair_run (sim : Bool) : ∃ d, Succeeds id (fun _ => false) id lateNum (allEnv sim) pairTable d ∧
    pairView d = some (["algo_p", "algo_q"], [1, 1, 1, 1, 1, 1], [0, 0, 0, 0, 0, 0],
      [some [(3, 1), (7, 2), (4, 1), (11, 3)], some [(3, 1), (7, 2), (4, 1), (11, 3)]],
      if sim then [some [(3, 1), (12, 5), (7, 2), (9, 4), (4, 1), (11, 3)], none]
      else [none, some [(3, 1), (12, 5), (7, 2), (9, 4), (4, 1), (11, 3)]]) := by
  obtain ⟨d, e, h⟩ := cleanRun_succeeds (env := allEnv sim) (t := pairTable) (by cases sim <;> decide +kernel)
  have hv : (cleanRun (allEnv sim) pairTable).toOption.bind pairView = some (["algo_p", "algo_q"], [1, 1, 1, 1, 1, 1],
      [0, 0, 0, 0, 0, 0], [some [(3, 1), (7, 2), (4, 1), (11, 3)], some [(3, 1), (7, 2), (4, 1), (11, 3)]],
      if sim then [some [(3, 1), (12, 5), (7, 2), (9, 4), (4, 1), (11, 3)], none]
      else [none, some [(3, 1), (12, 5), (7, 2), (9, 4), (4, 1), (11, 3)]]) := by
    cases sim <;> decide +kernel
  rw [e] at hv
  exact ⟨d, h, hv⟩

/-- **C217** is false of the best footprints from the experimental data: of two algorithms with the same
performances the first is the best on all six instances; TRACE gives the second a best footprint that covers
all of them, and the first none. -/
theorem C217_best_refuted : ¬ TwinWithoutBest := by
  intro H
  obtain ⟨d, h, hv⟩ := pair_run false
  obtain ⟨e1, -, -, gs, bs, -, e5, -, e7⟩ := pairView_some hv
  obtain ⟨best, w, h1, h2, h3⟩ := H _ _ _ _ _ d _ 0 1 "algo_p" "algo_q" (all_complete false) (pair_ordinary false) h
    (pair_own false) e1 (by decide) rfl rfl pair_same
  rw [e5] at h1
  cases h1
  have := congrArg (fun l => l[1]?) e7
  simp [h2, h3] at this

/-- Non-vacuity: the hypotheses hold of the runs with the two equal algorithms. -/
example (sim : Bool) : CompleteTrace (allEnv sim) (allLate sim) (exTrace sim) ∧
    Ordinary id (allEnv sim) pairTable [10, 11, 12, 13, 14, 15] ∧
    (∀ k z y yb i res, (allLate sim k).fitted z y yb i = .ok res → Sized yb.length res) ∧
    (∀ k, OwnColumn (allLate sim k).fitted) ∧ SamePerformances lateNum pairTable "algo_p" "algo_q" ∧
    ¬ SamePerformances lateNum pairTable "algo_p" "feature_a" ∧ (∀ k, (exTrace true k).useSim = true) ∧
    ∃ d, Succeeds id (fun _ => false) id lateNum (allEnv sim) pairTable d ∧
      d .algo_labels = some (.names ["algo_p", "algo_q"]) ∧ d .selection0 = some (.counts [0, 0, 0, 0, 0, 0]) := by
  obtain ⟨d, h, hv⟩ := pair_run sim
  obtain ⟨e1, -, e3, -⟩ := pairView_some hv
  refine ⟨all_complete sim, pair_ordinary sim, pair_sized sim, pair_own sim, pair_same, ?_, fun _ => rfl, d, h, e1, e3⟩
  intro hs
  have := hs 0 4 1 ⟨("algo_p", [4, 1, 3, 1, 3, 4]), by simp [pairTable], rfl, rfl⟩
    ⟨("feature_a", [1, 2, 3, 1, 2, 5]), by simp [pairTable], rfl, rfl⟩
  exact absurd this (by decide)

/-- Four features and two algorithms with the same performances. -/
def widePair : Table Nat :=
  ⟨6, [("instances", [10, 11, 12, 13, 14, 15]), ("feature_a", [1, 2, 3, 1, 2, 5]),
    ("feature_b", [11, 15, 12, 14, 11, 13]), ("feature_c", [21, 25, 22, 24, 23, 23]),
    ("feature_d", [33, 32, 31, 31, 33, 32]), ("algo_p", [4, 1, 5, 3, 3, 4]), ("algo_q", [4, 1, 5, 3, 3, 4])]⟩

theorem widePair_ordinary : Ordinary id wideEnv widePair [10, 11, 12, 13, 14, 15] where
  rect := by
    intro c hc
    simp only [widePair, List.mem_cons, List.not_mem_nil, or_false] at hc
    rcases hc with rfl | rfl | rfl | rfl | rfl | rfl | rfl <;> rfl
  distinct := by decide
  several := by decide
  labels := ⟨"instances", by decide⟩
  sources := by decide
  tuples := wide_complete.complete.tuples
  noFraction := by simp [Prelim.UsesFraction, wideEnv, allEnv, noSubset]
  noFile := by simp [Prelim.UsesFile, wideEnv, allEnv, noSubset]
  noDensity := by simp [Prelim.UsesDensity, Prelim.AsksDensity, wideEnv, allEnv, noSubset]

/-- Non-vacuity of `C217_correlations`: a run with correlations and two equal algorithms. -/
example : Complete wideEnv (allLate false) ∧ Ordinary id wideEnv widePair [10, 11, 12, 13, 14, 15] ∧
    SamePerformances lateNum widePair "algo_p" "algo_q" ∧
    ∃ d x y r p, Succeeds id (fun _ => false) id lateNum wideEnv widePair d ∧ Reported d x y r p [0, 1, 3] ∧
      d .algo_labels = some (.names ["algo_p", "algo_q"]) := by
  obtain ⟨d, h1, h2⟩ := cleanRun_succeeds (env := wideEnv) (t := widePair) (by decide +kernel)
  have h : ((cleanRun wideEnv widePair).toOption.bind reportOf).any (fun q => q.2.2.2.2 = [0, 1, 3]) = true := by
    decide +kernel
  have hv : ((cleanRun wideEnv widePair).toOption.bind pairView).map (·.1) = some ["algo_p", "algo_q"] := by
    decide +kernel
  rw [h1] at h hv
  obtain ⟨⟨x, y, r, p, s⟩, hq, hp⟩ := Option.any_eq_true _ _ |>.1 h
  have e1 := of_decide_eq_true hp
  dsimp only at e1
  subst e1
  obtain ⟨⟨a, p', s', g, b⟩, ha, e2⟩ := Option.map_eq_some_iff.1 hv
  cases e2
  refine ⟨wide_complete.complete, widePair_ordinary, ?_, d, x, y, r, p, h2, reportOf_some hq, (pairView_some ha).1⟩
  rintro i v w ⟨c, hc, e, hv⟩ ⟨c', hc', e', hw⟩
  simp only [widePair, List.mem_cons, List.not_mem_nil, or_false] at hc hc'
  rcases hc with rfl | rfl | rfl | rfl | rfl | rfl | rfl <;>
    rcases hc' with rfl | rfl | rfl | rfl | rfl | rfl | rfl <;>
    first
      | exact absurd e (by decide)
      | exact absurd e' (by decide)
      | exact congrArg lateNum (Option.some.inj (hv.symm.trans hw))

end Verif.EndToEnd
