import Verif.EndToEnd.SpecAlike
import Verif.EndToEnd.PropsRecompute
import Verif.EndToEnd.PropsTally
import Verif.EndToEnd.PropsLocal
/-!
# Instances with the same features are treated alike (C214)
-/
set_option autoImplicit false
set_option linter.unusedSectionVars false

namespace Verif.EndToEnd

open Verif (Num)
open Verif.Pipeline (Stg Name outputs defaultStages runner)
open Verif.Metadata (Table Squeezed Begins fromDataFrame)
open Verif.Runner (Dict)
open Verif.Pythia (Sized share)

variable {V W : Type} {lower : String → String} {numeric : Squeezed V → Bool} {str : V → V}
  {num : V → Num} {env : Env V W} {le : Nat → Late V W} {t : Table V} {labels : List V}
  {d : Dict Name (Val V W)}

theorem ruled_unique {i : Nat} {r r' : Ruler} (h : Ruled d i r) (h' : Ruled d i r') : r = r' := by
  have key : ∀ {n : Name} {u v : Num}, Noted d n i u → Noted d n i v → u = v := by
    rintro n u v ⟨l, h1, h2⟩ ⟨l', h3, h4⟩
    rw [h1] at h3
    cases h3
    exact Option.some.inj (h2.symm.trans h4)
  cases r
  cases r'
  congr
  · exact key h.lo h'.lo
  · exact key h.hi h'.hi
  · exact key h.min h'.min
  · exact key h.lambda h'.lambda
  · exact key h.mu h'.mu
  · exact key h.sigma h'.sigma

theorem at_same {α : Type} {m : List (List α)} {i j : Nat} {u v : α} (h : At m i j u) (h' : At m i j v) : u = v := by
  obtain ⟨r, h1, h2⟩ := h
  obtain ⟨r', h3, h4⟩ := h'
  rw [h1] at h3
  cases h3
  exact Option.some.inj (h2.symm.trans h4)

/-- Equal raw values give equal coordinates. -/
theorem coordinates_alike {bound norm : Bool} {power : Num → Num → Num} {raw z a : List (List Num)} {sel : List Nat}
    {k k' r : Nat} (h : Recomputed bound norm power d raw z a sel k r)
    (h' : Recomputed bound norm power d raw z a sel k' r)
    (hs : ∀ i ∈ sel, ∃ v, At raw k i v ∧ At raw k' i v) : ∃ q, At z k r (.fin q) ∧ At z k' r (.fin q) := by
  obtain ⟨xs, ws, l1, l2, hx, hw, hz⟩ := h
  obtain ⟨xs', ws', l1', l2', hx', hw', hz'⟩ := h'
  have ex : xs = xs' := by
    apply List.ext_getElem (by omega)
    intro j h1 h2
    have hj : sel[j]? = some sel[j] := List.getElem?_eq_getElem (by omega)
    obtain ⟨ru, v, q, a1, a2, a3, a4⟩ := hx j _ hj
    obtain ⟨ru', v', q', b1, b2, b3, b4⟩ := hx' j _ hj
    obtain ⟨w, c1, c2⟩ := hs _ (List.mem_of_getElem? hj)
    rw [ruled_unique a1 b1, at_same a2 c1] at a4
    rw [at_same b2 c2] at b4
    have := a4.symm.trans b4
    rw [List.getElem?_eq_getElem h1] at a3
    rw [List.getElem?_eq_getElem h2] at b3
    simp only [Option.some.injEq, Num.fin.injEq] at a3 b3 this
    rw [a3, b3, this]
  have ew : ws = ws' := by
    apply List.ext_getElem (by omega)
    intro j h1 h2
    have := at_same (hw j _ (List.getElem?_eq_getElem h1)) (hw' j _ (List.getElem?_eq_getElem h2))
    simpa using this
  subst ex ew
  exact ⟨_, hz, hz'⟩

/-- **C214, the place.**  Two instances of the Model with the same raw values of the selected features have the same
two coordinates. -/
theorem C214_place (hc : Complete env le) {power : Num → Num → Num} (hfit : FitsBy env.tr env.fit power)
    (hjunk : env.junk.2.lt env.junk.1 = false) (h : Succeeds lower numeric str num env t d) :
    ∃ raw z sel, d .x_raw = some (.table raw) ∧ d .z = some (.table z) ∧ d .selvars = some (.counts sel) ∧
      z.rows.length = raw.rows.length ∧
      ∀ k < raw.rows.length, ∀ k' < raw.rows.length, (∀ i ∈ sel, ∃ v, At raw.rows k i v ∧ At raw.rows k' i v) →
        ∀ r < 2, ∃ q, At z.rows k r (.fin q) ∧ At z.rows k' r (.fin q) := by
  obtain ⟨raw, z, a, sel, h1, h2, -, h4, h5, h6⟩ := C200_recomputed hc hfit hjunk h
  exact ⟨raw, z, sel, h1, h2, h4, h5, fun k hk k' hk' hs r hr =>
    coordinates_alike (h6 k hk r hr) (h6 k' hk' r hr) hs⟩

theorem advised_unique {n m : Nat} {b h : Nat → Nat → Bool} {i k s u : Nat} (hrow : ∀ j < m, h i j = h k j)
    (hs : Advised n m b h i s) (hu : Advised n m b h k u) : s = u := by
  obtain ⟨s1, s2, s3, s4⟩ := hs
  obtain ⟨u1, u2, u3, u4⟩ := hu
  have a := s4 u u1 (by rw [hrow u u1]; exact u2)
  have c := u4 s s1 (by rw [← hrow s s1]; exact s2)
  rcases Nat.lt_trichotomy s u with h | h | h
  · exact absurd (c.2 h) (not_lt.2 a.1)
  · exact h
  · exact absurd (a.2 h) (not_lt.2 c.1)

theorem advised_not {n m : Nat} {b h : Nat → Nat → Bool} {i k s : Nat} (hrow : ∀ j < m, h i j = h k j)
    (hs : Advised n m b h i s) (hu : NoAdvice n m b h k) : False := by
  obtain ⟨s1, s2, s3, -⟩ := hs
  exact absurd (hu s s1 (by rw [← hrow s s1]; exact s2)) (by rintro e; rw [e] at s3; exact lt_irrefl _ s3)

theorem often_unique {n m : Nat} {b : Nat → Nat → Bool} {s u : Nat} (hs : OftenGood n m b s)
    (hu : OftenGood n m b u) : s = u := by
  have a := hs.2 u hu.1
  have c := hu.2 s hs.1
  rcases Nat.lt_trichotomy s u with h | h | h
  · exact absurd (c.2 h) (not_lt.2 a.1)
  · exact h
  · exact absurd (a.2 h) (not_lt.2 c.1)

/-- **C214, the predictions.**  If moreover the trained models are functions of the coordinates, the two instances have
the same predictions and probabilities for every algorithm and the same two selections. -/
theorem C214_predictions (hc : Complete env le) (ho : Readable lower env t labels) {power : Num → Num → Num}
    (hfit : FitsBy env.tr env.fit power) (hjunk : env.junk.2.lt env.junk.1 = false)
    (hsized : ∀ k z y yb i res, (le k).fitted z y yb i = .ok res → Sized yb.length res)
    (hpl : ∀ k, Places (le k).fitted) (h : Succeeds lower numeric str num env t d) :
    ∃ raw sel yh ph s0 s1, d .x_raw = some (.table raw) ∧ d .selvars = some (.counts sel) ∧
      d .y_hat = some (.verdicts yh) ∧ d .pr0_hat = some (.table ph) ∧ d .selection0 = some (.counts s0) ∧
      d .selection1 = some (.counts s1) ∧ yh.length = raw.rows.length ∧ ph.rows.length = raw.rows.length ∧
      s0.length = raw.rows.length ∧ s1.length = raw.rows.length ∧
      ∀ k < raw.rows.length, ∀ k' < raw.rows.length, (∀ i ∈ sel, ∃ v, At raw.rows k i v ∧ At raw.rows k' i v) →
        yh[k]? = yh[k']? ∧ ph.rows[k]? = ph.rows[k']? ∧ s0[k]? = s0[k']? ∧ s1[k]? = s1[k']? := by
  obtain ⟨raw, z, sel, h1, h2, h3, h4, h5⟩ := C214_place hc hfit hjunk h
  obtain ⟨kk, algos, z', y, yb, ys, yh, ps, ph, bc, ks, m1, m2, m3, m4, m5, m6, m7, m8, m9, m10, m11⟩ :=
    C208_models_partial hc ho h hsized
  obtain ⟨n, algos', b, c, g, r1, ⟨lb, b1, b2, b3, b4⟩, -, ⟨lh, g1, g2, g3, g4⟩, hrep⟩ := C208_partial hc ho h hsized
  obtain ⟨n', gg, f, mm, hD, hL⟩ := C209_partial hc ho h hsized
  obtain ⟨_, u1, -, u3, -⟩ := hD.x_raw
  rw [h1] at u1; cases u1
  obtain ⟨_, w1, w2⟩ := hD.algo_labels
  rw [m1] at w1; cases w1
  obtain ⟨_, v1, v2, v3⟩ := hL.y_hat
  rw [m6] at v1; cases v1
  obtain ⟨_, p1, -, p3, p4⟩ := hL.pr0_hat
  rw [m8] at p1; cases p1
  obtain ⟨_, t1, t2, -⟩ := hD.y_bin
  rw [m4] at t1; cases t1
  rw [h2] at m2; cases m2
  rw [r1] at m1; cases m1
  rw [b1] at m4; cases m4
  rw [g1] at m6; cases m6
  obtain ⟨s0, e1, e2, e3⟩ := hrep.selection0
  obtain ⟨s1, f1, f2, f3⟩ := hrep.selection1
  refine ⟨raw, sel, yh, ph, s0, s1, h1, h3, g1, m8, e1, f1, by omega, by omega, by omega, by omega, ?_⟩
  intro k hk k' hk' hs
  have hz := h5 k hk k' hk' hs
  have each : ∀ j < algos.length, (∃ v, At yh k j v ∧ At yh k' j v) ∧ ∃ q, At ph.rows k j q ∧ At ph.rows k' j q := by
    intro j hj
    obtain ⟨res, hres, -, -, hi⟩ := m11 j hj
    obtain ⟨-, v, -, q, -, -, x1, x2, -, -, x3, x4⟩ := hi k (by omega)
    obtain ⟨-, v', -, q', -, -, x1', x2', -, -, x3', x4'⟩ := hi k' (by omega)
    obtain ⟨y1, y2⟩ := hpl kk z y yb j res hres k k' (by omega) (by omega) fun r hr => by
      obtain ⟨q, hq⟩ := hz r hr
      exact ⟨_, hq⟩
    rw [x1, x1'] at y1
    rw [x3, x3'] at y2
    cases y1
    cases y2
    exact ⟨⟨_, x2, x2'⟩, _, x4, x4'⟩
  have rows : ∀ {α : Type} {l : List (List α)} (_ : l.length = n') (_ : ∀ r ∈ l, r.length = algos.length)
      (_ : ∀ j < algos.length, ∃ v, At l k j v ∧ At l k' j v), l[k]? = l[k']? := by
    intro α l hl hr hv
    have a1 : l[k]? = some l[k] := List.getElem?_eq_getElem (by omega)
    have a2 : l[k']? = some l[k'] := List.getElem?_eq_getElem (by omega)
    rw [a1, a2]
    congr 1
    apply List.ext_getElem
    · rw [hr _ (List.mem_of_getElem? a1), hr _ (List.mem_of_getElem? a2)]
    · intro j q1 q2
      obtain ⟨v, ⟨r, c1, c2⟩, r', c3, c4⟩ := hv j (by rw [← hr _ (List.mem_of_getElem? a1)]; exact q1)
      rw [a1] at c1; cases c1
      rw [a2] at c3; cases c3
      rw [List.getElem?_eq_getElem q1] at c2
      rw [List.getElem?_eq_getElem q2] at c4
      exact Option.some.inj (c2.trans c4.symm)
  have hrow : ∀ j < algos.length, g k j = g k' j := by
    intro j hj
    obtain ⟨v, z1, z2⟩ := (each j hj).1
    have z3 := at_same z1 (g4 k (by omega) j hj)
    have z4 := at_same z2 (g4 k' (by omega) j hj)
    rw [← z3, ← z4]
  refine ⟨rows v2 (by rw [w2]; exact v3) fun j hj => (each j hj).1,
    rows p3 (by rw [w2]; exact p4) fun j hj => (each j hj).2, ?_, ?_⟩
  · obtain ⟨s, q1, q2⟩ := e3 k (by omega)
    obtain ⟨s', q1', q2'⟩ := e3 k' (by omega)
    rw [q1, q1']
    congr 1
    rcases q2 with q2 | ⟨q2, rfl⟩ <;> rcases q2' with q2' | ⟨q2', rfl⟩
    · exact advised_unique hrow q2 q2'
    · exact (advised_not hrow q2 q2').elim
    · exact (advised_not (fun j hj => (hrow j hj).symm) q2' q2).elim
    · rfl
  · obtain ⟨s, q1, q2⟩ := f3 k (by omega)
    obtain ⟨s', q1', q2'⟩ := f3 k' (by omega)
    rw [q1, q1']
    congr 1
    rcases q2 with q2 | ⟨q2, q3⟩ <;> rcases q2' with q2' | ⟨q2', q3'⟩
    · exact advised_unique hrow q2 q2'
    · exact (advised_not hrow q2 q2').elim
    · exact (advised_not (fun j hj => (hrow j hj).symm) q2' q2).elim
    · exact often_unique q3 q3'

/-- **C214, the rows of the table.**  Two rows of the table that stay and have the same values of the features in
the Model have the same coordinates, predictions, probabilities and selections; if they also have the same
performances, the Model says the same about these: verdicts, best algorithm and performance, number of good
algorithms, whether enough are good. -/
theorem C214_rows (hc : Complete env le) (ho : Ordinary lower env t labels) {power : Num → Num → Num}
    (hfit : FitsBy env.tr env.fit power) (hjunk : env.junk.2.lt env.junk.1 = false)
    (hsized : ∀ k z y yb i res, (le k).fitted z y yb i = .ok res → Sized yb.length res)
    (hpl : ∀ k, Places (le k).fitted) (h : Succeeds lower numeric str num env t d) {rows : List Nat}
    (hk : KeptRows lower num env t rows) {feats : List String} (hf : d .feat_labels = some (.names feats))
    {k k' i i' : Nat} (hi : rows[k]? = some i) (hi' : rows[k']? = some i') (hs : SameCells num t feats i i') :
    (∃ z yh ph s0 s1, d .z = some (.table z) ∧ d .y_hat = some (.verdicts yh) ∧ d .pr0_hat = some (.table ph) ∧
      d .selection0 = some (.counts s0) ∧ d .selection1 = some (.counts s1) ∧ k < yh.length ∧ k < ph.rows.length ∧
      k < s0.length ∧ k < s1.length ∧ (∀ r < 2, ∃ q, At z.rows k r (.fin q) ∧ At z.rows k' r (.fin q)) ∧
      yh[k]? = yh[k']? ∧ ph.rows[k]? = ph.rows[k']? ∧ s0[k]? = s0[k']? ∧ s1[k]? = s1[k']?) ∧
    ((∀ a v w, Begins lower "algo_" a → Cell t a i v → Cell t a i' w → num v = num w) →
      ∃ yb p best n beta, d .y_bin = some (.verdicts yb) ∧ d .p = some (.counts p) ∧
        d .y_best = some (.numbers best) ∧ d .num_good_algos = some (.counts n) ∧ d .beta = some (.flags beta) ∧
        k < yb.length ∧ yb[k]? = yb[k']? ∧ p[k]? = p[k']? ∧ best[k]? = best[k']? ∧ n[k]? = n[k']? ∧
        beta[k]? = beta[k']?) := by
  refine ⟨?_, fun hperf => ?_⟩
  · obtain ⟨raw, z, sel, h1, h2, h3, h4, h5⟩ := C214_place hc hfit hjunk h
    obtain ⟨raw', sel', yh, ph, s0, s1, a1, a2, a3, a4, a5, a6, a7, a8, a9, a10, a11⟩ :=
      C214_predictions hc ho.toReadable hfit hjunk hsized hpl h
    rw [h1] at a1; cases a1
    rw [h3] at a2; cases a2
    obtain ⟨n, g, f, m, hD, -⟩ := C209_partial hc ho.toReadable h hsized
    obtain ⟨algos, w1, -⟩ := hD.algo_labels
    obtain ⟨_, w3, w4⟩ := hD.selvars
    rw [h3] at w3; cases w3
    obtain ⟨_, w5, w6⟩ := hD.feat_labels
    rw [hf] at w5; cases w5
    obtain ⟨xr, yr, b1, -, b3, -, -, -, b7⟩ := C162_raw_partial ho h hk w1 hf h3
    rw [h1] at b1; cases b1
    have hkl := (List.getElem?_eq_some_iff.1 hi).1
    have hkl' := (List.getElem?_eq_some_iff.1 hi').1
    have same : ∀ c ∈ sel, ∃ v, At raw.rows k c v ∧ At raw.rows k' c v := by
      intro c hcm
      obtain ⟨j, hj, e⟩ := List.getElem_of_mem hcm
      have hja : feats[j]? = some feats[j] := List.getElem?_eq_getElem (by omega)
      have hsj : sel[j]? = some c := by rw [List.getElem?_eq_getElem hj, e]
      obtain ⟨algos', feats', n1, n2, -, -, -, n6, -⟩ := C162_names_partial ho h hk
      rw [hf] at n2; cases n2
      obtain ⟨col, hcol, hname⟩ := List.mem_map.1 (n6.subset (List.mem_of_getElem? hja))
      have hnr : ∀ q ∈ rows, q < col.2.length := fun q hq => by
        rw [ho.rect col hcol]; exact ((hk.exact q).1 hq).1
      have cell : ∀ q ∈ rows, ∃ v, Cell t feats[j] q v := fun q hq =>
        ⟨_, col, hcol, hname, List.getElem?_eq_getElem (hnr q hq)⟩
      obtain ⟨v, hv⟩ := cell i (List.mem_of_getElem? hi)
      obtain ⟨w, hw⟩ := cell i' (List.mem_of_getElem? hi')
      have e2 := hs _ (List.mem_of_getElem? hja) v w hv hw
      exact ⟨num v, b7 k i j c _ v hi hja hsj hv, by rw [e2]; exact b7 k' i' j c _ w hi' hja hsj hw⟩
    exact ⟨z, yh, ph, s0, s1, h2, a3, a4, a5, a6, by omega, by omega, by omega, by omega,
      h5 k (by omega) k' (by omega) same, a11 k (by omega) k' (by omega) same⟩
  · obtain ⟨-, yb, yb', p, p', best, best', n, n', beta, beta', yr, yr', c1, c1', c2, c2', c3, c3', c4, c4', c5, c5', -, -,
      e0, e1, e2, e3, e4, e5, -⟩ := C163_local ho ho h h hk hk rfl rfl rfl hi hi' hperf
    rw [c1] at c1'; cases c1'
    rw [c2] at c2'; cases c2'
    rw [c3] at c3'; cases c3'
    rw [c4] at c4'; cases c4'
    rw [c5] at c5'; cases c5'
    exact ⟨yb, p, best, n, beta, c1, c2, c3, c4, c5, e0, e1, e2, e3, e4, e5⟩

/-- Is the first coordinate of the instance positive? -/
def rightSide (z : List (List Num)) (i : Nat) : Bool :=
  match z[i]?.bind (·[0]?) with
  | some v => (0 : Num).lt v
  | none => false

/-- The last four stages of the examples, with models that look at the first coordinate. -/
def alikeLate (k : Nat) : Late Nat (Kept (List (ℚ × ℚ))) :=
  { allLate false k with
    fitted := fun z _ yb j => .ok ⟨(List.range yb.length).map (rightSide z.rows), yb.map fun r => r.getD j false,
      yb.map fun _ => 0, (List.range yb.length).map fun i => if rightSide z.rows i then 1 / 4 else 3 / 4, 1, 1⟩ }

def alikeEnv : Env Nat (Kept (List (ℚ × ℚ))) :=
  { rulerEnv with rest := fun k s vs => runLate (alikeLate k) s vs }

/-- Seven instances; the first and the last have the same features and performances. -/
def alikeTable : Table Nat :=
  ⟨7, [("instances", [10, 11, 12, 13, 14, 15, 16]), ("feature_a", [1, 2, 3, 1, 2, 5, 1]),
    ("feature_b", [1, 5, 2, 4, 1, 3, 1]), ("algo_p", [4, 1, 5, 3, 3, 4, 4]), ("algo_q", [2, 0, 1, 1, 2, 1, 2])]⟩

theorem alike_complete : CompleteTrace alikeEnv alikeLate (exTrace false) where
  stages _ _ _ := rfl
  trace _ := rfl
  laws _ := dots_laws
  order _ _ := List.reverse_perm _

theorem alike_places (k : Nat) : Places (alikeLate k).fitted := by
  intro z y b j res h i l hi hl hz
  cases h
  obtain ⟨v, ⟨r1, h1, h2⟩, r2, h3, h4⟩ := hz 0 (by omega)
  have : rightSide z.rows i = rightSide z.rows l := by
    simp [rightSide, h1, h2, h3, h4]
  simp [hi, hl, this]

theorem alike_kept : KeptRows id lateNum alikeEnv alikeTable [0, 1, 2, 3, 4, 5, 6] where
  increasing := by decide
  exact i := by
    constructor
    · intro hi
      have : i < 7 := by
        simp only [List.mem_cons, List.not_mem_nil, or_false] at hi
        omega
      refine ⟨this, ⟨"feature_a", ([1, 2, 3, 1, 2, 5, 1] : List Nat)[i]'this, ?_, ?_, nofun⟩,
        "algo_p", ([4, 1, 5, 3, 3, 4, 4] : List Nat)[i]'this, ?_, ?_, nofun⟩
      · exact ⟨⟨_, by simp [alikeTable]; right; left; rfl, rfl⟩, (begins_iff _ _).2 (by decide), nofun⟩
      · exact ⟨("feature_a", [1, 2, 3, 1, 2, 5, 1]), by simp [alikeTable], rfl, List.getElem?_eq_getElem _⟩
      · exact ⟨⟨("algo_p", [4, 1, 5, 3, 3, 4, 4]), by simp [alikeTable], rfl⟩, (begins_iff _ _).2 (by decide),
          nofun⟩
      · exact ⟨("algo_p", [4, 1, 5, 3, 3, 4, 4]), by simp [alikeTable], rfl, List.getElem?_eq_getElem _⟩
    · rintro ⟨hi, -⟩
      have : i < 7 := hi
      simp only [List.mem_cons, List.not_mem_nil, or_false]
      omega

theorem alike_same (names : List String) (hn : "instances" ∉ names) : SameCells lateNum alikeTable names 0 6 := by
  rintro a ha v w ⟨c, hc, e, hv⟩ ⟨c', hc', e', hw⟩
  simp only [alikeTable, List.mem_cons, List.not_mem_nil, or_false] at hc hc'
  rcases hc with rfl | rfl | rfl | rfl | rfl <;> rcases hc' with rfl | rfl | rfl | rfl | rfl <;>
    first
      | (dsimp at e e'; subst e; exact absurd e' (by decide))
      | (dsimp at e; subst e; exact absurd ha hn)
      | (simp at hv hw; subst hv; subst hw; rfl)

/-- The labels of the features, the first coordinates and the predictions in an output. -/
def placesIn (d : Dict Name (Val Nat (Kept (List (ℚ × ℚ))))) :
    Option (List String × List (Option Num) × List (List Bool)) :=
  match d .feat_labels, d .z, d .y_hat with
  | some (.names l), some (.table z), some (.verdicts h) => some (l, z.rows.map (·[0]?), h)
  | _, _, _ => none

/-- Non-vacuity: the hypotheses hold of the run on the seven instances; the first and the last have the same
place and the same predictions, the others not all. -/
example : Complete alikeEnv alikeLate ∧ Ordinary id alikeEnv alikeTable [10, 11, 12, 13, 14, 15, 16] ∧
    FitsBy alikeEnv.tr alikeEnv.fit (fun _ v => v - 1) ∧ alikeEnv.junk.2.lt alikeEnv.junk.1 = false ∧
    (∀ k z y yb i res, (alikeLate k).fitted z y yb i = .ok res → Sized yb.length res) ∧
    (∀ k, Places (alikeLate k).fitted) ∧ KeptRows id lateNum alikeEnv alikeTable [0, 1, 2, 3, 4, 5, 6] ∧
    SameCells lateNum alikeTable ["feature_a", "feature_b"] 0 6 ∧
    ∃ d, Succeeds id (fun _ => false) id lateNum alikeEnv alikeTable d ∧
      d .feat_labels = some (.names ["feature_a", "feature_b"]) ∧
      (placesIn d).map (·.2) = some ([some (.fin (-2)), some (.fin 1), some (.fin (-2 / 3)), some (.fin 0), some (.fin (-5 / 3)),
        some (.fin (2 / 3)), some (.fin (-2))], [[false, false], [true, true], [false, false], [false, false],
        [false, false], [true, true], [false, false]]) := by
  obtain ⟨d, e, h⟩ := cleanRun_succeeds (env := alikeEnv) (t := alikeTable) (by decide +kernel)
  have hl : (cleanRun alikeEnv alikeTable).toOption.bind placesIn =
    some (["feature_a", "feature_b"], [some (.fin (-2)), some (.fin 1), some (.fin (-2 / 3)), some (.fin 0), some (.fin (-5 / 3)),
      some (.fin (2 / 3)), some (.fin (-2))], [[false, false], [true, true], [false, false], [false, false],
      [false, false], [true, true], [false, false]]) := by decide +kernel
  rw [e] at hl
  change placesIn d = _ at hl
  refine ⟨alike_complete.complete, clean_ordinary alike_complete rfl ?_ rfl (by decide), fun _ _ => rfl, rfl, ?_,
    alike_places, alike_kept, alike_same _ (by decide), d, h, ?_, ?_⟩
  · intro c hc
    simp only [alikeTable, List.mem_cons, List.not_mem_nil, or_false] at hc
    rcases hc with rfl | rfl | rfl | rfl | rfl <;> rfl
  · intro k z y yb i res hres
    cases hres
    simp [Sized]
  · unfold placesIn at hl
    split at hl
    · next h1 h2 h3 =>
      obtain ⟨rfl, -⟩ := Prod.mk.inj (Option.some.inj hl)
      exact h1
    · cases hl
  · rw [hl]
    rfl

end Verif.EndToEnd
