import Verif.EndToEnd.TraceLemmas
import Verif.EndToEnd.OrderLemmas
import Verif.Pilot.PropsRows
import Verif.Cloister.PropsOrder
import Verif.Trace.PropsOrder
import Mathlib.Data.Fintype.EquivFin
/-! Reordering the instances of the last stages. -/
set_option autoImplicit false
set_option linter.unusedSectionVars false

namespace Verif.EndToEnd

open Verif (Num)
open Verif.Pipeline (Stg Name inputs outputs)
open Verif.Metadata (Table Squeezed)
open Verif.Preprocessing (Mat pick)
open Verif.Runner (Dict)

variable {V W G : Type} {lower : String → String} {numeric : Squeezed V → Bool} {str : V → V}
  {num : V → Num} {t : Table V} {τ : List Nat}

/-- An order of `n` instances as a permutation. -/
theorem order_equiv {n : Nat} (h : τ.Perm (List.range n)) :
    ∃ ρ : Equiv.Perm (Fin n), ∀ i : Fin n, τ[(i : Nat)]? = some (ρ i : Nat) := by
  have hl := perm_length h
  have hnd : τ.Nodup := h.nodup_iff.2 List.nodup_range
  let f : Fin n → Fin n := fun i => ⟨τ[(i : Nat)]'(by rw [hl]; exact i.2),
    perm_lt h _ (List.getElem_mem _)⟩
  have hf : Function.Injective f := by
    intro i j hij
    have := congrArg Fin.val hij
    exact Fin.ext ((hnd.getElem_inj_iff (hi := by rw [hl]; exact i.2) (hj := by rw [hl]; exact j.2)).1 this)
  refine ⟨Equiv.ofBijective f (Finite.injective_iff_bijective.1 hf), fun i => ?_⟩
  rw [List.getElem?_eq_getElem (by rw [hl]; exact i.2)]
  rfl

theorem pick_order {α : Type} {n : Nat} (h : τ.Perm (List.range n)) {ρ : Equiv.Perm (Fin n)}
    (hρ : ∀ i : Fin n, τ[(i : Nat)]? = some (ρ i : Nat)) {l : List α} (hl : l.length = n) (i : Fin n) :
    (pick l τ)[(i : Nat)]? = l[(ρ i : Nat)]? := by
  rw [Preprocessing.pick_getElem? l τ (by rw [hl]; exact perm_lt h), hρ]
  rfl

theorem entries_pick {n : Nat} (h : τ.Perm (List.range n)) {ρ : Equiv.Perm (Fin n)}
    (hρ : ∀ i : Fin n, τ[(i : Nat)]? = some (ρ i : Nat)) {m : Mat Num} (hm : m.rows.length = n)
    (k : Nat) : entries ⟨m.ncols, pick m.rows τ⟩ n k = Pilot.reorder ρ (entries m n k) := by
  funext i j
  unfold entries Pilot.reorder
  simp only [List.getD_eq_getElem?_getD, pick_order h hρ hm i]

theorem gapsOf_pick {n : Nat} (h : τ.Perm (List.range n)) {ρ : Equiv.Perm (Fin n)}
    (hρ : ∀ i : Fin n, τ[(i : Nat)]? = some (ρ i : Nat)) {m : Mat Num} (hm : m.rows.length = n)
    (k : Nat) : gapsOf ⟨m.ncols, pick m.rows τ⟩ n k = fun i => gapsOf m n k (ρ i) := by
  funext i j
  unfold gapsOf
  simp only [List.getD_eq_getElem?_getD, pick_order h hρ hm i]

theorem tableOf_reorder {n k : Nat} (h : τ.Perm (List.range n)) {ρ : Equiv.Perm (Fin n)}
    (hρ : ∀ i : Fin n, τ[(i : Nat)]? = some (ρ i : Nat)) (z : Matrix (Fin n) (Fin k) ℚ) :
    tableOf (Pilot.reorder ρ z) = ⟨(tableOf z).ncols, pick (tableOf z).rows τ⟩ := by
  have hl : (tableOf z).rows.length = n := by simp [tableOf]
  unfold tableOf
  congr 1
  apply List.ext_getElem?
  intro i
  by_cases hi : i < n
  · have := pick_order h hρ hl ⟨i, hi⟩
    simp only [tableOf] at this
    rw [this]
    simp [hi, Pilot.reorder]
  · rw [List.getElem?_eq_none (by simp; omega), List.getElem?_eq_none]
    rw [pick_perm_length h (by simp)]
    omega

theorem ofFn_perm {α : Type} {n : Nat} (ρ : Equiv.Perm (Fin n)) (x : Fin n → α) :
    (List.ofFn fun i => x (ρ i)).Perm (List.ofFn x) := by
  have : (List.ofFn fun i => x (ρ i)) = (List.ofFn ρ).map x := by
    rw [List.map_ofFn]; rfl
  rw [this, List.ofFn_eq_map (f := x)]
  refine List.Perm.map x ?_
  rw [List.perm_ext_iff_of_nodup (List.nodup_ofFn.2 ρ.injective) (List.nodup_finRange n)]
  intro i
  simp only [List.mem_ofFn, List.mem_finRange, iff_true]
  exact ⟨ρ.symm i, by simp⟩

variable {env : Env V W} {le : Nat → Late V W} {d : Dict Name (Val V W)}

/-- All tables that PILOT leaves behind. -/
theorem pilot_tables (hc : Complete env le) (h : Succeeds lower numeric str num env t d) :
    ∃ k x y feat o, d .x = some (.table x) ∧ d .y = some (.table y) ∧
      d .feat_labels = some (.names feat) ∧ y.rows.length = x.rows.length ∧
      Pilot.pilotGaps ((le k).pilotLib (entries x x.rows.length x.ncols))
          (entries x x.rows.length x.ncols) (entries y x.rows.length y.ncols) (gapsOf y x.rows.length y.ncols) feat
          ((le k).pilotOpts x.ncols y.ncols) = .ok o ∧
      d .a = some (.table (tableOf o.a)) ∧ d .z = some (.table (tableOf o.z)) ∧
      d .b = some (.table (tableOf o.b)) ∧ d .c = some (.table (tableOf o.c)) ∧
      d .pilot_summary = some (.frame (("0", o.summary.rows.map .word) ::
        o.summary.columns.map fun c => (c.1, c.2.map fun q => .num (.fin q)))) := by
  obtain ⟨k, vs, out, h1, h2, h3⟩ := succeeds_rest hc.tuples h .pilot (by decide)
  rw [hc.stages] at h1
  obtain ⟨x, y, feat, opts, o, rfl, f1, f2, f3, hp, rfl⟩ := runPilot_ok h1
  simp only [inputs, List.map_cons, List.map_nil, List.cons.injEq] at h2
  exact ⟨k, x, y, feat, o, h2.1, h2.2.1, h2.2.2.1, f3, hp, h3 _ _ (by simp [pilotOut]),
    h3 _ _ (by simp [pilotOut]), h3 _ _ (by simp [pilotOut]), h3 _ _ (by simp [pilotOut]),
    h3 _ _ (by simp [pilotOut])⟩

theorem pilot_reordered {n : Nat}
    {lib lib' : {p n q : Nat} → Matrix (Fin p) (Fin n) ℚ → Pilot.Lib ℚ p n q}
    (hlib : ∀ {p n q : Nat} (ρ : Equiv.Perm (Fin p)) (x : Matrix (Fin p) (Fin n) ℚ),
      (lib' (Pilot.reorder ρ x) : Pilot.Lib ℚ p n q) = (lib x).reordered ρ)
    (h : τ.Perm (List.range n)) {x y : Mat Num} (hx : x.rows.length = n) (hy : y.rows.length = n)
    {x' y' : Mat Num} (hx' : x' = ⟨x.ncols, pick x.rows τ⟩) (hy' : y' = ⟨y.ncols, pick y.rows τ⟩)
    {feat : List String} {opts : (n q : Nat) → Pilot.Options ℚ n q}
    {o : Pilot.Out ℚ x.rows.length x.ncols y.ncols} {o' : Pilot.Out ℚ x'.rows.length x'.ncols y'.ncols}
    (e : Pilot.pilotGaps (lib (entries x x.rows.length x.ncols)) (entries x x.rows.length x.ncols)
      (entries y x.rows.length y.ncols) (gapsOf y x.rows.length y.ncols) feat (opts x.ncols y.ncols) = .ok o)
    (e' : Pilot.pilotGaps (lib' (entries x' x'.rows.length x'.ncols)) (entries x' x'.rows.length x'.ncols)
      (entries y' x'.rows.length y'.ncols) (gapsOf y' x'.rows.length y'.ncols) feat (opts x'.ncols y'.ncols) =
        .ok o') :
    tableOf o'.a = tableOf o.a ∧ tableOf o'.z = ⟨(tableOf o.z).ncols, pick (tableOf o.z).rows τ⟩ ∧
      tableOf o'.b = tableOf o.b ∧ tableOf o'.c = tableOf o.c ∧ o'.summary = o.summary := by
  obtain ⟨ρ, hρ⟩ := order_equiv h
  have hl : x'.rows.length = n := by rw [hx']; exact pick_perm_length h hx
  generalize hp : x.rows.length = p at o e
  generalize hp' : x'.rows.length = p' at o' e'
  obtain rfl : p = n := hp.symm.trans hx
  obtain rfl : p' = p := hp'.symm.trans hl
  subst hx' hy'
  dsimp only at o' e'
  replace e := (Pilot.pilotGaps_ok e).1
  replace e' := (Pilot.pilotGaps_ok e').1
  rw [entries_pick h hρ hx, entries_pick h hρ hy, hlib, gapsOf_pick h hρ hy, Pilot.onGaps_reordered] at e'
  obtain ⟨-, c⟩ := Pilot.C152_instances ((lib (entries x p' x.ncols)).onGaps (entries x p' x.ncols)
    (entries y p' y.ncols) (gapsOf y p' y.ncols)) ρ (entries x p' x.ncols)
    (entries y p' y.ncols) feat (opts x.ncols y.ncols)
  obtain ⟨o'', e'', s, -⟩ := c o e
  rw [e'] at e''
  cases e''
  refine ⟨by rw [s.a], ?_, by rw [s.b], ?_, s.summary⟩
  · rw [s.points]
    exact tableOf_reorder h hρ _
  · have h1 := s.cCols
    have h2 := s.c
    clear e' e c s
    obtain ⟨_, _, _, _, _, _, cc, c1, _, _, _, _⟩ := o
    obtain ⟨_, _, _, _, _, _, cc', c1', _, _, _, _⟩ := o'
    dsimp only at h1 h2 ⊢
    subst h1
    rw [eq_of_heq h2]

theorem cloister_reordered {n : Nat} (h : τ.Perm (List.range n)) {x x' : Mat Num}
    (hx : x.rows.length = n) (hx' : x' = ⟨x.ncols, pick x.rows τ⟩)
    {qhull : List (Fin 2 → ℚ) → Option (List Nat)}
    {pearson pearson' : {m : Nat} → List (Fin m → ℚ) → Fin m → Fin m → Num × Num}
    (hp : ∀ {m : Nat} (l l' : List (Fin m → ℚ)), l.Perm l' → pearson' l' = pearson l)
    {pThr cThr : Num} {a : Mat Num} {r : Fin x.ncols → ℚ} {l : List (Fin x.ncols → ℚ)}
    {r' : Fin x'.ncols → ℚ} {l' : List (Fin x'.ncols → ℚ)}
    (e : List.ofFn (entries x x.rows.length x.ncols) = r :: l)
    (e' : List.ofFn (entries x' x'.rows.length x'.ncols) = r' :: l') :
    Cloister.cloister qhull (pearson' (r' :: l')) pThr cThr (entries a 2 x'.ncols) r' l' =
      Cloister.cloister qhull (pearson (r :: l)) pThr cThr (entries a 2 x.ncols) r l := by
  obtain ⟨ρ, hρ⟩ := order_equiv h
  have hl : x'.rows.length = n := by rw [hx']; exact pick_perm_length h hx
  subst hx'
  dsimp only at r' l' e' ⊢
  have hperm : (r' :: l').Perm (r :: l) := by
    rw [← e, ← e']
    have e2 : List.ofFn (entries ⟨x.ncols, pick x.rows τ⟩ (pick x.rows τ).length x.ncols) =
        List.ofFn (entries ⟨x.ncols, pick x.rows τ⟩ n x.ncols) := by
      have hl' : (pick x.rows τ).length = n := hl
      rw [hl']
    rw [e2, entries_pick h hρ hx, hx]
    exact ofFn_perm ρ _
  rw [hp _ _ hperm.symm]
  have := Cloister.C160_instances qhull (fun _ => pearson (r :: l)) pThr cThr (entries a 2 x.ncols) r' r
    l' l (fun r => hperm.mem_iff) rfl
  exact this

/-- The instances as TRACE sees them. -/
def instances (n : Nat) (z : List (Fin 2 → ℚ)) (y : List (List Bool)) (best : List Nat)
    (beta : List Bool) : List (Trace.Instance (Fin 2 → ℚ)) :=
  (List.range n).map fun i => ⟨z.getD i 0, y.getD i [], best.getD i 0, beta.getD i false⟩

theorem footprints_analyse {te : TraceEnv G} {n : Nat} {z : List (Fin 2 → ℚ)} {y : List (List Bool)}
    {best : List Nat} {beta : List Bool} {algo : List String}
    {o : Trace.Out G ℚ × List (String × List Num)} (hz : z.length = n) (hy : y.length = n)
    (hb : best.length = n) (hbeta : beta.length = n) (h : footprints te z y best beta algo = .ok o) :
    Trace.analyse te.geo te.purity algo.length (te.order algo.length)
        (instances n z y best beta) = .ok o.1 ∧ Trace.summaryTable algo o.1 = .ok o.2 := by
  obtain ⟨quals, h1, h2, h3⟩ := footprints_ok h
  refine ⟨?_, h3⟩
  have e : ∀ {β : Type} (l : List β) (c : β), l.length = n →
      (List.range n).map (fun i => l.getD i c) = l := by
    intro β l c hl
    subst hl
    have := list_map_range l id c
    simpa using this.symm
  unfold Trace.analyse instances
  simp only [List.map_map, Function.comp_def, e z 0 hz, e y [] hy, e best 0 hb, e beta false hbeta]
  rw [h1]
  exact h2

theorem getD_pick {β : Type} {n : Nat} (h : τ.Perm (List.range n)) {l : List β} (hl : l.length = n)
    (c : β) : pick l τ = τ.map fun i => l.getD i c := by
  apply List.ext_getElem?
  intro i
  rw [Preprocessing.pick_getElem? l τ (by rw [hl]; exact perm_lt h), List.getElem?_map]
  cases hi : τ[i]? with
  | none => rfl
  | some j =>
    have : j < l.length := by rw [hl]; exact perm_lt h j (List.mem_of_getElem? hi)
    simp [List.getElem?_eq_getElem this]

theorem instances_pick {n : Nat} (h : τ.Perm (List.range n)) {z : List (Fin 2 → ℚ)}
    {y : List (List Bool)} {best : List Nat} {beta : List Bool} (hz : z.length = n) (hy : y.length = n)
    (hb : best.length = n) (hbeta : beta.length = n) :
    (instances n z y best beta).Perm
      (instances n (pick z τ) (pick y τ) (pick best τ) (pick beta τ)) := by
  have e : instances n (pick z τ) (pick y τ) (pick best τ) (pick beta τ) =
      τ.map fun i => ⟨z.getD i 0, y.getD i [], best.getD i 0, beta.getD i false⟩ := by
    have hl := perm_length h
    rw [getD_pick h hz 0, getD_pick h hy [], getD_pick h hb 0, getD_pick h hbeta false]
    unfold instances
    apply List.ext_getElem
    · simp [hl]
    · intro i h1 h2
      have h3 : i < τ.length := by simpa using h2
      simp [List.getElem?_eq_getElem h3]
  rw [e]
  exact (h.map _).symm

theorem footprints_reordered {te te' : TraceEnv G} (laws : Trace.Laws te.geo)
    (hu : Trace.UniqueSorts te.geo) (hg : te'.geo = te.geo) (hpur : te'.purity = te.purity)
    (ho : ∀ n, (te.order n).Perm (List.range n)) (ho' : ∀ n, (te'.order n).Perm (List.range n))
    {n : Nat} (h : τ.Perm (List.range n)) {z : List (Fin 2 → ℚ)} {y : List (List Bool)}
    {best : List Nat} {beta : List Bool} {algo : List String}
    {o o' : Trace.Out G ℚ × List (String × List Num)} (hz : z.length = n) (hy : y.length = n)
    (hb : best.length = n) (hbeta : beta.length = n) (e : footprints te z y best beta algo = .ok o)
    (e' : footprints te' (pick z τ) (pick y τ) (pick best τ) (pick beta τ) algo = .ok o') : o' = o := by
  obtain ⟨a1, a2⟩ := footprints_analyse hz hy hb hbeta e
  obtain ⟨b1, b2⟩ := footprints_analyse (pick_perm_length h hz) (pick_perm_length h hy)
    (pick_perm_length h hb) (pick_perm_length h hbeta) e'
  rw [hg, hpur] at b1
  have c := (Trace.C183_instances te.geo laws hu te.purity algo.length _ _ (ho _) (ho' _) _ _
    (instances_pick h hz hy hb hbeta) o'.1).2 b1
  rw [a1] at c
  injection c with c
  rw [c] at a2
  rw [a2] at b2
  injection b2 with b2
  exact Prod.ext c.symm b2.symm

variable {envT : Env V (Kept G)} {leT : Nat → Late V (Kept G)} {te : Nat → TraceEnv G}
  {dT : Dict Name (Val V (Kept G))}

/-- All results of TRACE. -/
theorem trace_results (hc : CompleteTrace envT leT te) (h : Succeeds lower numeric str num envT t dT) :
    ∃ k z sel p beta algo yHat yBin o, dT .z = some (.table z) ∧ dT .selection0 = some (.counts sel) ∧
      dT .p = some (.counts p) ∧ dT .beta = some (.flags beta) ∧ dT .algo_labels = some (.names algo) ∧
      dT .y_hat = some (.verdicts yHat) ∧ dT .y_bin = some (.verdicts yBin) ∧
      footprints (te k) (z.rows.map place) (if (te k).useSim then yHat else yBin)
        (if (te k).useSim then sel else p) beta algo = .ok o ∧
      dT .space = some (.other (.footprint o.1.space)) ∧ dT .hard = some (.other (.footprint o.1.hard)) ∧
      dT .good = some (.other (.footprints o.1.good)) ∧ dT .best = some (.other (.footprints o.1.best)) ∧
      dT .trace_summary = some (.frame (traceFrame o.2)) := by
  obtain ⟨k, vs, out, h1, h2, h3⟩ := succeeds_rest hc.complete.tuples h .trace (by decide)
  rw [hc.stages] at h1
  change (leT k).trace vs = .ok out at h1
  rw [hc.trace] at h1
  obtain ⟨z, sel, p, beta, algo, yHat, yBin, o1, o2, o, rfl, f1, -, ho, rfl⟩ := runTrace_ok h1
  simp only [inputs, List.map_cons, List.map_nil, List.cons.injEq] at h2
  obtain ⟨a1, a2, a3, a4, a5, a6, a7, -⟩ := h2
  exact ⟨k, z, sel, p, beta, algo, yHat, yBin, o, a1, a2, a3, a4, a5, a6, a7, ho,
    h3 _ _ (by simp), h3 _ _ (by simp), h3 _ _ (by simp), h3 _ _ (by simp), h3 _ _ (by simp)⟩

end Verif.EndToEnd
