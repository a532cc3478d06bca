import Verif.EndToEnd.SpecOracle
import Verif.EndToEnd.ShapeLemmas
import Verif.EndToEnd.GapsLemmas
import Verif.Pythia.PropsSummary
import Mathlib.Algebra.Order.BigOperators.Group.List
/-!
# Lemmas on the row of the oracle
-/
set_option autoImplicit false
set_option linter.unusedSectionVars false

namespace Verif.EndToEnd

open Verif (Num)
open Verif.Pipeline (Stg Name)
open Verif.Metadata (Table Squeezed)
open Verif.Runner (Dict)
open Verif.Pythia (share perfOf presentValues Average)

variable {V W : Type} {lower : String → String} {numeric : Squeezed V → Bool} {str : V → V}
  {num : V → Num} {env : Env V W} {le : Nat → Late V W} {t : Table V} {labels : List V}
  {d : Dict Name (Val V W)}

theorem NotBetter.round {b : Bool} {p q : ℚ} {r : ℚ → ℚ} (hr : Monotone r) (h : NotBetter b p q) :
    NotBetter b (r p) (r q) := by
  unfold NotBetter at h ⊢
  split at h <;> simp_all [hr _]

/-- Putting `eps` in the place of zero keeps the order of numbers that are not between the two. -/
theorem zero_order {p q : ℚ} (h : p ≤ q) (hq : ¬ (0 < q ∧ q < Num.eps)) :
    (if p = 0 then Num.eps else p) ≤ (if q = 0 then Num.eps else q) := by
  have e := Num.eps_pos
  split <;> split
  · exact le_refl _
  · rename_i z1 z2
    by_contra hc
    exact hq ⟨lt_of_le_of_ne (z1 ▸ h) (Ne.symm z2), not_le.1 hc⟩
  · rename_i z1 z2
    linarith
  · exact h

/-- In one instance no performance is better than the best. -/
theorem row_bound {o : Prelim.Opts} {row : List Num} {out : Prelim.Row} (h : Prelim.rowStep o row = some out)
    (hf : ∀ v ∈ out.yIn, ∃ q : ℚ, v = .fin q ∧ (o.absPerf = false → ¬ (0 < q ∧ q < Num.eps))) :
    ∃ b : ℚ, out.yBest = .fin b ∧ ∀ q : ℚ, Num.fin q ∈ out.yIn → NotBetter o.maxPerf q b := by
  obtain ⟨best, h1, h2, h3, -, -, -, -, h4, -⟩ := Prelim.rowStep_some h
  have hrow : ∀ v ∈ row, ∃ q : ℚ, v = .fin q ∧ (o.absPerf = false → ¬ (0 < q ∧ q < Num.eps)) := by
    intro v hv
    rw [h4] at hf
    cases ha : o.absPerf with
    | true =>
      rw [ha] at hf
      obtain ⟨q, hq, -⟩ := hf v (by simpa using hv)
      exact ⟨q, hq, by simp⟩
    | false =>
      rw [ha] at hf
      obtain ⟨q, hq, hlt⟩ := hf (Prelim.fixZero v) (by simpa using ⟨v, hv, rfl⟩)
      unfold Prelim.fixZero at hq
      split at hq
      · rename_i h0
        exact ⟨0, (Num.eq_iff.1 h0).1, by simp⟩
      · exact ⟨q, hq, hlt⟩
  have haux : ∀ q : ℚ, Prelim.aux o.maxPerf (.fin q) = .fin q := fun q => rfl
  obtain ⟨v, hv, rfl⟩ := List.mem_map.1 h1
  obtain ⟨b, rfl, hb⟩ := hrow v hv
  rw [haux] at h2 h3
  have hle : ∀ q : ℚ, Num.fin q ∈ row → NotBetter o.maxPerf q b := by
    intro q hq
    have := h2 _ hq
    rw [haux] at this
    unfold Prelim.AtLeastAsGood at this
    unfold NotBetter
    split
    · rename_i hm
      simpa [hm, Num.le] using this
    · rename_i hm
      simpa [hm, Num.le] using this
  cases ha : o.absPerf with
  | true =>
    rw [ha] at h3 h4
    refine ⟨b, h3, fun q hq => hle q ?_⟩
    rw [h4] at hq
    exact hq
  | false =>
    rw [ha] at h3 h4
    have fz : ∀ q : ℚ, Prelim.fixZero (.fin q) = .fin (if q = 0 then Num.eps else q) := by
      intro q
      unfold Prelim.fixZero
      by_cases hq : q = 0
      · subst hq; rfl
      · rw [if_neg hq, if_neg]
        intro he
        have := (Num.eq_iff.1 he).1
        injection this with this
        exact hq this
    simp only [Bool.false_eq_true, if_false, fz] at h3
    refine ⟨_, h3, fun q hq => ?_⟩
    rw [h4] at hq
    obtain ⟨w, hw, hwq⟩ := List.mem_map.1 hq
    obtain ⟨q0, rfl, hq0⟩ := hrow w hw
    rw [fz] at hwq
    injection hwq with hwq
    subst hwq
    have hn := hle q0 hw
    have e := Num.eps_pos
    have b1 := hb ha
    have b2 := hq0 ha
    unfold NotBetter at hn ⊢
    cases hm : o.maxPerf with
    | true =>
      rw [hm] at hn
      exact zero_order hn b1
    | false =>
      rw [hm] at hn
      exact zero_order hn b2

theorem presentValues_fin : ∀ l : List ℚ, presentValues (l.map Num.fin) = l
  | [] => rfl
  | q :: l => by
    have := presentValues_fin l
    unfold presentValues at this ⊢
    rw [List.map_cons, List.filterMap_cons, this]

theorem average_fin {l : List ℚ} (h : l ≠ []) : Average (l.map Num.fin) (l.sum / l.length) :=
  ⟨by simp, by simp, by rw [presentValues_fin]; exact h, by rw [presentValues_fin]⟩

/-- Means of lists that are ordered entry by entry. -/
theorem mean_bound {m : Bool} {a b : List ℚ} (h : List.Forall₂ (NotBetter m) a b) :
    NotBetter m (a.sum / a.length) (b.sum / b.length) := by
  have hl := h.length_eq
  unfold NotBetter at h ⊢
  rw [hl]
  cases m with
  | true =>
    simp only [if_true] at h ⊢
    exact div_le_div_of_nonneg_right h.sum_le_sum (Nat.cast_nonneg _)
  | false =>
    simp only [Bool.false_eq_true, if_false] at h ⊢
    exact div_le_div_of_nonneg_right (List.Forall₂.sum_le_sum h.flip) (Nat.cast_nonneg _)

/-- The performances and the best ones in the Model of a run whose performances are all known. -/
theorem measured_rows (ho : Readable lower env t labels) (h : Succeeds lower numeric str num env t d)
    {y : Preprocessing.Mat Num} {yBest : List Num} {algos : List String}
    (hy : d .y_raw = some (.table y)) (hb : d .y_best = some (.numbers yBest))
    (ha : d .algo_labels = some (.names algos)) (hm : Measured (!env.prelim.absPerf) y.rows) :
    ∃ (c : List (List ℚ)) (b : List ℚ), y.rows = c.map (·.map .fin) ∧ yBest = b.map .fin ∧
      y.ncols = algos.length ∧ (∀ r ∈ c, r.length = algos.length) ∧ b.length = c.length ∧
      ∀ (k : Nat) r q, c[k]? = some r → b[k]? = some q → ∀ v ∈ r, NotBetter env.prelim.maxPerf v q := by
  obtain ⟨n, g, feats, algos', x, y', -, e2, -, -, -, -, e7, e8, e9, -, e11, -, e13, -⟩ := data_sizes ho h
  rw [ha] at e2
  cases e2
  obtain ⟨yr, y1, y2, y3, y4⟩ := e11
  rw [hy] at y1
  cases y1
  obtain ⟨l, b1, b2⟩ := e13
  rw [hb] at b1
  cases b1
  obtain ⟨n', m, raw, ys, cols, best, outs, r1, r2, r3, r4, -, r6, r7⟩ := scores_routed ho.tuples h
  rw [hy] at r1
  cases r1
  rw [hb] at r3
  cases r3
  obtain ⟨hol, hor⟩ := outs_row r4
  have key : ∀ k < raw.length, ∃ r, raw[k]? = some r ∧ ∃ b : ℚ, yBest[k]? = some (.fin b) ∧
      ∀ q : ℚ, Num.fin q ∈ r → NotBetter env.prelim.maxPerf q b := by
    intro k hk
    obtain ⟨i, hi, -, h2, h3⟩ := r7 k ys[k] (List.getElem?_eq_getElem (by omega))
    obtain ⟨out, h4, h5⟩ := hor i m[i] (List.getElem?_eq_getElem (by omega))
    rw [List.getElem?_map, h4] at h2 h3
    have hmem : out.yIn ∈ raw := List.mem_of_getElem? h2
    obtain ⟨b, hb1, hb2⟩ := row_bound h5 fun v hv => by
      obtain ⟨q, h6, h7⟩ := hm _ hmem v hv
      exact ⟨q, h6, fun hf => h7 (by rw [hf]; rfl)⟩
    exact ⟨out.yIn, h2, b, by rw [h3, ← hb1]; rfl, hb2⟩
  have hlen : yBest.length = raw.length := by simpa using b2.trans y3.symm
  have hraw : ∃ c : List (List ℚ), raw = c.map (·.map .fin) := by
    clear key r7 r6 hlen y3 hy e7 hb
    induction raw with
    | nil => exact ⟨[], rfl⟩
    | cons r raw ih =>
      obtain ⟨c, hc⟩ := ih (fun r hr => hm r (List.mem_cons_of_mem _ hr))
        y2 (fun r hr => y4 r (List.mem_cons_of_mem _ hr))
      have hr : ∀ l : List Num, (∀ v ∈ l, ∃ q : ℚ, v = .fin q) → ∃ s : List ℚ, l = s.map .fin := by
        intro l
        induction l with
        | nil => exact fun _ => ⟨[], rfl⟩
        | cons v l ih =>
          intro hv
          obtain ⟨s, rfl⟩ := ih fun v h => hv v (List.mem_cons_of_mem _ h)
          obtain ⟨q, rfl⟩ := hv v List.mem_cons_self
          exact ⟨q :: s, rfl⟩
      obtain ⟨s, rfl⟩ := hr r fun v hv => by
        obtain ⟨q, hq, -⟩ := hm r List.mem_cons_self v hv
        exact ⟨q, hq⟩
      exact ⟨s :: c, by rw [hc]; rfl⟩
  obtain ⟨c, rfl⟩ := hraw
  have hbest : ∃ b : List ℚ, yBest = b.map .fin := by
    refine ⟨presentValues yBest, ?_⟩
    have hall : ∀ v ∈ yBest, ∃ q : ℚ, v = .fin q := by
      intro v hv
      obtain ⟨k, hk, rfl⟩ := List.mem_iff_getElem.1 hv
      obtain ⟨-, -, b, hb', -⟩ := key k (by omega)
      rw [List.getElem?_eq_getElem hk] at hb'
      exact ⟨b, Option.some.inj hb'⟩
    clear key r7 hlen b2 hb
    induction yBest with
    | nil => rfl
    | cons v l ih =>
      obtain ⟨q, rfl⟩ := hall v List.mem_cons_self
      have := ih fun v h => hall v (List.mem_cons_of_mem _ h)
      unfold presentValues at this ⊢
      rw [List.filterMap_cons, List.map_cons, ← this]
  obtain ⟨b, rfl⟩ := hbest
  simp only [List.length_map] at hlen
  refine ⟨c, b, rfl, rfl, y2, fun r hr => ?_, hlen, ?_⟩
  · simpa using y4 (r.map .fin) (List.mem_map_of_mem hr)
  · intro k r q hr hq v hv
    have hk : k < c.length := by
      by_contra hc
      rw [List.getElem?_eq_none (by omega)] at hr
      cases hr
    obtain ⟨r', g1, b', g2, g3⟩ := key k (by simpa using hk)
    rw [List.getElem?_map, hr] at g1
    rw [List.getElem?_map, hq] at g2
    injection g1 with g1
    subst g1
    injection g2 with g2
    injection g2 with g2
    subst g2
    exact g3 v (List.mem_map_of_mem hv)

theorem perfOf_fin {c : List (List ℚ)} {m j : Nat} (hc : ∀ r ∈ c, r.length = m) (hj : j < m) :
    ∃ l : List ℚ, perfOf (c.map (·.map .fin)) j = l.map .fin ∧ List.Forall₂ (fun q r => q ∈ r) l c := by
  unfold perfOf
  induction c with
  | nil => exact ⟨[], rfl, .nil⟩
  | cons r c ih =>
    obtain ⟨l, h1, h2⟩ := ih fun r hr => hc r (List.mem_cons_of_mem _ hr)
    have hr : j < r.length := by rw [hc r List.mem_cons_self]; exact hj
    refine ⟨r[j] :: l, ?_, .cons (List.getElem_mem _) h2⟩
    rw [List.map_cons, List.filterMap_cons, h1, List.getElem?_map, List.getElem?_eq_getElem hr]
    rfl

theorem forall2_notBetter {mp : Bool} : ∀ {l b : List ℚ} {c : List (List ℚ)},
    List.Forall₂ (fun q r => q ∈ r) l c → b.length = c.length →
    (∀ (k : Nat) r q, c[k]? = some r → b[k]? = some q → ∀ v ∈ r, NotBetter mp v q) →
    List.Forall₂ (NotBetter mp) l b
  | _, [], _, .nil, _, _ => .nil
  | _, q :: b, _, .cons h hs, hl, hk =>
    .cons (hk 0 _ _ rfl rfl _ h) (forall2_notBetter hs (by simpa using hl) fun k r q h1 h2 => hk (k + 1) r q h1 h2)

/-- A column of the frame of the summary. -/
theorem holds_of {s : Pythia.Summary} {name : String} {l : List Num} {j : Nat} {q : ℚ}
    (hd : d .pythia_summary = some (.frame (summaryFrame s)))
    (hn : (summaryFrame s).lookup name = some (l.map shown)) (hj : l[j]? = some (.fin q)) :
    Holds d name j (.num (.fin q)) :=
  ⟨_, _, hd, hn, by rw [List.getElem?_map, hj]; rfl⟩

end Verif.EndToEnd
