import Verif.EndToEnd.SimLemmas
import Verif.EndToEnd.LabelLemmas
import Verif.EndToEnd.SpecShift
import Verif.Prelim.PropsUnit
import Verif.Prelim.RecordedLemmas
import Verif.Pipeline.Props
/-!
# Moving the zero points of the features through the pipeline
-/
set_option autoImplicit false
set_option linter.unusedSectionVars false

namespace Verif.EndToEnd

open Verif (Num)
open Verif.Pipeline (Stg Name inputs outputs runner)
open Verif.Preprocessing (Mat)
open Verif.Metadata (Table Squeezed Begins)
open Verif.Runner (Dict override applyAll applyStage RunError Pipeline)

variable {V W : Type}

/-- The rows of `m'` are those of `m` moved by `z`; the entries of `m` have the property `p`. -/
structure MovedBy (p : Num → Prop) (z : List ℚ) (m m' : Mat Num) : Prop where
  width : z.length = m.ncols
  width' : m'.ncols = m.ncols
  rect : ∀ r ∈ m.rows, r.length = m.ncols
  rows : m'.rows = m.rows.map (moveRow z)
  entries : ∀ r ∈ m.rows, ∀ v ∈ r, p v

/-- Moved by something. -/
def Moved (p : Num → Prop) (m m' : Mat Num) : Prop := ∃ z, MovedBy p z m m'

theorem moveRow_length {z : List ℚ} {r : List Num} (h : r.length = z.length) :
    (moveRow z r).length = r.length := by
  simp [moveRow, h]

theorem moveRow_get (z : List ℚ) (r : List Num) (i : Nat) :
    (moveRow z r)[i]? = (match r[i]?, z[i]? with | some v, some q => some (v + .fin q) | _, _ => none) := by
  unfold moveRow
  rw [List.getElem?_zipWith]
  cases r[i]? <;> cases z[i]? <;> rfl

theorem moveRow_all : ∀ {z : List ℚ} {r : List Num}, r.length = z.length →
    (moveRow z r).all Num.isNan = r.all Num.isNan
  | [], [], _ => rfl
  | [], _ :: _, h => by simp at h
  | _ :: _, [], h => by simp at h
  | q :: z, v :: r, h => by
    have := moveRow_all (z := z) (r := r) (by simpa using h)
    unfold moveRow at this ⊢
    rw [List.zipWith_cons_cons, List.all_cons, List.all_cons, this, Prelim.move_isNan]

theorem mask_moveRow : ∀ (z : List ℚ) (r : List Num) (idx : List Bool),
    Preprocessing.mask (moveRow z r) idx =
      moveRow (Preprocessing.mask z idx) (Preprocessing.mask r idx)
  | [], [], _ => by simp [Preprocessing.mask, moveRow]
  | [], _ :: _, _ => by simp [Preprocessing.mask, moveRow]
  | _ :: _, [], _ => by simp [Preprocessing.mask, moveRow]
  | _ :: _, _ :: _, [] => by simp [Preprocessing.mask, moveRow]
  | q :: z, v :: r, b :: idx => by
    have := mask_moveRow z r idx
    cases b <;> simp_all [Preprocessing.mask, moveRow]

theorem mask_length_eq {α β : Type} : ∀ (l : List α) (m : List β) (idx : List Bool), l.length = m.length →
    (Preprocessing.mask l idx).length = (Preprocessing.mask m idx).length
  | [], [], _, _ => rfl
  | [], _ :: _, _, h => by simp at h
  | _ :: _, [], _, h => by simp at h
  | _ :: _, _ :: _, [], _ => by simp [Preprocessing.mask]
  | a :: l, b :: m, c :: idx, h => by
    have := mask_length_eq l m idx (by simpa using h)
    cases c <;> simp_all [Preprocessing.mask]

theorem mem_of_mask {α : Type} {l : List α} {idx : List Bool} {a : α} (h : a ∈ Preprocessing.mask l idx) :
    a ∈ l := by
  unfold Preprocessing.mask at h
  obtain ⟨p, hp, rfl⟩ := List.mem_map.1 h
  exact (List.of_mem_zip (List.mem_filter.1 hp).1).1

theorem pickRow_length {α : Type} (idx : List Nat) (r : List α) (h : ∀ i ∈ idx, i < r.length) :
    (idx.filterMap (r[·]?)).length = idx.length := by
  induction idx with
  | nil => rfl
  | cons i idx ih =>
    rw [List.filterMap_cons, List.getElem?_eq_getElem (h i List.mem_cons_self)]
    simp only [List.length_cons, ih fun j hj => h j (List.mem_cons_of_mem _ hj)]

theorem pickRow_moveRow (idx : List Nat) (z : List ℚ) (r : List Num) (hl : r.length = z.length)
    (h : ∀ i ∈ idx, i < r.length) :
    idx.filterMap ((moveRow z r)[·]?) = moveRow (idx.filterMap (z[·]?)) (idx.filterMap (r[·]?)) := by
  induction idx with
  | nil => rfl
  | cons i idx ih =>
    have hi := h i List.mem_cons_self
    rw [List.filterMap_cons, List.filterMap_cons, List.filterMap_cons, moveRow_get,
      List.getElem?_eq_getElem hi, List.getElem?_eq_getElem (hl ▸ hi)]
    simp only
    rw [ih fun j hj => h j (List.mem_cons_of_mem _ hj)]
    rfl

variable {p : Num → Prop}

theorem select_moved {m m' : Mat Num} (h : Moved p m m') (labels : List String)
    (wanted : Option (List String)) :
    Both (fun a b => a.2 = b.2 ∧ Moved p a.1 b.1) (Preprocessing.select m labels wanted)
      (Preprocessing.select m' labels wanted) := by
  obtain ⟨z, h⟩ := h
  unfold Preprocessing.select
  cases wanted with
  | none => exact ⟨rfl, z, h⟩
  | some w =>
    dsimp only
    split
    · exact ⟨rfl, z, h⟩
    · rw [h.width']
      split
      · rename_i hidx
        have hlt : ∀ i ∈ (labels.filter fun l => l ∈ w).map fun l => labels.idxOf l, i < m.ncols := by
          intro i hi
          have := List.all_eq_true.1 hidx i hi
          simpa using this
        generalize (labels.filter fun l => l ∈ w).map (fun l => labels.idxOf l) = idx at hlt
        refine ⟨rfl, idx.filterMap (z[·]?), ⟨?_, rfl, ?_, ?_, ?_⟩⟩
        · exact pickRow_length idx z fun i hi => by rw [h.width]; exact hlt i hi
        · intro r hr
          obtain ⟨r0, hr0, rfl⟩ := List.mem_map.1 hr
          exact pickRow_length idx r0 fun i hi => by rw [h.rect r0 hr0]; exact hlt i hi
        · dsimp only
          rw [h.rows, List.map_map, List.map_map]
          apply List.map_congr_left
          intro r hr
          exact pickRow_moveRow idx z r (by rw [h.rect r hr, h.width]) fun i hi => by
            rw [h.rect r hr]; exact hlt i hi
        · intro r hr v hv
          obtain ⟨r0, hr0, rfl⟩ := List.mem_map.1 hr
          obtain ⟨i, -, hi⟩ := List.mem_filterMap.1 hv
          exact h.entries r0 hr0 v (List.mem_of_getElem? hi)
      · exact rfl

theorem emptyRows_moved {m m' y : Mat Num} (h : Moved p m m') :
    Preprocessing.emptyRows Num.isNan m' y = Preprocessing.emptyRows Num.isNan m y := by
  obtain ⟨z, h⟩ := h
  unfold Preprocessing.emptyRows
  rw [h.rows]
  have hr : ∀ r ∈ m.rows, r.length = z.length := fun r hr => by rw [h.rect r hr, h.width]
  generalize m.rows = rs at hr
  generalize y.rows = ys
  induction rs generalizing ys with
  | nil => rfl
  | cons r rs ih =>
    cases ys with
    | nil => rfl
    | cons y ys =>
      rw [List.map_cons, List.zipWith_cons_cons, List.zipWith_cons_cons,
        ih (fun r hr' => hr r (List.mem_cons_of_mem _ hr')),
        moveRow_all (hr r List.mem_cons_self)]

theorem missing_moved {m m' : Mat Num} (h : Moved p m m') (j : Nat) :
    Preprocessing.missing Num.isNan m' j = Preprocessing.missing Num.isNan m j := by
  obtain ⟨z, h⟩ := h
  unfold Preprocessing.missing
  rw [h.rows]
  have hr : ∀ r ∈ m.rows, r.length = z.length := fun r hr => by rw [h.rect r hr, h.width]
  generalize m.rows = rs at hr
  induction rs with
  | nil => rfl
  | cons r rs ih =>
    have ih := ih fun r hr' => hr r (List.mem_cons_of_mem _ hr')
    have hl := hr r List.mem_cons_self
    rw [List.map_cons, List.filterMap_cons, List.filterMap_cons, moveRow_get]
    by_cases hj : j < r.length
    · rw [List.getElem?_eq_getElem hj, List.getElem?_eq_getElem (hl ▸ hj)]
      simp only [List.countP_cons, ih, Prelim.move_isNan]
    · rw [List.getElem?_eq_none (not_lt.1 hj)]
      exact ih

theorem sparse_moved {m m' : Mat Num} (h : Moved p m m') :
    Preprocessing.sparseCols Num.isNan m' = Preprocessing.sparseCols Num.isNan m := by
  unfold Preprocessing.sparseCols
  simp only [missing_moved h]
  obtain ⟨z, h⟩ := h
  rw [h.width', h.rows, List.length_map, List.isEmpty_map]

theorem run_moved {m m' : Mat Num} (h : Moved p m m') (y : Mat Num) (s : Option (List V))
    (feat : List String) (inst : List V) (algo : List String) (feats algos : Option (List String)) :
    Both (fun a b => a.algo = b.algo ∧ Moved p a.data.x b.data.x ∧ a.data.y = b.data.y ∧
        a.data.s = b.data.s ∧ a.data.feat = b.data.feat ∧ a.data.inst = b.data.inst)
      (Preprocessing.run Num.isNan ⟨m, y, s, feat, inst⟩ algo feats algos)
      (Preprocessing.run Num.isNan ⟨m', y, s, feat, inst⟩ algo feats algos) := by
  unfold Preprocessing.run
  dsimp only
  have h1 := select_moved h feat feats
  cases e1 : Preprocessing.select m feat feats with
  | error x =>
    cases e2 : Preprocessing.select m' feat feats with
    | error x' => rw [e1, e2] at h1; exact h1
    | ok x' => rw [e1, e2] at h1; exact h1.elim
  | ok a =>
    cases e2 : Preprocessing.select m' feat feats with
    | error x' => rw [e1, e2] at h1; exact h1.elim
    | ok b =>
      rw [e1, e2] at h1
      obtain ⟨x, f⟩ := a
      obtain ⟨x', f'⟩ := b
      obtain ⟨h2, h3⟩ := h1
      dsimp only at h2 h3
      subst h2
      dsimp only
      cases Preprocessing.select y algo algos with
      | error e => exact rfl
      | ok c =>
        obtain ⟨y, algo⟩ := c
        dsimp only
        -- rows
        have hrows : ∃ u u' y2 s2 i2, Preprocessing.removeRows Num.isNan (⟨x, y, s, f, inst⟩ : Preprocessing.Data Num String V V) = ⟨u, y2, s2, f, i2⟩ ∧
            Preprocessing.removeRows Num.isNan (⟨x', y, s, f, inst⟩ : Preprocessing.Data Num String V V) = ⟨u', y2, s2, f, i2⟩ ∧ Moved p u u' := by
          unfold Preprocessing.removeRows
          dsimp only
          rw [emptyRows_moved h3]
          generalize Preprocessing.emptyRows Num.isNan x y = idx
          split
          · obtain ⟨z, h3⟩ := h3
            refine ⟨_, _, _, _, _, rfl, rfl, z, h3.width, h3.width', ?_, ?_, ?_⟩
            · intro r hr; exact h3.rect r (mem_of_mask hr)
            · dsimp only
              rw [h3.rows, mask_map]
            · intro r hr; exact h3.entries r (mem_of_mask hr)
          · exact ⟨_, _, _, _, _, rfl, rfl, h3⟩
        obtain ⟨u, u', y2, s2, i2, r1, r2, h4⟩ := hrows
        have hcols : ∃ w w' f2, Preprocessing.removeCols Num.isNan (⟨u, y2, s2, f, i2⟩ : Preprocessing.Data Num String V V) = ⟨w, y2, s2, f2, i2⟩ ∧
            Preprocessing.removeCols Num.isNan (⟨u', y2, s2, f, i2⟩ : Preprocessing.Data Num String V V) = ⟨w', y2, s2, f2, i2⟩ ∧ Moved p w w' := by
          unfold Preprocessing.removeCols
          dsimp only
          rw [sparse_moved h4]
          generalize Preprocessing.sparseCols Num.isNan u = idx
          split
          · obtain ⟨z, h4⟩ := h4
            refine ⟨_, _, _, rfl, rfl, Preprocessing.mask z idx, ?_, ?_, ?_, ?_, ?_⟩
            · exact mask_length_eq _ _ _ (by rw [h4.width, List.length_range])
            · rw [h4.width']
            · intro r hr
              obtain ⟨r0, hr0, rfl⟩ := List.mem_map.1 hr
              exact mask_length_eq _ _ _ (by rw [h4.rect r0 hr0, List.length_range])
            · dsimp only
              rw [h4.rows, List.map_map, List.map_map]
              apply List.map_congr_left
              intro r _
              exact mask_moveRow z r idx
            · intro r hr v hv
              obtain ⟨r0, hr0, rfl⟩ := List.mem_map.1 hr
              exact h4.entries r0 hr0 v (mem_of_mask hv)
          · exact ⟨_, _, _, rfl, rfl, h4⟩
        obtain ⟨w, w', f2, c1, c2, h5⟩ := hcols
        unfold Preprocessing.removeMissing
        rw [r1, r2, c1, c2]
        dsimp only
        have hl : w'.rows.length = w.rows.length := by
          obtain ⟨z, h5⟩ := h5
          rw [h5.rows, List.length_map]
        rw [hl]
        by_cases hw : w.rows.length = 0
        · rw [if_pos hw, if_pos hw]; exact rfl
        · rw [if_neg hw, if_neg hw]; exact ⟨rfl, h5, rfl, rfl, rfl, rfl⟩

/-! ### Related values -/

/-- The names under which PRELIM records where the features are located. -/
def sites : List Name := [.med_val, .hi_bound, .lo_bound, .min_x]

/-- The tables under the names in `S` are moved, everything else is the same, except for what is recorded of the
location of the features. -/
def Rel (S : List Name) (p : Num → Prop) (n : Name) (v v' : Val V W) : Prop :=
  if n ∈ S then ∃ m m', v = .table m ∧ v' = .table m' ∧ Moved p m m' else n ∉ sites → v = v'

theorem rel_eq {S : List Name} {n : Name} (h : n ∉ S ++ sites) {v v' : Val V W} :
    Rel S p n v v' ↔ v = v' := by
  rw [List.mem_append, not_or] at h
  unfold Rel; rw [if_neg h.1]
  exact ⟨fun e => e h.2, fun e _ => e⟩

theorem rel_sites {S : List Name} {n : Name} (h : n ∉ S) (h' : n ∈ sites) {v v' : Val V W} :
    Rel S p n v v' := by
  unfold Rel; rw [if_neg h]
  exact fun e => (e h').elim

theorem rel_moved {S : List Name} {n : Name} (h : n ∈ S) {v v' : Val V W} :
    Rel S p n v v' ↔ ∃ m m', v = .table m ∧ v' = .table m' ∧ Moved p m m' := by
  unfold Rel; rw [if_pos h]

theorem pre_rel (env : Env V W) (ps : List (Val V W × Val V W))
    (h : List.Forall₂ (fun n q => Rel [.features, .x, .x_raw] p n q.1 q.2)
      ((inputs .preprocessing).map Prod.fst) ps) :
    Both (OutRel (Rel [.features, .x, .x_raw] p))
      (runPreprocessing env (ps.map Prod.fst)) (runPreprocessing env (ps.map Prod.snd)) := by
  simp only [inputs, List.map_cons, List.map_nil] at h
  cases h with | cons h1 h => cases h with | cons h2 h => cases h with | cons h3 h => cases h with
  | cons h4 h => cases h with | cons h5 h => cases h with | cons h6 h => cases h with
  | cons h7 h => cases h with
  | nil =>
    rename_i q1 q2 q3 q4 q5 q6 q7
    obtain ⟨a1, b1⟩ := q1
    obtain ⟨a2, b2⟩ := q2
    obtain ⟨a3, b3⟩ := q3
    obtain ⟨a4, b4⟩ := q4
    obtain ⟨a5, b5⟩ := q5
    obtain ⟨a6, b6⟩ := q6
    obtain ⟨a7, b7⟩ := q7
    dsimp only at h1 h2 h3 h4 h5 h6
    obtain rfl := (rel_eq (by decide)).1 h1
    obtain rfl := (rel_eq (by decide)).1 h2
    obtain rfl := (rel_eq (by decide)).1 h3
    obtain rfl := (rel_eq (by decide)).1 h4
    obtain ⟨m, m', rfl, rfl, hm⟩ := (rel_moved (by decide)).1 h5
    obtain rfl := (rel_eq (by decide)).1 h6
    simp only [List.map_cons, List.map_nil]
    unfold runPreprocessing
    split
    · rename_i feat algo inst s x y o heq
      simp only [List.cons.injEq, Val.table.injEq, and_true] at heq
      obtain ⟨rfl, rfl, rfl, rfl, rfl, rfl, -⟩ := heq
      dsimp only
      have hr := run_moved hm y s feat inst algo env.feats env.algos
      cases e1 : Preprocessing.run Num.isNan ⟨m, y, s, feat, inst⟩ algo env.feats env.algos with
      | error e =>
        cases e2 : Preprocessing.run Num.isNan ⟨m', y, s, feat, inst⟩ algo env.feats env.algos with
        | error e' => rw [e1, e2] at hr; exact congrArg _ hr
        | ok o' => rw [e1, e2] at hr; exact hr.elim
      | ok o =>
        cases e2 : Preprocessing.run Num.isNan ⟨m', y, s, feat, inst⟩ algo env.feats env.algos with
        | error e' => rw [e1, e2] at hr; exact hr.elim
        | ok o' =>
          rw [e1, e2] at hr
          obtain ⟨g1, g2, g3, g4, g5, g6⟩ := hr
          dsimp only
          rw [g1, g3, g4, g5, g6]
          exact .cons ⟨rfl, (rel_eq (by simp [sites])).2 rfl⟩ (.cons ⟨rfl, (rel_eq (by simp [sites])).2 rfl⟩
            (.cons ⟨rfl, (rel_eq (by simp [sites])).2 rfl⟩ (.cons ⟨rfl, (rel_moved (by simp)).2 ⟨_, _, rfl, rfl, g2⟩⟩
            (.cons ⟨rfl, (rel_eq (by simp [sites])).2 rfl⟩ (.cons ⟨rfl, (rel_eq (by simp [sites])).2 rfl⟩
            (.cons ⟨rfl, (rel_moved (by simp)).2 ⟨_, _, rfl, rfl, g2⟩⟩
            (.cons ⟨rfl, (rel_eq (by simp [sites])).2 rfl⟩ .nil)))))))
    · rename_i hn
      split
      · rename_i feat algo inst s x y o heq
        simp only [List.cons.injEq, Val.table.injEq, and_true] at heq
        obtain ⟨rfl, rfl, rfl, rfl, rfl, rfl, -⟩ := heq
        exact (hn _ _ _ _ _ _ _ rfl).elim
      · exact rfl

/-! ### PRELIM -/

theorem columns_moved {z : List ℚ} {m m' : Mat Num} (h : MovedBy p z m m') :
    Prelim.columns m'.ncols m'.rows =
      (Prelim.columns m.ncols m.rows).mapIdx fun j c => c.map (· + .fin (z.getD j 0)) := by
  unfold Prelim.columns
  rw [h.width', h.rows]
  apply List.ext_getElem?
  intro j
  rw [List.getElem?_mapIdx, List.getElem?_map, List.getElem?_map]
  by_cases hj : j < m.ncols
  · rw [List.getElem?_range hj]
    simp only [Option.map_some, Option.some.injEq, List.map_map]
    apply List.map_congr_left
    intro r hr
    simp only [Function.comp, List.getD_eq_getElem?_getD, moveRow_get]
    rw [List.getElem?_eq_getElem (by rw [h.rect r hr]; exact hj),
      List.getElem?_eq_getElem (by rw [h.width]; exact hj)]
    rfl
  · rw [List.getElem?_eq_none (by simpa using hj)]
    rfl

/-- No infinities when outliers are bounded. -/
def Plain (env : Env V W) (v : Num) : Prop := env.prelim.bound = true → v ≠ .pinf ∧ v ≠ .ninf

theorem column_plain {env : Env V W} {z : List ℚ} {m m' : Mat Num} (h : MovedBy (Plain env) z m m')
    (hb : env.prelim.bound = true) {c : List Num} (hc : c ∈ Prelim.columns m.ncols m.rows) :
    .nan ∈ c ∨ ∀ v ∈ c, ∃ q, v = Num.fin q := by
  obtain ⟨j, hj, rfl⟩ := List.mem_map.1 hc
  have hj' : j < m.ncols := List.mem_range.1 hj
  by_cases hnan : Num.nan ∈ m.rows.map fun r => r.getD j .nan
  · exact Or.inl hnan
  · right
    intro v hv
    obtain ⟨r, hr, rfl⟩ := List.mem_map.1 hv
    have hmem : r.getD j .nan ∈ r := by
      rw [List.getD_eq_getElem?_getD, List.getElem?_eq_getElem (by rw [h.rect r hr]; exact hj')]
      exact List.getElem_mem _
    have := h.entries r hr _ hmem hb
    cases e : r.getD j .nan with
    | nan => rw [e] at hv; exact (hnan hv).elim
    | fin q => exact ⟨q, rfl⟩
    | pinf => exact (this.1 e).elim
    | ninf => exact (this.2 e).elim

theorem outX_moved {env : Env V W} (hn : env.prelim.norm = true) {m m' : Mat Num}
    (h : Moved (Plain env) m m') :
    Prelim.outX env.prelim env.junk env.tr (Prelim.columns m'.ncols m'.rows) =
      Prelim.outX env.prelim env.junk env.tr (Prelim.columns m.ncols m.rows) := by
  obtain ⟨z, h⟩ := h
  rw [columns_moved h]
  apply Prelim.C197_zero_partial _ hn _ _ _ fun j => z.getD j 0
  intro hb c hc
  exact column_plain h hb hc

/-- What is recorded about the features is the same except for their location. -/
theorem recorded_moved {env : Env V W} {m m' : Mat Num} (h : Moved (Plain env) m m') (y : Mat Num)
    (outs : List Prelim.Row) {S : List Name} (hS : ∀ n ∈ (outputs .prelim).map Prod.fst, n ∈ S → n = .x ∨ n = .x_raw) :
    OutRel (Rel S p) (recorded env m y outs) (recorded (V := V) (W := W) env m' y outs) := by
  obtain ⟨z, h⟩ := h
  have hns : ∀ n ∈ (outputs .prelim).map Prod.fst, n ≠ .x → n ≠ .x_raw → n ∉ S := by
    intro n hn h1 h2 h3
    rcases hS n hn h3 with h | h
    · exact h1 h
    · exact h2 h
  have key : ∀ f : Prelim.Scale → Num,
      (∀ c ∈ Prelim.columns m.ncols m.rows, ∀ q : ℚ,
        f (Prelim.recordX env.prelim env.junk env.mid env.fit (c.map (· + .fin q))) =
          f (Prelim.recordX env.prelim env.junk env.mid env.fit c)) →
      ((Prelim.columns m'.ncols m'.rows).map (Prelim.recordX env.prelim env.junk env.mid env.fit)).map f =
        ((Prelim.columns m.ncols m.rows).map (Prelim.recordX env.prelim env.junk env.mid env.fit)).map f := by
    intro f hf
    rw [columns_moved h]
    apply List.ext_getElem?
    intro j
    rw [List.getElem?_map, List.getElem?_map, List.getElem?_mapIdx, List.getElem?_map, List.getElem?_map]
    cases hj : (Prelim.columns m.ncols m.rows)[j]? with
    | none => rfl
    | some c => exact congrArg some (hf c (List.mem_of_getElem? hj) _)
  have hx : ∀ c ∈ Prelim.columns m.ncols m.rows, env.prelim.bound = true →
      .nan ∈ c ∨ ∀ v ∈ c, ∃ q, v = Num.fin q := fun c hc hb => column_plain h hb hc
  have k1 := key (·.iqr) fun c hc q => (Prelim.recordX_move _ _ _ _ q c (hx c hc)).1
  have k2 := key (·.lambda) fun c hc q => (Prelim.recordX_move _ _ _ _ q c (hx c hc)).2.1
  have k3 := key (·.mu) fun c hc q => (Prelim.recordX_move _ _ _ _ q c (hx c hc)).2.2.1
  have k4 := key (·.sigma) fun c hc q => (Prelim.recordX_move _ _ _ _ q c (hx c hc)).2.2.2
  have loc : ∀ n ∈ sites, ∀ v v' : Val V W, Rel S p n v v' := by
    intro n hn v v'
    refine rel_sites (hns n ?_ ?_ ?_) hn
    all_goals (revert hn; revert n; decide)
  have eq : ∀ n ∈ (outputs .prelim).map Prod.fst, n ≠ .x → n ≠ .x_raw → n ∉ sites →
      ∀ v v' : Val V W, v = v' → Rel S p n v v' := by
    intro n h1 h2 h3 h4 v v' e
    refine (rel_eq ?_).2 e
    rw [List.mem_append, not_or]
    exact ⟨hns n h1 h2 h3, h4⟩
  unfold recorded
  dsimp only
  refine .cons ⟨rfl, loc .med_val (by decide) _ _⟩ (.cons ⟨rfl, eq .iq_range (by decide) (by decide) (by decide) (by decide) _ _ (congrArg Val.numbers k1.symm)⟩
    (.cons ⟨rfl, loc .hi_bound (by decide) _ _⟩ (.cons ⟨rfl, loc .lo_bound (by decide) _ _⟩ (.cons ⟨rfl, loc .min_x (by decide) _ _⟩
    (.cons ⟨rfl, eq .lambda_x (by decide) (by decide) (by decide) (by decide) _ _ (congrArg Val.numbers k2.symm)⟩
    (.cons ⟨rfl, eq .mu_x (by decide) (by decide) (by decide) (by decide) _ _ (congrArg Val.numbers k3.symm)⟩
    (.cons ⟨rfl, eq .sigma_x (by decide) (by decide) (by decide) (by decide) _ _ (congrArg Val.numbers k4.symm)⟩
    (List.forall₂_same.2 ?_))))))))
  intro q hq
  simp only [List.mem_cons, List.not_mem_nil, or_false] at hq
  refine ⟨rfl, eq _ ?_ ?_ ?_ ?_ _ _ rfl⟩
  all_goals (rcases hq with rfl | rfl | rfl | rfl <;> simp [outputs, sites])

theorem filter_raw {X Y B N T P L S : Type} (f : X → X) (o : Prelim.SubsetOpts)
    (tests : Filter.Tests (X × Y × B)) (n : Nat) (split : Option (List Nat)) (file : Option (List Int))
    (a : Prelim.Arrays X Y B N T P L S) :
    Prelim.filter o tests n split file { a with xRaw := a.xRaw.map f } =
      (Prelim.filter o tests n split file a).map fun r =>
        ({ r.1 with xRaw := r.1.xRaw.map f }, r.2.map fun b => { b with xRaw := b.xRaw.map f }) := by
  unfold Prelim.filter
  have : Prelim.subsetIndex o tests n split file { a with xRaw := a.xRaw.map f } =
      Prelim.subsetIndex o tests n split file a := rfl
  rw [this]
  cases Prelim.subsetIndex o tests n split file a with
  | error e => rfl
  | ok m =>
    dsimp only
    split
    · simp only [mask_map', Except.map]
      split <;> rfl
    · rfl

theorem filter_xRaw_mem {X Y B N T P L S : Type} {o : Prelim.SubsetOpts}
    {tests : Filter.Tests (X × Y × B)} {n : Nat} {split : Option (List Nat)} {file : Option (List Int)}
    {a : Prelim.Arrays X Y B N T P L S} {r} (h : Prelim.filter o tests n split file a = .ok r) :
    ∀ x ∈ r.1.xRaw, x ∈ a.xRaw := by
  unfold Prelim.filter at h
  cases e : Prelim.subsetIndex o tests n split file a with
  | error e' => rw [e] at h; cases h
  | ok m =>
    rw [e] at h
    dsimp only at h
    split at h
    · cases h
      intro x hx
      dsimp only [Prelim.mask] at hx
      obtain ⟨q, hq, rfl⟩ := List.mem_map.1 hx
      exact (List.of_mem_zip (List.mem_filter.1 hq).1).1
    · cases h
      exact fun x hx => hx

theorem prelim_rel (env : Env V W) (hn : env.prelim.norm = true) (ps : List (Val V W × Val V W))
    (h : List.Forall₂ (fun n q => Rel [.features, .x, .x_raw] (Plain env) n q.1 q.2)
      ((inputs .prelim).map Prod.fst) ps) :
    Both (fun out out' => OutRel (Rel [.features, .x_raw] (Plain env)) out out' ∧
        Name.x ∈ out.map Prod.fst)
      (runPrelim env (ps.map Prod.fst)) (runPrelim env (ps.map Prod.snd)) := by
  simp only [inputs, List.map_cons, List.map_nil] at h
  cases h with | cons h1 h => cases h with | cons h2 h => cases h with | cons h3 h => cases h with
  | cons h4 h => cases h with | cons h5 h => cases h with | cons h6 h => cases h with
  | cons h7 h => cases h with | cons h8 h => cases h with
  | nil =>
    rename_i q1 q2 q3 q4 q5 q6 q7 q8
    obtain ⟨a1, b1⟩ := q1
    obtain ⟨a2, b2⟩ := q2
    obtain ⟨a3, b3⟩ := q3
    obtain ⟨a4, b4⟩ := q4
    obtain ⟨a5, b5⟩ := q5
    obtain ⟨a6, b6⟩ := q6
    obtain ⟨a7, b7⟩ := q7
    obtain ⟨a8, b8⟩ := q8
    dsimp only at h1 h2 h3 h4 h5 h6
    obtain ⟨x, x', rfl, rfl, hx⟩ := (rel_moved (by decide)).1 h1
    obtain rfl := (rel_eq (by decide)).1 h2
    obtain ⟨m, m', rfl, rfl, hm⟩ := (rel_moved (by decide)).1 h3
    obtain rfl := (rel_eq (by decide)).1 h4
    obtain rfl := (rel_eq (by decide)).1 h5
    obtain rfl := (rel_eq (by decide)).1 h6
    simp only [List.map_cons, List.map_nil]
    unfold runPrelim
    split
    · rename_i _ y _ yRaw s inst o1 o2 heq
      simp only [List.cons.injEq, Val.table.injEq, and_true] at heq
      obtain ⟨rfl, rfl, rfl, rfl, rfl, rfl, -, -⟩ := heq
      dsimp only
      cases Prelim.rows env.prelim y.rows with
      | none => cases Prelim.outY env.prelim env.tr y.ncols y.rows <;> exact rfl
      | some outs =>
        cases Prelim.outY env.prelim env.tr y.ncols y.rows with
        | none => exact rfl
        | some ys =>
          dsimp only
          rw [outX_moved hn hx]
          have hlen : x'.rows.length = x.rows.length := by
            obtain ⟨z, hx⟩ := hx; rw [hx.rows, List.length_map]
          have hnc : x'.ncols = x.ncols := by obtain ⟨z, hx⟩ := hx; exact hx.width'
          obtain ⟨z, hm⟩ := hm
          rw [hlen, hnc, hm.rows, hm.width']
          generalize ha :
            ({ x := rowsOf x.rows.length
                 (Prelim.outX env.prelim env.junk env.tr (Prelim.columns x.ncols x.rows))
               y := rowsOf y.rows.length ys
               xRaw := m.rows
               yRaw := Prelim.yRawOut env.prelim (fun _ => yRaw.rows) 0 0
               yBin := outs.map (·.yBin), beta := outs.map (·.beta), numGood := outs.map (·.numGood)
               yBest := outs.map (·.yBest), p := outs.map (·.p), inst, s } :
              Prelim.Arrays (List Num) (List Num) (List Bool) Nat Num Nat V V) = a
          have ha' :
            ({ x := rowsOf x.rows.length
                 (Prelim.outX env.prelim env.junk env.tr (Prelim.columns x.ncols x.rows))
               y := rowsOf y.rows.length ys
               xRaw := m.rows.map (moveRow z)
               yRaw := Prelim.yRawOut env.prelim (fun _ => yRaw.rows) 0 0
               yBin := outs.map (·.yBin), beta := outs.map (·.beta), numGood := outs.map (·.numGood)
               yBest := outs.map (·.yBest), p := outs.map (·.p), inst, s } :
              Prelim.Arrays (List Num) (List Num) (List Bool) Nat Num Nat V V) =
              { a with xRaw := a.xRaw.map (moveRow z) } := by rw [← ha]
          rw [ha', filter_raw]
          have hraw : a.xRaw = m.rows := by rw [← ha]
          cases hr : Prelim.filter env.subset env.tests x.ncols env.split env.file a with
          | error e => exact rfl
          | ok r =>
            have hmem := filter_xRaw_mem hr
            rw [hraw] at hmem
            obtain ⟨b, dense⟩ := r
            refine ⟨?_, ?_⟩
            · simp only [Option.isSome_map]
              refine List.rel_append (R := fun (q q' : Name × Val V W) => q.1 = q'.1 ∧
                Rel [.features, .x_raw] (Plain env) q.1 q.2 q'.2) ?_ ?_
              · exact recorded_moved hx _ _ (by decide)
              · refine List.Forall₂.cons ⟨rfl, (rel_eq (by simp [sites])).2 rfl⟩ (.cons ⟨rfl, (rel_eq (by simp [sites])).2 rfl⟩
                  (.cons ⟨rfl, (rel_moved (by simp)).2 ⟨_, _, rfl, rfl, z, ?_⟩⟩
                  (List.forall₂_same.2 ?_)))
                · exact ⟨hm.width, rfl, fun r hr => hm.rect r (hmem r hr), rfl,
                    fun r hr => hm.entries r (hmem r hr)⟩
                · intro q hq
                  refine ⟨rfl, (rel_eq ?_).2 rfl⟩
                  simp only [List.mem_cons, List.not_mem_nil, or_false] at hq
                  rcases hq with rfl | rfl | rfl | rfl | rfl | rfl | rfl | rfl | rfl <;> simp [sites]
            · simp
    · rename_i hno
      split
      · rename_i _ y _ yRaw s inst o1 o2 heq
        simp only [List.cons.injEq, Val.table.injEq, and_true] at heq
        obtain ⟨rfl, rfl, rfl, rfl, rfl, rfl, -, -⟩ := heq
        exact (hno _ _ _ _ _ _ _ _ rfl).elim
      · exact rfl

/-! ### SIFTED and the stages after it -/

theorem sifted_rel (env : Env V W) (ps : List (Val V W × Val V W))
    (h : List.Forall₂ (fun n q => Rel [.features, .x_raw] p n q.1 q.2)
      ((inputs .sifted).map Prod.fst) ps) :
    Both (OutRel (Rel [.features, .x_raw] p))
      (runSifted env (ps.map Prod.fst)) (runSifted env (ps.map Prod.snd)) := by
  simp only [inputs, List.map_cons, List.map_nil] at h
  cases h with | cons h1 h => cases h with | cons h2 h => cases h with | cons h3 h => cases h with
  | cons h4 h => cases h with | cons h5 h => cases h with | cons h6 h => cases h with
  | cons h7 h => cases h with | cons h8 h => cases h with | cons h9 h => cases h with
  | cons h10 h => cases h with | cons h11 h => cases h with | cons h12 h => cases h with
  | cons h13 h => cases h with | cons h14 h => cases h with | cons h15 h => cases h with
  | cons h16 h => cases h with
  | nil =>
    rename_i q1 q2 q3 q4 q5 q6 q7 q8 q9 q10 q11 q12 q13 q14 q15 q16
    obtain ⟨a1, b1⟩ := q1
    obtain ⟨a2, b2⟩ := q2
    obtain ⟨a3, b3⟩ := q3
    obtain ⟨a4, b4⟩ := q4
    obtain ⟨a5, b5⟩ := q5
    obtain ⟨a6, b6⟩ := q6
    obtain ⟨a7, b7⟩ := q7
    obtain ⟨a8, b8⟩ := q8
    obtain ⟨a9, b9⟩ := q9
    obtain ⟨a10, b10⟩ := q10
    obtain ⟨a11, b11⟩ := q11
    obtain ⟨a12, b12⟩ := q12
    obtain ⟨a13, b13⟩ := q13
    obtain ⟨a14, b14⟩ := q14
    obtain ⟨a15, b15⟩ := q15
    obtain ⟨a16, b16⟩ := q16
    dsimp only at *
    obtain rfl := (rel_eq (by decide)).1 h1
    obtain rfl := (rel_eq (by decide)).1 h2
    obtain rfl := (rel_eq (by decide)).1 h3
    obtain rfl := (rel_eq (by decide)).1 h5
    obtain rfl := (rel_eq (by decide)).1 h6
    obtain rfl := (rel_eq (by decide)).1 h7
    obtain rfl := (rel_eq (by decide)).1 h8
    obtain rfl := (rel_eq (by decide)).1 h9
    obtain rfl := (rel_eq (by decide)).1 h10
    obtain rfl := (rel_eq (by decide)).1 h11
    obtain rfl := (rel_eq (by decide)).1 h12
    obtain rfl := (rel_eq (by decide)).1 h13
    obtain rfl := (rel_eq (by decide)).1 h14
    obtain rfl := (rel_eq (by decide)).1 h15
    obtain rfl := (rel_eq (by decide)).1 h16
    simp only [List.map_cons, List.map_nil]
    unfold runSifted
    split
    · rename_i x y yb xRaw yRaw beta numGood yBest pp inst feat s o1 o2 present o3 heq
      simp only [List.cons.injEq, and_true] at heq
      obtain ⟨rfl, rfl, rfl, rfl, rfl, rfl, rfl, rfl, rfl, rfl, rfl, rfl, rfl, rfl, rfl, rfl⟩ := heq
      dsimp only
      cases correlations env x y yb with
      | error e => exact rfl
      | ok c =>
      dsimp only
      cases Sifted.sifted (env.lib x y yb) ((c.map (·.rho)).getD []) env.thr env.clusters y.ncols
        (Prelim.columns x.ncols x.rows) feat (env.subset.byDensity && present) with
      | error e => exact rfl
      | ok o =>
        refine List.rel_append (R := fun (q q' : Name × Val V W) => q.1 = q'.1 ∧
          Rel [.features, .x_raw] p q.1 q.2 q'.2) ?_ ?_
        · refine List.Forall₂.cons ⟨rfl, (rel_eq (by simp [sites])).2 rfl⟩
            (.cons ⟨rfl, (rel_eq (by simp [sites])).2 rfl⟩ (.cons ⟨rfl, (rel_eq (by simp [sites])).2 rfl⟩
            (.cons ⟨rfl, h4⟩ (List.forall₂_same.2 ?_))))
          intro q hq
          refine ⟨rfl, (rel_eq ?_).2 rfl⟩
          simp only [List.mem_cons, List.not_mem_nil, or_false] at hq
          rcases hq with rfl | rfl | rfl | rfl | rfl | rfl | rfl | rfl | rfl | rfl <;> simp [sites]
        · apply List.forall₂_same.2
          intro q hq
          refine ⟨rfl, (rel_eq ?_).2 rfl⟩
          simp only [grounds, List.mem_cons, List.not_mem_nil, or_false] at hq
          rcases hq with rfl | rfl | rfl | rfl <;> simp [sites]
    · rename_i hno
      split
      · rename_i x y yb xRaw yRaw beta numGood yBest pp inst feat s o1 o2 present o3 heq
        simp only [List.cons.injEq, and_true] at heq
        obtain ⟨rfl, rfl, rfl, rfl, rfl, rfl, rfl, rfl, rfl, rfl, rfl, rfl, rfl, rfl, rfl, rfl⟩ := heq
        exact (hno _ _ _ _ _ _ _ _ _ _ _ _ _ _ _ _ rfl).elim
      · exact rfl

theorem rest_rel (env : Env V W) (hr : ∀ k s vs out, env.rest k s vs = .ok out → out.map Prod.fst = (outputs s).map Prod.fst)
    (k : Nat) {s : Stg}
    (hs : s = .pilot ∨ s = .pythia ∨ s = .cloister ∨ s = .trace) (ps : List (Val V W × Val V W))
    (h : List.Forall₂ (fun n q => Rel [.features, .x_raw] p n q.1 q.2) ((inputs s).map Prod.fst) ps) :
    Both (OutRel (Rel [.features, .x_raw] p))
      (run env k s (ps.map Prod.fst)) (run env k s (ps.map Prod.snd)) := by
  have hin : ∀ n ∈ (inputs s).map Prod.fst, n ∉ [Name.features, .x_raw] ++ sites := by
    rcases hs with rfl | rfl | rfl | rfl <;> decide
  have hout : ∀ n ∈ (outputs s).map Prod.fst, n ∉ [Name.features, .x_raw] ++ sites := by
    rcases hs with rfl | rfl | rfl | rfl <;> decide
  have e : ps.map Prod.fst = ps.map Prod.snd := by
    generalize (inputs s).map Prod.fst = ns at h hin
    induction h with
    | nil => rfl
    | @cons n q ns ps hq _ ih =>
      rw [List.map_cons, List.map_cons, (rel_eq (hin n List.mem_cons_self)).1 hq,
        ih fun n hn => hin n (List.mem_cons_of_mem _ hn)]
  rw [e]
  have e2 : run env k s (ps.map Prod.snd) = env.rest k s (ps.map Prod.snd) := by
    rcases hs with rfl | rfl | rfl | rfl <;> rfl
  rw [e2]
  cases hrun : env.rest k s (ps.map Prod.snd) with
  | error e => exact rfl
  | ok out =>
    apply List.forall₂_same.2
    intro q hq
    refine ⟨rfl, (rel_eq (hout _ ?_)).2 rfl⟩
    rw [← hr k s _ out hrun]
    exact List.mem_map_of_mem hq

/-- The whole pipeline. -/
theorem applyAll_moved (env : Env V W) (hn : env.prelim.norm = true)
    (hr : ∀ k s vs out, env.rest k s vs = .ok out → out.map Prod.fst = (outputs s).map Prod.fst)
    (sched : List (List Stg)) (rest : List Stg)
    (hrest : ∀ s ∈ rest, s = .sifted ∨ s = .pilot ∨ s = .pythia ∨ s = .cloister ∨ s = .trace)
    (k : Nat) (d d' : Dict Name (Val V W)) (hd : DictRel (Rel [.features, .x, .x_raw] (Plain env)) d d') :
    Both (DictRel (Rel [.features, .x_raw] (Plain env)))
      (applyAll ⟨sched, fun s => (inputs s).map Prod.fst, run env⟩ k (.preprocessing :: .prelim :: rest) d)
      (applyAll ⟨sched, fun s => (inputs s).map Prod.fst, run env⟩ k (.preprocessing :: .prelim :: rest) d') := by
  have both_imp : ∀ {ε α β : Type} {R R' : α → β → Prop} {a : Except ε α} {b : Except ε β},
      (∀ x y, R x y → R' x y) → Both R a b → Both R' a b := by
    intro ε α β R R' a b h hb
    cases a <;> cases b
    · exact hb
    · exact hb
    · exact hb
    · exact h _ _ hb
  have weaken : ∀ n, n ≠ Name.x → ∀ v v' : Val V W, Rel [.features, .x, .x_raw] (Plain env) n v v' →
      Rel [.features, .x_raw] (Plain env) n v v' := by
    intro n hne v v' h
    unfold Rel at h ⊢
    have : n ∈ [Name.features, .x, .x_raw] ↔ n ∈ [Name.features, .x_raw] := by
      simp [hne]
    simpa only [this] using h
  refine cons_rel (R := Rel [.features, .x, .x_raw] (Plain env)) (step_rel hd fun ps hps =>
    both_imp (fun out out' h => ⟨h, fun _ _ _ _ h => h⟩) (pre_rel env ps hps)) fun y y' hy => ?_
  refine cons_rel (R := Rel [.features, .x_raw] (Plain env)) (step_rel hy fun ps hps =>
    both_imp (fun out out' h => ⟨h.1, fun n hx v v' hv => weaken n ?_ v v' hv⟩)
      (prelim_rel env hn ps hps)) fun w w' hw => ?_
  · rintro rfl
    exact hx h.2
  refine all_rel rest _ w w' hw fun s hs k d d' hd => step_rel hd fun ps hps => ?_
  rcases hrest s hs with rfl | hs
  · exact both_imp (fun out out' h => ⟨h, fun _ _ _ _ h => h⟩) (sifted_rel env ps hps)
  · exact both_imp (fun out out' h => ⟨h, fun _ _ _ _ h => h⟩) (rest_rel env hr k hs ps hps)

/-! ### The initial values -/

theorem filter_pairs {α : Type} {R : α → α → Prop} {f : α → Bool} {l l' : List α}
    (h : List.Forall₂ R l l') (hf : ∀ a b, R a b → f a = f b) :
    List.Forall₂ R (l.filter f) (l'.filter f) := by
  induction h with
  | nil => exact .nil
  | @cons a b l l' hab _ ih =>
    rw [List.filter_cons, List.filter_cons, ← hf a b hab]
    split
    · exact .cons hab ih
    · exact ih

theorem forall₂_eq' {α : Type} {R : α → α → Prop} {l l' : List α}
    (h : List.Forall₂ R l l') (hR : ∀ a ∈ l, ∀ b, R a b → a = b) : l = l' := by
  induction h with
  | nil => rfl
  | @cons a b l l' hab _ ih =>
    rw [hR a List.mem_cons_self b hab, ih fun c hc => hR c (List.mem_cons_of_mem _ hc)]

theorem row_moved {num : V → Num} {zero : String → ℚ} {i : Nat}
    {cols cols' : List (String × List V)}
    (h : List.Forall₂ (fun c c' : String × List V => c'.1 = c.1 ∧
      c'.2.map num = c.2.map fun v => num v + .fin (zero c.1)) cols cols')
    (hi : ∀ c ∈ cols, i < c.2.length) :
    (cols'.filterMap fun c => c.2[i]?).map num =
      moveRow (cols.map fun c => zero c.1) ((cols.filterMap fun c => c.2[i]?).map num) ∧
    (cols.filterMap fun c => c.2[i]?).length = cols.length := by
  induction h with
  | nil => exact ⟨rfl, rfl⟩
  | @cons c c' cols cols' hc _ ih =>
    obtain ⟨ih1, ih2⟩ := ih fun e he => hi e (List.mem_cons_of_mem _ he)
    have h1 := hi c List.mem_cons_self
    have h2 : c'.2.length = c.2.length := by
      have := congrArg List.length hc.2
      simpa using this
    have h3 : num c'.2[i] = num c.2[i] + .fin (zero c.1) := by
      have := congrArg (·[i]?) hc.2
      simpa [List.getElem?_eq_getElem h1, List.getElem?_eq_getElem (h2 ▸ h1 : i < c'.2.length)] using this
    rw [List.filterMap_cons, List.filterMap_cons, List.getElem?_eq_getElem h1,
      List.getElem?_eq_getElem (h2 ▸ h1 : i < c'.2.length)]
    dsimp only
    rw [List.map_cons, List.map_cons, List.map_cons, ih1, h3, List.length_cons, List.length_cons, ih2]
    exact ⟨rfl, rfl⟩

theorem args_moved {lower : String → String} {numeric : Squeezed V → Bool} {str : V → V} {num : V → Num}
    {env : Env V W} {zero : String → ℚ} {t t' : Table V} (ht : Rezeroed lower num zero t t')
    (hp : env.prelim.bound = true → ∀ c ∈ t.cols, Begins lower "feature_" c.1 →
      ∀ v ∈ c.2, num v ≠ .pinf ∧ num v ≠ .ninf) :
    DictRel (Rel [.features, .x, .x_raw] (Plain env))
      (args env num (Metadata.fromDataFrame lower numeric str t))
      (args env num (Metadata.fromDataFrame lower numeric str t')) := by
  -- columns that are not features
  have same : ∀ f : String → Bool, (∀ s, f s = true → ¬ Begins lower "feature_" s) →
      t'.loc f = t.loc f := by
    intro f hf
    unfold Table.loc
    rw [ht.rows]
    congr 1
    refine (forall₂_eq' (filter_pairs ht.columns fun a b hab => by rw [hab.1]) ?_).symm
    intro a ha b hab
    have := hab.2.2 (hf a.1 (List.mem_filter.1 ha).2)
    exact Prod.ext hab.1.symm this.symm
  have hname : ∀ s, Metadata.isName lower s = true → ¬ Begins lower "feature_" s := by
    rintro s hs ⟨r, hr⟩
    simp only [Metadata.isName, beq_iff_eq] at hs
    rw [hs] at hr
    have : ("instances".toList).take 8 = "feature_".toList := by rw [hr]; rfl
    exact absurd this (by decide)
  have hsrc : ∀ s, Metadata.isSource lower s = true → ¬ Begins lower "feature_" s := by
    rintro s hs ⟨r, hr⟩
    simp only [Metadata.isSource, beq_iff_eq] at hs
    rw [hs] at hr
    have : ("source".toList).take 8 = "feature_".toList := by rw [hr]; rfl
    exact absurd this (by decide)
  have halgo : ∀ s, Metadata.isAlgo lower s = true → ¬ Begins lower "feature_" s := by
    rintro s hs ⟨r, hr⟩
    obtain ⟨r', hr'⟩ := (Metadata.hasPrefix_iff _ _ _).1 hs
    rw [hr'] at hr
    have : ("algo_".toList ++ r').take 1 = ("feature_".toList ++ r).take 1 := by rw [hr]
    simp at this
  have hfeat : ∀ s, Metadata.isFeat lower s = true ↔ Begins lower "feature_" s :=
    fun s => Metadata.hasPrefix_iff _ _ s
  have e1 := same _ hname
  have e2 := same _ hsrc
  have e3 := same _ halgo
  have e4 : (t'.cols.any fun c => Metadata.isSource lower c.1) =
      t.cols.any fun c => Metadata.isSource lower c.1 := by
    have : ∀ l l' : List (String × List V), List.Forall₂ (fun c c' => c'.1 = c.1) l l' →
        (l'.any fun c => Metadata.isSource lower c.1) = l.any fun c => Metadata.isSource lower c.1 := by
      intro l l' h
      induction h with
      | nil => rfl
      | cons h _ ih => rw [List.any_cons, List.any_cons, h, ih]
    exact this _ _ (ht.columns.imp fun _ _ h => h.1)
  have hf : List.Forall₂ (fun c c' : String × List V => c'.1 = c.1 ∧
      c'.2.map num = c.2.map fun v => num v + .fin (zero c.1)) (t.loc (Metadata.isFeat lower)).cols
      (t'.loc (Metadata.isFeat lower)).cols := by
    have h1 := filter_pairs (f := fun c => Metadata.isFeat lower c.1) ht.columns
      fun a b hab => by rw [hab.1]
    have h2 : ∀ c ∈ t.cols.filter (fun c => Metadata.isFeat lower c.1), Begins lower "feature_" c.1 :=
      fun c hc => (hfeat _).1 (List.mem_filter.1 hc).2
    simp only [Table.loc]
    generalize t.cols.filter (fun c => Metadata.isFeat lower c.1) = l at *
    generalize t'.cols.filter (fun c => Metadata.isFeat lower c.1) = l' at *
    induction h1 with
    | nil => exact .nil
    | @cons a b l l' hab _ ih =>
      exact .cons ⟨hab.1, hab.2.1 (h2 a List.mem_cons_self)⟩
        (ih fun c hc => h2 c (List.mem_cons_of_mem _ hc))
  have hnames : (t'.loc (Metadata.isFeat lower)).cols.map Prod.fst =
      (t.loc (Metadata.isFeat lower)).cols.map Prod.fst := by
    generalize (t.loc (Metadata.isFeat lower)).cols = l at hf
    generalize (t'.loc (Metadata.isFeat lower)).cols = l' at hf
    induction hf with
    | nil => rfl
    | cons h _ ih => rw [List.map_cons, List.map_cons, h.1, ih]
  have hlong : ∀ i, i < t.nrows → ∀ c ∈ (t.loc (Metadata.isFeat lower)).cols, i < c.2.length := by
    intro i hi c hc
    rw [ht.rect c (List.mem_filter.1 hc).1]
    exact hi
  intro n
  have eqs : ∀ m : Name, m ≠ .features → args env num (Metadata.fromDataFrame lower numeric str t') m =
      args env num (Metadata.fromDataFrame lower numeric str t) m := by
    intro m hm
    unfold args Metadata.fromDataFrame
    dsimp only
    rw [e1, e2, e3, e4, hnames]
    cases m <;> first | rfl | exact (hm rfl).elim
  by_cases hfn : n = .features
  · subst hfn
    refine .some ((rel_moved (by decide)).2 ⟨_, _, rfl, rfl, (t.loc (Metadata.isFeat lower)).cols.map fun c => zero c.1, ?_, ?_, ?_, ?_, ?_⟩)
    · dsimp only [Metadata.fromDataFrame]
      rw [List.length_map, List.length_map]
    · dsimp only [Metadata.fromDataFrame]
      rw [hnames]
    · intro r hr
      dsimp only [Metadata.fromDataFrame, Table.toNumpy] at hr ⊢
      rw [List.map_map] at hr
      obtain ⟨i, hi, rfl⟩ := List.mem_map.1 hr
      rw [List.length_map]
      simp only [Function.comp, List.length_map]
      exact (row_moved hf (hlong i (List.mem_range.1 hi))).2
    · dsimp only [Metadata.fromDataFrame, Table.toNumpy]
      rw [List.map_map, List.map_map, List.map_map]
      have : (t'.loc (Metadata.isFeat lower)).nrows = (t.loc (Metadata.isFeat lower)).nrows := ht.rows
      rw [this]
      apply List.map_congr_left
      intro i hi
      exact (row_moved hf (hlong i (List.mem_range.1 hi))).1
    · intro r hr v hv hb
      dsimp only [Metadata.fromDataFrame, Table.toNumpy] at hr
      rw [List.map_map] at hr
      obtain ⟨i, hi, rfl⟩ := List.mem_map.1 hr
      obtain ⟨u, hu, rfl⟩ := List.mem_map.1 hv
      obtain ⟨c, hc, hcu⟩ := List.mem_filterMap.1 hu
      have hc' := List.mem_filter.1 hc
      exact hp hb c hc'.1 ((hfeat _).1 hc'.2) u (List.mem_of_getElem? hcu)
  · rw [eqs n hfn]
    cases e : args env num (Metadata.fromDataFrame lower numeric str t) n with
    | none => exact .none
    | some v =>
      have hx : n ≠ .x := by rintro rfl; cases e
      have hx' : n ≠ .x_raw := by rintro rfl; cases e
      have hs : n ∉ sites := by
        intro h
        simp only [sites, List.mem_cons, List.not_mem_nil, or_false] at h
        rcases h with rfl | rfl | rfl | rfl <;> cases e
      exact .some ((rel_eq (by simp [hfn, hx, hx', hs])).2 rfl)

end Verif.EndToEnd
