import Verif.EndToEnd.ShiftLemmas
import Verif.EndToEnd.SpecLevel
import Verif.Prelim.LevelLemmas
/-!
# Performances in another unit or from another zero point through the pipeline
-/
set_option autoImplicit false
set_option linter.unusedSectionVars false

namespace Verif.EndToEnd

open Verif (Num)
open Verif.Pipeline (Stg Name inputs outputs runner)
open Verif.Preprocessing (Mat)
open Verif.Metadata (Table Squeezed Begins)
open Verif.Runner (Dict override applyAll applyStage RunError Pipeline)

/-! ### Two pipelines with the same fields -/

section pairs

variable {S N X E : Type} [DecidableEq N]

theorem step_pair {R R' : N → X → X → Prop} {P P' : Pipeline S N X E} (hf : P'.fields = P.fields) {k : Nat}
    {s : S} {d d' : Dict N X} (hd : DictRel R d d')
    (hrun : ∀ ps : List (X × X), List.Forall₂ (fun n p => R n p.1 p.2) (P.fields s) ps →
      Both (fun out out' => OutRel R' out out' ∧
          ∀ n, n ∉ out.map Prod.fst → ∀ v v', R n v v' → R' n v v')
        (P.run k s (ps.map Prod.fst)) (P'.run k s (ps.map Prod.snd))) :
    Both (DictRel R') (applyStage P k s d) (applyStage P' k s d') := by
  obtain ⟨h1, h2⟩ := inputs_rel (P.fields s) fun n _ => hd n
  unfold applyStage
  rw [hf, ← h1]
  cases e : (P.fields s).find? (fun n => (d n).isNone) with
  | some n => exact rfl
  | none =>
    obtain ⟨ps, p1, p2, p3⟩ := h2 e
    dsimp only
    rw [p1, p2]
    have h3 := hrun ps p3
    cases r : P.run k s (ps.map Prod.fst) with
    | error e =>
      cases r' : P'.run k s (ps.map Prod.snd) with
      | error e' => rw [r, r'] at h3; exact congrArg _ h3
      | ok out' => rw [r, r'] at h3; exact h3.elim
    | ok out =>
      cases r' : P'.run k s (ps.map Prod.snd) with
      | error e' => rw [r, r'] at h3; exact h3.elim
      | ok out' =>
        rw [r, r'] at h3
        refine override_rel h3.1 fun n hn => ?_
        have := hd n
        cases e1 : d n with
        | none =>
          cases e2 : d' n with
          | none => exact .none
          | some v' => rw [e1, e2] at this; cases this
        | some v =>
          cases e2 : d' n with
          | none => rw [e1, e2] at this; cases this
          | some v' =>
            rw [e1, e2] at this
            cases this with
            | some hv => exact .some (h3.2 n hn _ _ hv)

theorem cons_pair {R R' : N → X → X → Prop} {P P' : Pipeline S N X E} {s : S} {ss : List S} {k : Nat}
    {d d' : Dict N X} (h1 : Both (DictRel R) (applyStage P k s d) (applyStage P' k s d'))
    (h2 : ∀ y y', DictRel R y y' →
      Both (DictRel R') (applyAll P (k + 1) ss y) (applyAll P' (k + 1) ss y')) :
    Both (DictRel R') (applyAll P k (s :: ss) d) (applyAll P' k (s :: ss) d') := by
  simp only [applyAll]
  cases e : applyStage P k s d with
  | error x =>
    cases e' : applyStage P' k s d' with
    | error x' => rw [e, e'] at h1; exact h1
    | ok y' => rw [e, e'] at h1; exact h1.elim
  | ok y =>
    cases e' : applyStage P' k s d' with
    | error x' => rw [e, e'] at h1; exact h1.elim
    | ok y' =>
      rw [e, e'] at h1
      exact h2 y y' h1

theorem all_pair {R : N → X → X → Prop} {P P' : Pipeline S N X E} :
    ∀ (ss : List S) (k : Nat) (d d' : Dict N X), DictRel R d d' →
    (∀ s ∈ ss, ∀ k (d d' : Dict N X), DictRel R d d' →
      Both (DictRel R) (applyStage P k s d) (applyStage P' k s d')) →
    Both (DictRel R) (applyAll P k ss d) (applyAll P' k ss d')
  | [], _, _, _, hd, _ => hd
  | s :: ss, k, d, d', hd, h =>
    cons_pair (h s List.mem_cons_self k d d' hd) fun y y' hy =>
      all_pair ss (k + 1) y y' hy fun t ht => h t (List.mem_cons_of_mem _ ht)

end pairs

theorem Both.imp {ε α β : Type} {R R' : α → β → Prop} {a : Except ε α} {b : Except ε β}
    (h : ∀ x y, R x y → R' x y) (hb : Both R a b) : Both R' a b := by
  cases a <;> cases b
  · exact hb
  · exact hb
  · exact hb
  · exact h _ _ hb

theorem both_map {ε α β : Type} {R : α → β → Prop} {g : α → β} (a : Except ε α) (h : ∀ x, a = .ok x → R x (g x)) :
    Both R a (a.map g) := by
  cases a with
  | error e => exact rfl
  | ok x => exact h x rfl

variable {V W G : Type}

/-! ### Preprocessing -/

/-- The array with every entry changed. -/
def onEntries (f : Num → Num) (m : Mat Num) : Mat Num := ⟨m.ncols, m.rows.map (·.map f)⟩

theorem select_entries (f : Num → Num) (m : Mat Num) (labels : List String) (wanted : Option (List String)) :
    Preprocessing.select (onEntries f m) labels wanted =
      (Preprocessing.select m labels wanted).map fun r => (onEntries f r.1, r.2) := by
  rw [show onEntries f m = ⟨m.ncols, m.rows.map (·.map f)⟩ from rfl]
  unfold Preprocessing.select
  cases wanted with
  | none => rfl
  | some w =>
    dsimp only
    split
    · rfl
    · by_cases hidx : (((labels.filter fun l => l ∈ w).map fun l => labels.idxOf l).all
          fun i => decide (i < m.ncols)) = true
      · rw [if_pos hidx, if_pos hidx]
        simp only [Except.map, List.map_map, onEntries, Except.ok.injEq, Prod.mk.injEq, and_true, Mat.mk.injEq, true_and]
        apply List.map_congr_left
        intro r _
        simp only [Function.comp, List.map_filterMap]
        congr 1
        funext i
        rw [List.getElem?_map]
      · rw [if_neg hidx, if_neg hidx]
        rfl

theorem all_entries {f : Num → Num} (hf : ∀ v, (f v).isNan = v.isNan) (r : List Num) :
    (r.map f).all Num.isNan = r.all Num.isNan := by
  rw [List.all_map]
  congr 1
  funext v
  exact hf v

theorem emptyRows_entries {f : Num → Num} (hf : ∀ v, (f v).isNan = v.isNan) (x y : Mat Num) :
    Preprocessing.emptyRows Num.isNan x (onEntries f y) = Preprocessing.emptyRows Num.isNan x y := by
  unfold Preprocessing.emptyRows onEntries
  dsimp only
  rw [List.zipWith_map_right]
  simp only [all_entries hf]

/-- The data with the performances changed. -/
def onPerformances (f : Num → Num) (d : Preprocessing.Data Num String V V) :
    Preprocessing.Data Num String V V := { d with y := onEntries f d.y }

theorem removeRows_entries {f : Num → Num} (hf : ∀ v, (f v).isNan = v.isNan)
    (d : Preprocessing.Data Num String V V) :
    Preprocessing.removeRows Num.isNan (onPerformances f d) =
      onPerformances f (Preprocessing.removeRows Num.isNan d) := by
  unfold Preprocessing.removeRows
  simp only [onPerformances, emptyRows_entries hf]
  split
  · simp only [onEntries, mask_map]
  · rfl

theorem removeCols_entries (f : Num → Num) (d : Preprocessing.Data Num String V V) :
    Preprocessing.removeCols Num.isNan (onPerformances f d) =
      onPerformances f (Preprocessing.removeCols Num.isNan d) := by
  unfold Preprocessing.removeCols
  dsimp only [onPerformances]
  by_cases h : (Preprocessing.sparseCols Num.isNan d.x).any id = true
  · rw [if_pos h, if_pos h]
  · rw [if_neg h, if_neg h]

theorem run_entries {f : Num → Num} (hf : ∀ v, (f v).isNan = v.isNan)
    (d : Preprocessing.Data Num String V V) (algo : List String) (feats algos : Option (List String)) :
    Preprocessing.run Num.isNan (onPerformances f d) algo feats algos =
      (Preprocessing.run Num.isNan d algo feats algos).map fun o => ⟨onPerformances f o.data, o.algo⟩ := by
  unfold Preprocessing.run
  dsimp only [onPerformances]
  cases Preprocessing.select d.x d.feat feats with
  | error e => rfl
  | ok a =>
    obtain ⟨x, feat⟩ := a
    dsimp only
    rw [select_entries]
    cases Preprocessing.select d.y algo algos with
    | error e => rfl
    | ok b =>
      obtain ⟨y, algo⟩ := b
      dsimp only [Except.map]
      have e : Preprocessing.removeMissing Num.isNan
          ({ d with x := x, y := onEntries f y, feat := feat } : Preprocessing.Data Num String V V) =
          (Preprocessing.removeMissing Num.isNan
            ({ d with x := x, y := y, feat := feat } : Preprocessing.Data Num String V V)).map
            (onPerformances f) := by
        change Preprocessing.removeMissing Num.isNan (onPerformances f { d with x := x, y := y, feat := feat }) = _
        unfold Preprocessing.removeMissing
        dsimp only
        rw [removeRows_entries hf, removeCols_entries]
        generalize Preprocessing.removeCols Num.isNan (Preprocessing.removeRows Num.isNan
          ({ d with x := x, y := y, feat := feat } : Preprocessing.Data Num String V V)) = r
        by_cases hr : r.x.rows.length = 0
        · rw [if_pos hr, if_pos (show (onPerformances f r).x.rows.length = 0 from hr)]
          rfl
        · rw [if_neg hr, if_neg (show ¬ (onPerformances f r).x.rows.length = 0 from hr)]
          rfl
      rw [e]
      cases Preprocessing.removeMissing Num.isNan
        ({ d with x := x, y := y, feat := feat } : Preprocessing.Data Num String V V) <;> rfl

theorem select_mem {m : Mat Num} {labels : List String} {wanted : Option (List String)} {r}
    {p : Num → Prop} (hp : ∀ row ∈ m.rows, ∀ v ∈ row, p v)
    (h : Preprocessing.select m labels wanted = .ok r) : ∀ row ∈ r.1.rows, ∀ v ∈ row, p v := by
  unfold Preprocessing.select at h
  cases wanted with
  | none => cases h; exact hp
  | some w =>
    dsimp only at h
    split at h
    · cases h; exact hp
    · split at h
      · cases h
        intro row hrow v hv
        obtain ⟨r0, hr0, rfl⟩ := List.mem_map.1 hrow
        obtain ⟨i, -, hi⟩ := List.mem_filterMap.1 hv
        exact hp r0 hr0 v (List.mem_of_getElem? hi)
      · cases h

theorem run_mem {d : Preprocessing.Data Num String V V} {algo : List String}
    {feats algos : Option (List String)} {o} {p : Num → Prop} (hp : ∀ row ∈ d.y.rows, ∀ v ∈ row, p v)
    (h : Preprocessing.run Num.isNan d algo feats algos = .ok o) : ∀ row ∈ o.data.y.rows, ∀ v ∈ row, p v := by
  unfold Preprocessing.run at h
  split at h
  · cases h
  · split at h
    · cases h
    · rename_i y algo' hy
      have hy' := select_mem hp hy
      split at h
      · cases h
      · rename_i d' hd'
        cases h
        unfold Preprocessing.removeMissing at hd'
        dsimp only at hd'
        split at hd'
        · cases hd'
        · cases hd'
          dsimp only
          have hc : ∀ d : Preprocessing.Data Num String V V, (Preprocessing.removeCols Num.isNan d).y = d.y := by
            intro d
            unfold Preprocessing.removeCols
            dsimp only
            split <;> rfl
          rw [hc]
          unfold Preprocessing.removeRows
          dsimp only
          split
          · intro row hrow
            exact hy' row (mem_of_mask hrow)
          · exact hy'

/-! ### Related values -/

/-- Under the names in `T` there are arrays, changed by `f`, whose entries have the property `p`; the numbers
of `y_best` are changed by `f`; the smallest performance and PYTHIA's summary are anything; everything else is
the same. -/
def URel (f : Num → Num) (p : Num → Prop) (T : List Name) (n : Name) (v v' : Val V W) : Prop :=
  if n ∈ T then ∃ m, v = .table m ∧ v' = .table (onEntries f m) ∧ ∀ r ∈ m.rows, ∀ w ∈ r, p w
  else if n = .y_best then ∃ l, v = .numbers l ∧ v' = .numbers (l.map f)
  else n ∉ [Name.min_y, .pythia_summary] → v = v'

variable {f : Num → Num} {p : Num → Prop} {T : List Name}

theorem urel_eq {n : Name} (h : n ∉ T ++ [.y_best, .min_y, .pythia_summary]) {v v' : Val V W} :
    URel f p T n v v' ↔ v = v' := by
  rw [List.mem_append, not_or] at h
  unfold URel
  rw [if_neg h.1, if_neg fun e => h.2 (by rw [e]; exact List.mem_cons_self)]
  exact ⟨fun e => e fun h' => h.2 (List.mem_cons_of_mem _ h'), fun e _ => e⟩

theorem urel_free {n : Name} (h : n ∉ T) (h' : n ∈ [Name.min_y, .pythia_summary]) {v v' : Val V W} :
    URel f p T n v v' := by
  have : n ≠ .y_best := by rintro rfl; simp at h'
  unfold URel
  rw [if_neg h, if_neg this]
  exact fun e => (e h').elim

theorem urel_best (h : Name.y_best ∉ T) {v v' : Val V W} :
    URel f p T .y_best v v' ↔ ∃ l, v = .numbers l ∧ v' = .numbers (l.map f) := by
  unfold URel
  rw [if_neg h, if_pos rfl]

theorem urel_table {n : Name} (h : n ∈ T) {v v' : Val V W} :
    URel f p T n v v' ↔ ∃ m, v = .table m ∧ v' = .table (onEntries f m) ∧ ∀ r ∈ m.rows, ∀ w ∈ r, p w := by
  unfold URel; rw [if_pos h]

theorem pre_pair {env env' : Env V W} (hfe : env'.feats = env.feats) (hal : env'.algos = env.algos)
    (hf : ∀ v, (f v).isNan = v.isNan) (ps : List (Val V W × Val V W))
    (h : List.Forall₂ (fun n q => URel f p [.algorithms, .y, .y_raw] n q.1 q.2)
      ((inputs .preprocessing).map Prod.fst) ps) :
    Both (OutRel (URel f p [.algorithms, .y, .y_raw]))
      (runPreprocessing env (ps.map Prod.fst)) (runPreprocessing env' (ps.map Prod.snd)) := by
  simp only [inputs, List.map_cons, List.map_nil] at h
  cases h with | cons h1 h => cases h with | cons h2 h => cases h with | cons h3 h => cases h with
  | cons h4 h => cases h with | cons h5 h => cases h with | cons h6 h => cases h with
  | cons h7 h => cases h with
  | nil =>
    rename_i q1 q2 q3 q4 q5 q6 q7
    obtain ⟨a1, b1⟩ := q1
    obtain ⟨a2, b2⟩ := q2
    obtain ⟨a3, b3⟩ := q3
    obtain ⟨a4, b4⟩ := q4
    obtain ⟨a5, b5⟩ := q5
    obtain ⟨a6, b6⟩ := q6
    obtain ⟨a7, b7⟩ := q7
    dsimp only at h1 h2 h3 h4 h5 h6 h7
    obtain rfl := (urel_eq (by decide)).1 h1
    obtain rfl := (urel_eq (by decide)).1 h2
    obtain rfl := (urel_eq (by decide)).1 h3
    obtain rfl := (urel_eq (by decide)).1 h4
    obtain rfl := (urel_eq (by decide)).1 h5
    obtain ⟨m, rfl, rfl, hm⟩ := (urel_table (by decide)).1 h6
    simp only [List.map_cons, List.map_nil]
    unfold runPreprocessing
    split
    · rename_i feat algo inst s x y o heq
      simp only [List.cons.injEq, Val.table.injEq, and_true] at heq
      obtain ⟨rfl, rfl, rfl, rfl, rfl, rfl, -⟩ := heq
      dsimp only
      rw [hfe, hal]
      have hr := run_entries hf ⟨x, m, s, feat, inst⟩ algo env.feats env.algos
      change Preprocessing.run Num.isNan ⟨x, onEntries f m, s, feat, inst⟩ algo env.feats env.algos = _ at hr
      rw [hr]
      cases e1 : Preprocessing.run Num.isNan ⟨x, m, s, feat, inst⟩ algo env.feats env.algos with
      | error e => exact rfl
      | ok o =>
        have hy := run_mem hm e1
        dsimp only [Except.map, onPerformances]
        exact .cons ⟨rfl, (urel_eq (by simp)).2 rfl⟩ (.cons ⟨rfl, (urel_eq (by simp)).2 rfl⟩
          (.cons ⟨rfl, (urel_eq (by simp)).2 rfl⟩ (.cons ⟨rfl, (urel_eq (by simp)).2 rfl⟩
          (.cons ⟨rfl, (urel_table (by simp)).2 ⟨_, rfl, rfl, hy⟩⟩
          (.cons ⟨rfl, (urel_eq (by simp)).2 rfl⟩ (.cons ⟨rfl, (urel_eq (by simp)).2 rfl⟩
          (.cons ⟨rfl, (urel_table (by simp)).2 ⟨_, rfl, rfl, hy⟩⟩ .nil)))))))
    · rename_i hn
      split
      · rename_i feat algo inst s x y o heq
        simp only [List.cons.injEq, Val.table.injEq, and_true] at heq
        obtain ⟨rfl, rfl, rfl, rfl, rfl, rfl, -⟩ := heq
        exact (hn _ _ _ _ _ _ _ rfl).elim
      · exact rfl

/-! ### PRELIM -/

theorem filter_raw_best {X Y B N T P L S : Type} (f : Y → Y) (g : T → T) (o : Prelim.SubsetOpts)
    (tests : Filter.Tests (X × Y × B)) (n : Nat) (split : Option (List Nat)) (file : Option (List Int))
    (a : Prelim.Arrays X Y B N T P L S) :
    Prelim.filter o tests n split file { a with yRaw := a.yRaw.map f, yBest := a.yBest.map g } =
      (Prelim.filter o tests n split file a).map fun r =>
        ({ r.1 with yRaw := r.1.yRaw.map f, yBest := r.1.yBest.map g },
          r.2.map fun b => { b with yRaw := b.yRaw.map f, yBest := b.yBest.map g }) := by
  unfold Prelim.filter
  have : Prelim.subsetIndex o tests n split file { a with yRaw := a.yRaw.map f, yBest := a.yBest.map g } =
      Prelim.subsetIndex o tests n split file a := rfl
  rw [this]
  cases Prelim.subsetIndex o tests n split file a with
  | error e => rfl
  | ok m =>
    dsimp only
    split
    · simp only [mask_map', Except.map]
      split <;> rfl
    · rfl

theorem filter_yRaw_mem {X Y B N T P L S : Type} {o : Prelim.SubsetOpts}
    {tests : Filter.Tests (X × Y × B)} {n : Nat} {split : Option (List Nat)} {file : Option (List Int)}
    {a : Prelim.Arrays X Y B N T P L S} {r} (h : Prelim.filter o tests n split file a = .ok r) :
    ∀ x ∈ r.1.yRaw, x ∈ a.yRaw := by
  unfold Prelim.filter at h
  cases e : Prelim.subsetIndex o tests n split file a with
  | error e' => rw [e] at h; cases h
  | ok m =>
    rw [e] at h
    dsimp only at h
    split at h
    · cases h
      intro x hx
      dsimp only [Prelim.mask] at hx
      obtain ⟨q, hq, rfl⟩ := List.mem_map.1 hx
      exact (List.of_mem_zip (List.mem_filter.1 hq).1).1
    · cases h
      exact fun x hx => hx

theorem recorded_pair {env : Env V W} {o' : Prelim.Opts} (hl : Prelim.SameLevel env.prelim o' f p) (x y : Mat Num)
    (outs : List Prelim.Row) :
    OutRel (URel f p [.algorithms, .y_raw]) (recorded env x y outs)
      (recorded (V := V) (W := W) { env with prelim := o' } x (onEntries f y)
        (outs.map (Prelim.Row.change env.prelim.absPerf f))) := by
  have hx : (Prelim.columns x.ncols x.rows).map (Prelim.recordX o' env.junk env.mid env.fit) =
      (Prelim.columns x.ncols x.rows).map (Prelim.recordX env.prelim env.junk env.mid env.fit) := by
    unfold Prelim.recordX
    rw [hl.norm, hl.bound]
  have hy := hl.record env.fit y.ncols outs
  unfold recorded
  dsimp only [onEntries]
  rw [hx, hy]
  refine .cons ⟨rfl, (urel_eq (by simp)).2 rfl⟩ (.cons ⟨rfl, (urel_eq (by simp)).2 rfl⟩
    (.cons ⟨rfl, (urel_eq (by simp)).2 rfl⟩ (.cons ⟨rfl, (urel_eq (by simp)).2 rfl⟩
    (.cons ⟨rfl, (urel_eq (by simp)).2 rfl⟩ (.cons ⟨rfl, (urel_eq (by simp)).2 rfl⟩
    (.cons ⟨rfl, (urel_eq (by simp)).2 rfl⟩ (.cons ⟨rfl, (urel_eq (by simp)).2 rfl⟩
    (.cons ⟨rfl, urel_free (by simp) (by simp)⟩ (.cons ⟨rfl, (urel_eq (by simp)).2 rfl⟩
    (.cons ⟨rfl, (urel_eq (by simp)).2 rfl⟩ (.cons ⟨rfl, (urel_eq (by simp)).2 rfl⟩ .nil)))))))))))

theorem prelim_pair {env : Env V W} {o' : Prelim.Opts} (hl : Prelim.SameLevel env.prelim o' f p)
    (ps : List (Val V W × Val V W))
    (h : List.Forall₂ (fun n q => URel f p [.algorithms, .y, .y_raw] n q.1 q.2)
      ((inputs .prelim).map Prod.fst) ps) :
    Both (fun out out' => OutRel (URel f p [.algorithms, .y_raw]) out out' ∧
        Name.y ∈ out.map Prod.fst)
      (runPrelim env (ps.map Prod.fst)) (runPrelim { env with prelim := o' } (ps.map Prod.snd)) := by
  simp only [inputs, List.map_cons, List.map_nil] at h
  cases h with | cons h1 h => cases h with | cons h2 h => cases h with | cons h3 h => cases h with
  | cons h4 h => cases h with | cons h5 h => cases h with | cons h6 h => cases h with
  | cons h7 h => cases h with | cons h8 h => cases h with
  | nil =>
    rename_i q1 q2 q3 q4 q5 q6 q7 q8
    obtain ⟨a1, b1⟩ := q1
    obtain ⟨a2, b2⟩ := q2
    obtain ⟨a3, b3⟩ := q3
    obtain ⟨a4, b4⟩ := q4
    obtain ⟨a5, b5⟩ := q5
    obtain ⟨a6, b6⟩ := q6
    obtain ⟨a7, b7⟩ := q7
    obtain ⟨a8, b8⟩ := q8
    dsimp only at h1 h2 h3 h4 h5 h6
    obtain rfl := (urel_eq (by decide)).1 h1
    obtain ⟨y, rfl, rfl, hy⟩ := (urel_table (by decide)).1 h2
    obtain rfl := (urel_eq (by decide)).1 h3
    obtain ⟨m, rfl, rfl, hm⟩ := (urel_table (by decide)).1 h4
    obtain rfl := (urel_eq (by decide)).1 h5
    obtain rfl := (urel_eq (by decide)).1 h6
    simp only [List.map_cons, List.map_nil]
    unfold runPrelim
    split
    · rename_i x _ xRaw _ s inst o1 o2 heq
      simp only [List.cons.injEq, Val.table.injEq, and_true] at heq
      obtain ⟨rfl, rfl, rfl, rfl, rfl, rfl, -, -⟩ := heq
      dsimp only [onEntries]
      rw [Prelim.outY_level hl _ _ _ hy, Prelim.rows_level hl _ hy]
      cases Prelim.rows env.prelim y.rows with
      | none => cases Prelim.outY env.prelim env.tr y.ncols y.rows <;> exact rfl
      | some outs =>
        cases Prelim.outY env.prelim env.tr y.ncols y.rows with
        | none => exact rfl
        | some ys =>
          dsimp only [Option.map_some]
          have hX : Prelim.outX o' env.junk env.tr (Prelim.columns x.ncols x.rows) =
              Prelim.outX env.prelim env.junk env.tr (Prelim.columns x.ncols x.rows) := by
            unfold Prelim.outX
            rw [hl.norm, hl.bound]
          obtain ⟨hraw, hsame⟩ := Prelim.yRawOut_level hl m.rows hm
          rw [hX, hraw, hsame, List.length_map]
          have hbin : (outs.map (Prelim.Row.change env.prelim.absPerf f)).map (·.yBin) = outs.map (·.yBin) := by
            rw [List.map_map]; rfl
          have hbeta : (outs.map (Prelim.Row.change env.prelim.absPerf f)).map (·.beta) = outs.map (·.beta) := by
            rw [List.map_map]; rfl
          have hgood : (outs.map (Prelim.Row.change env.prelim.absPerf f)).map (·.numGood) =
              outs.map (·.numGood) := by
            rw [List.map_map]; rfl
          have hp' : (outs.map (Prelim.Row.change env.prelim.absPerf f)).map (·.p) = outs.map (·.p) := by
            rw [List.map_map]; rfl
          have hbest : (outs.map (Prelim.Row.change env.prelim.absPerf f)).map (·.yBest) =
              (outs.map (·.yBest)).map f := by
            rw [List.map_map, List.map_map]; rfl
          rw [hbin, hbeta, hgood, hp', hbest]
          generalize ha :
            ({ x := rowsOf x.rows.length
                 (Prelim.outX env.prelim env.junk env.tr (Prelim.columns x.ncols x.rows))
               y := rowsOf y.rows.length ys
               xRaw := xRaw.rows
               yRaw := m.rows
               yBin := outs.map (·.yBin), beta := outs.map (·.beta), numGood := outs.map (·.numGood)
               yBest := outs.map (·.yBest), p := outs.map (·.p), inst, s } :
              Prelim.Arrays (List Num) (List Num) (List Bool) Nat Num Nat V V) = a
          have ha' :
            ({ x := rowsOf x.rows.length
                 (Prelim.outX env.prelim env.junk env.tr (Prelim.columns x.ncols x.rows))
               y := rowsOf y.rows.length ys
               xRaw := xRaw.rows
               yRaw := m.rows.map (·.map f)
               yBin := outs.map (·.yBin), beta := outs.map (·.beta), numGood := outs.map (·.numGood)
               yBest := (outs.map (·.yBest)).map f, p := outs.map (·.p), inst, s } :
              Prelim.Arrays (List Num) (List Num) (List Bool) Nat Num Nat V V) =
              { a with yRaw := a.yRaw.map (·.map f), yBest := a.yBest.map f } := by rw [← ha]
          rw [ha', filter_raw_best]
          have hraw' : a.yRaw = m.rows := by rw [← ha]
          cases hr : Prelim.filter env.subset env.tests x.ncols env.split env.file a with
          | error e => exact rfl
          | ok r =>
            have hmem := filter_yRaw_mem hr
            rw [hraw'] at hmem
            obtain ⟨b, dense⟩ := r
            refine ⟨?_, ?_⟩
            · simp only [Option.isSome_map]
              refine List.rel_append (R := fun (q q' : Name × Val V W) => q.1 = q'.1 ∧
                URel f p [.algorithms, .y_raw] q.1 q.2 q'.2) ?_ ?_
              · exact recorded_pair hl x y outs
              · refine List.Forall₂.cons ⟨rfl, (urel_eq (by simp)).2 rfl⟩ (.cons ⟨rfl, (urel_eq (by simp)).2 rfl⟩
                  (.cons ⟨rfl, (urel_eq (by simp)).2 rfl⟩
                  (.cons ⟨rfl, (urel_table (by simp)).2 ⟨_, rfl, rfl, ?_⟩⟩
                  (.cons ⟨rfl, (urel_eq (by simp)).2 rfl⟩
                  (.cons ⟨rfl, (urel_best (by simp)).2 ⟨_, rfl, rfl⟩⟩
                  (List.forall₂_same.2 ?_))))))
                · exact fun r hr => hm r (hmem r hr)
                · intro q hq
                  refine ⟨rfl, (urel_eq ?_).2 rfl⟩
                  simp only [List.mem_cons, List.not_mem_nil, or_false] at hq
                  rcases hq with rfl | rfl | rfl | rfl | rfl | rfl <;> simp
            · simp
    · rename_i hno
      split
      · rename_i x _ xRaw _ s inst o1 o2 heq
        simp only [List.cons.injEq, Val.table.injEq, and_true] at heq
        obtain ⟨rfl, rfl, rfl, rfl, rfl, rfl, -, -⟩ := heq
        exact (hno _ _ _ _ _ _ _ _ rfl).elim
      · exact rfl

/-! ### SIFTED and the stages after it -/

theorem sifted_pair (env : Env V W) (o' : Prelim.Opts) (ps : List (Val V W × Val V W))
    (h : List.Forall₂ (fun n q => URel f p [.algorithms, .y_raw] n q.1 q.2)
      ((inputs .sifted).map Prod.fst) ps) :
    Both (OutRel (URel f p [.algorithms, .y_raw]))
      (runSifted env (ps.map Prod.fst)) (runSifted { env with prelim := o' } (ps.map Prod.snd)) := by
  simp only [inputs, List.map_cons, List.map_nil] at h
  cases h with | cons h1 h => cases h with | cons h2 h => cases h with | cons h3 h => cases h with
  | cons h4 h => cases h with | cons h5 h => cases h with | cons h6 h => cases h with
  | cons h7 h => cases h with | cons h8 h => cases h with | cons h9 h => cases h with
  | cons h10 h => cases h with | cons h11 h => cases h with | cons h12 h => cases h with
  | cons h13 h => cases h with | cons h14 h => cases h with | cons h15 h => cases h with
  | cons h16 h => cases h with
  | nil =>
    rename_i q1 q2 q3 q4 q5 q6 q7 q8 q9 q10 q11 q12 q13 q14 q15 q16
    obtain ⟨a1, b1⟩ := q1
    obtain ⟨a2, b2⟩ := q2
    obtain ⟨a3, b3⟩ := q3
    obtain ⟨a4, b4⟩ := q4
    obtain ⟨a5, b5⟩ := q5
    obtain ⟨a6, b6⟩ := q6
    obtain ⟨a7, b7⟩ := q7
    obtain ⟨a8, b8⟩ := q8
    obtain ⟨a9, b9⟩ := q9
    obtain ⟨a10, b10⟩ := q10
    obtain ⟨a11, b11⟩ := q11
    obtain ⟨a12, b12⟩ := q12
    obtain ⟨a13, b13⟩ := q13
    obtain ⟨a14, b14⟩ := q14
    obtain ⟨a15, b15⟩ := q15
    obtain ⟨a16, b16⟩ := q16
    dsimp only at *
    obtain rfl := (urel_eq (by decide)).1 h1
    obtain rfl := (urel_eq (by decide)).1 h2
    obtain rfl := (urel_eq (by decide)).1 h3
    obtain rfl := (urel_eq (by decide)).1 h4
    obtain rfl := (urel_eq (by decide)).1 h6
    obtain rfl := (urel_eq (by decide)).1 h7
    obtain rfl := (urel_eq (by decide)).1 h9
    obtain rfl := (urel_eq (by decide)).1 h10
    obtain rfl := (urel_eq (by decide)).1 h11
    obtain rfl := (urel_eq (by decide)).1 h12
    obtain rfl := (urel_eq (by decide)).1 h13
    obtain rfl := (urel_eq (by decide)).1 h14
    obtain rfl := (urel_eq (by decide)).1 h15
    obtain rfl := (urel_eq (by decide)).1 h16
    simp only [List.map_cons, List.map_nil]
    unfold runSifted
    split
    · rename_i x y yb xRaw yRaw beta numGood yBest pp inst feat s o1 o2 present o3 heq
      simp only [List.cons.injEq, and_true] at heq
      obtain ⟨rfl, rfl, rfl, rfl, rfl, rfl, rfl, rfl, rfl, rfl, rfl, rfl, rfl, rfl, rfl, rfl⟩ := heq
      dsimp only
      change Both _ _ (match correlations env x y yb with | .error e => _ | .ok c => _)
      cases correlations env x y yb with
      | error e => exact rfl
      | ok c =>
      dsimp only
      cases Sifted.sifted (env.lib x y yb) ((c.map (·.rho)).getD []) env.thr env.clusters y.ncols
        (Prelim.columns x.ncols x.rows) feat (env.subset.byDensity && present) with
      | error e => exact rfl
      | ok o =>
        refine List.rel_append (R := fun (q q' : Name × Val V W) => q.1 = q'.1 ∧
          URel f p [.algorithms, .y_raw] q.1 q.2 q'.2) ?_ ?_
        · refine List.Forall₂.cons ⟨rfl, (urel_eq (by simp)).2 rfl⟩
            (.cons ⟨rfl, (urel_eq (by simp)).2 rfl⟩ (.cons ⟨rfl, (urel_eq (by simp)).2 rfl⟩
            (.cons ⟨rfl, (urel_eq (by simp)).2 rfl⟩ (.cons ⟨rfl, h5⟩
            (.cons ⟨rfl, (urel_eq (by simp)).2 rfl⟩ (.cons ⟨rfl, (urel_eq (by simp)).2 rfl⟩
            (.cons ⟨rfl, h8⟩ (List.forall₂_same.2 ?_))))))))
          intro q hq
          refine ⟨rfl, (urel_eq ?_).2 rfl⟩
          simp only [List.mem_cons, List.not_mem_nil, or_false] at hq
          rcases hq with rfl | rfl | rfl | rfl | rfl | rfl <;> simp
        · apply List.forall₂_same.2
          intro q hq
          refine ⟨rfl, (urel_eq ?_).2 rfl⟩
          simp only [grounds, List.mem_cons, List.not_mem_nil, or_false] at hq
          rcases hq with rfl | rfl | rfl | rfl <;> simp
    · rename_i hno
      split
      · rename_i x y yBin xRaw yRaw beta numGood yBest pp inst feat s o1 o2 present o3 heq
        simp only [List.cons.injEq, and_true] at heq
        obtain ⟨rfl, rfl, rfl, rfl, rfl, rfl, rfl, rfl, rfl, rfl, rfl, rfl, rfl, rfl, rfl, rfl⟩ := heq
        exact (hno _ _ _ _ _ _ _ _ _ _ _ _ _ _ _ _ rfl).elim
      · exact rfl

/-- PYTHIA's results but the summary do not depend on the performances. -/
theorem pythia_level (lib : Pythia.Lib) (n : Nat) (algo : List String) (y y' : List (List Num))
    (yBin : List (List Bool)) (yBest yBest' : List Num) (fitted : Nat → Except Pythia.Err Pythia.SvmRes) :
    Both (fun o o' => o.trained = o'.trained ∧ o.selection0 = o'.selection0 ∧ o.selection1 = o'.selection1)
      (Pythia.pythia lib n algo y yBin yBest fitted) (Pythia.pythia lib n algo y' yBin yBest' fitted) := by
  unfold Pythia.pythia
  cases Pythia.train fitted yBin (List.range n) (Pythia.start yBin.length n) with
  | error e => exact rfl
  | ok t =>
    dsimp only
    cases Pythia.determineSelections n t.precision t.yHat yBin with
    | error e => exact rfl
    | ok s =>
      obtain ⟨s0, s1⟩ := s
      dsimp only
      unfold Pythia.generateSummary
      cases s0 <;> cases s1
      · exact ⟨rfl, rfl, rfl⟩
      · exact rfl
      · exact rfl
      · exact rfl

theorem pythia_pair {le : Late V W} (hw : le.useWeights = false)
    (hfit : ∀ z y y' yBin, le.fitted z y yBin = le.fitted z y' yBin) (ps : List (Val V W × Val V W))
    (h : List.Forall₂ (fun n q => URel f p [.algorithms, .y_raw] n q.1 q.2)
      ((inputs .pythia).map Prod.fst) ps) :
    Both (OutRel (URel f p [.algorithms, .y_raw]))
      (runPythia le (ps.map Prod.fst)) (runPythia le (ps.map Prod.snd)) := by
  simp only [inputs, List.map_cons, List.map_nil] at h
  cases h with | cons h1 h => cases h with | cons h2 h => cases h with | cons h3 h => cases h with
  | cons h4 h => cases h with | cons h5 h => cases h with | cons h6 h => cases h with
  | cons h7 h => cases h with
  | nil =>
    rename_i q1 q2 q3 q4 q5 q6 q7
    obtain ⟨a1, b1⟩ := q1
    obtain ⟨a2, b2⟩ := q2
    obtain ⟨a3, b3⟩ := q3
    obtain ⟨a4, b4⟩ := q4
    obtain ⟨a5, b5⟩ := q5
    obtain ⟨a6, b6⟩ := q6
    obtain ⟨a7, b7⟩ := q7
    dsimp only at h1 h2 h3 h4 h5 h6 h7
    obtain rfl := (urel_eq (by decide)).1 h1
    obtain ⟨y, rfl, rfl, -⟩ := (urel_table (by decide)).1 h2
    obtain rfl := (urel_eq (by decide)).1 h3
    obtain ⟨best, rfl, rfl⟩ := (urel_best (by decide)).1 h4
    obtain rfl := (urel_eq (by decide)).1 h5
    simp only [List.map_cons, List.map_nil]
    unfold runPythia
    split
    · rename_i z _ yBin _ algo o1 o2 heq
      simp only [List.cons.injEq, Val.table.injEq, Val.numbers.injEq, and_true] at heq
      obtain ⟨rfl, rfl, rfl, rfl, rfl, -, -⟩ := heq
      dsimp only [onEntries]
      unfold Pythia.weightMatrix
      rw [hw]
      simp only [Bool.false_eq_true, if_false]
      rw [hfit z ⟨y.ncols, y.rows.map (·.map f)⟩ y yBin]
      have hb := pythia_level le.pythiaLib y.ncols algo y.rows (y.rows.map (·.map f)) yBin best (best.map f)
        (le.fitted z y yBin)
      cases e1 : Pythia.pythia le.pythiaLib y.ncols algo y.rows yBin best (le.fitted z y yBin) with
      | error e =>
        cases e2 : Pythia.pythia le.pythiaLib y.ncols algo (y.rows.map (·.map f)) yBin (best.map f)
            (le.fitted z y yBin) with
        | error e' => rw [e1, e2] at hb; exact congrArg _ hb
        | ok o' => rw [e1, e2] at hb; exact hb.elim
      | ok o =>
        cases e2 : Pythia.pythia le.pythiaLib y.ncols algo (y.rows.map (·.map f)) yBin (best.map f)
            (le.fitted z y yBin) with
        | error e' => rw [e1, e2] at hb; exact hb.elim
        | ok o' =>
          rw [e1, e2] at hb
          obtain ⟨g1, g2, g3⟩ := hb
          dsimp only [pythiaOut]
          rw [← g1, ← g2, ← g3]
          refine .cons ⟨rfl, (urel_eq (by simp)).2 rfl⟩ (.cons ⟨rfl, (urel_eq (by simp)).2 rfl⟩
            (.cons ⟨rfl, (urel_eq (by simp)).2 rfl⟩ (.cons ⟨rfl, (urel_eq (by simp)).2 rfl⟩
            (.cons ⟨rfl, (urel_eq (by simp)).2 rfl⟩ (.cons ⟨rfl, (urel_eq (by simp)).2 rfl⟩
            (.cons ⟨rfl, (urel_eq (by simp)).2 rfl⟩ (.cons ⟨rfl, (urel_eq (by simp)).2 rfl⟩
            (.cons ⟨rfl, (urel_eq (by simp)).2 rfl⟩ (.cons ⟨rfl, (urel_eq (by simp)).2 rfl⟩
            (.cons ⟨rfl, (urel_eq (by simp)).2 rfl⟩ (.cons ⟨rfl, (urel_eq (by simp)).2 rfl⟩
            (.cons ⟨rfl, (urel_eq (by simp)).2 rfl⟩ (.cons ⟨rfl, (urel_eq (by simp)).2 rfl⟩
            (.cons ⟨rfl, (urel_eq (by simp)).2 rfl⟩ (.cons ⟨rfl, (urel_eq (by simp)).2 rfl⟩
            (.cons ⟨rfl, (urel_eq (by simp)).2 rfl⟩ (.cons ⟨rfl, urel_free (by simp) (by simp)⟩
            .nil)))))))))))))))))
    · rename_i hno
      split
      · rename_i z _ yBin _ algo o1 o2 heq
        simp only [List.cons.injEq, Val.table.injEq, Val.numbers.injEq, and_true] at heq
        obtain ⟨rfl, rfl, rfl, rfl, rfl, -, -⟩ := heq
        exact (hno _ _ _ _ _ _ _ rfl).elim
      · exact rfl

/-- The stages that read nothing in the unit of the performances. -/
theorem other_pair {env : Env V W} (o' : Prelim.Opts)
    (hr : ∀ k s vs out, env.rest k s vs = .ok out → out.map Prod.fst = (outputs s).map Prod.fst)
    (k : Nat) {s : Stg} (hs : s = .pilot ∨ s = .cloister ∨ s = .trace) (ps : List (Val V W × Val V W))
    (h : List.Forall₂ (fun n q => URel f p [.algorithms, .y_raw] n q.1 q.2) ((inputs s).map Prod.fst) ps) :
    Both (OutRel (URel f p [.algorithms, .y_raw]))
      (run env k s (ps.map Prod.fst)) (run { env with prelim := o' } k s (ps.map Prod.snd)) := by
  have hin : ∀ n ∈ (inputs s).map Prod.fst, n ∉ [Name.algorithms, .y_raw] ++ [.y_best, .min_y, .pythia_summary] := by
    rcases hs with rfl | rfl | rfl <;> decide
  have hout : ∀ n ∈ (outputs s).map Prod.fst,
      n ∉ [Name.algorithms, .y_raw] ++ [.y_best, .min_y, .pythia_summary] := by
    rcases hs with rfl | rfl | rfl <;> decide
  have e : ps.map Prod.fst = ps.map Prod.snd := by
    generalize (inputs s).map Prod.fst = ns at h hin
    induction h with
    | nil => rfl
    | @cons n q ns ps hq _ ih =>
      rw [List.map_cons, List.map_cons, (urel_eq (hin n List.mem_cons_self)).1 hq,
        ih fun n hn => hin n (List.mem_cons_of_mem _ hn)]
  rw [e]
  have e2 : run env k s (ps.map Prod.snd) = env.rest k s (ps.map Prod.snd) := by
    rcases hs with rfl | rfl | rfl <;> rfl
  have e3 : run { env with prelim := o' } k s (ps.map Prod.snd) = env.rest k s (ps.map Prod.snd) := by
    rcases hs with rfl | rfl | rfl <;> rfl
  rw [e2, e3]
  cases hrun : env.rest k s (ps.map Prod.snd) with
  | error e => exact rfl
  | ok out =>
    apply List.forall₂_same.2
    intro q hq
    refine ⟨rfl, (urel_eq (hout _ ?_)).2 rfl⟩
    rw [← hr k s _ out hrun]
    exact List.mem_map_of_mem hq

/-- The whole pipeline. -/
theorem applyAll_level {env : Env V (Kept G)} {le : Nat → Late V (Kept G)} {te : Nat → TraceEnv G}
    (hc : CompleteTrace env le te) (hv : TrainedOnVerdicts le) {o' : Prelim.Opts}
    (hl : Prelim.SameLevel env.prelim o' f p)
    (hr : ∀ k s vs out, env.rest k s vs = .ok out → out.map Prod.fst = (outputs s).map Prod.fst)
    (sched : List (List Stg)) (rest : List Stg)
    (hrest : ∀ s ∈ rest, s = .sifted ∨ s = .pilot ∨ s = .pythia ∨ s = .cloister ∨ s = .trace)
    (k : Nat) (d d' : Dict Name (Val V (Kept G))) (hd : DictRel (URel f p [.algorithms, .y, .y_raw]) d d') :
    Both (DictRel (URel f p [.algorithms, .y_raw]))
      (applyAll ⟨sched, fun s => (inputs s).map Prod.fst, run env⟩ k (.preprocessing :: .prelim :: rest) d)
      (applyAll ⟨sched, fun s => (inputs s).map Prod.fst, run { env with prelim := o' }⟩ k
        (.preprocessing :: .prelim :: rest) d') := by
  have weaken : ∀ n, n ≠ Name.y → ∀ v v' : Val V (Kept G), URel f p [.algorithms, .y, .y_raw] n v v' →
      URel f p [.algorithms, .y_raw] n v v' := by
    intro n hne v v' h
    unfold URel at h ⊢
    have : n ∈ [Name.algorithms, .y, .y_raw] ↔ n ∈ [Name.algorithms, .y_raw] := by
      simp [hne]
    simpa only [this] using h
  refine cons_pair (R := URel f p [.algorithms, .y, .y_raw]) ?_ fun y y' hy =>
    cons_pair (R := URel f p [.algorithms, .y_raw]) ?_ fun w w' hw =>
      all_pair rest _ w w' hw fun s hs k d d' hd => ?_
  · refine step_pair (by rfl) hd fun ps hps => ?_
    exact (pre_pair (env := env) (env' := { env with prelim := o' }) rfl rfl hl.isNan ps hps).imp
      fun out out' h => ⟨h, fun _ _ _ _ h => h⟩
  · refine step_pair (by rfl) hy fun ps hps => ?_
    exact Both.imp
      (R := fun out out' => OutRel (URel f p [.algorithms, .y_raw]) out out' ∧ Name.y ∈ out.map Prod.fst)
      (fun out out' h => ⟨h.1, fun n hx v v' hv => weaken n (fun e => hx (e ▸ h.2)) v v' hv⟩)
      (prelim_pair hl ps hps)
  refine step_pair (by rfl) hd fun ps hps => ?_
  refine Both.imp (R := OutRel (URel f p [.algorithms, .y_raw])) (fun out out' h => ⟨h, fun _ _ _ _ h => h⟩) ?_
  rcases hrest s hs with rfl | rfl | rfl | rfl | rfl
  · exact sifted_pair env o' ps hps
  · exact other_pair o' hr k (.inl rfl) ps hps
  · change Both _ (env.rest k .pythia _) (env.rest k .pythia _)
    rw [hc.stages, hc.stages]
    exact pythia_pair (hv k).1 (hv k).2 ps hps
  · exact other_pair o' hr k (.inr (.inl rfl)) ps hps
  · exact other_pair o' hr k (.inr (.inr rfl)) ps hps

/-! ### The initial values -/

theorem row_level {num : V → Num} {i : Nat} {cols cols' : List (String × List V)}
    (h : List.Forall₂ (fun c c' : String × List V => c'.1 = c.1 ∧
      c'.2.map num = c.2.map fun v => f (num v)) cols cols') :
    (cols'.filterMap fun c => c.2[i]?).map num = ((cols.filterMap fun c => c.2[i]?).map num).map f := by
  induction h with
  | nil => rfl
  | @cons c c' cols cols' hc _ ih =>
    have h3 : c'.2[i]?.map num = (c.2[i]?.map num).map f := by
      have := congrArg (·[i]?) hc.2
      simpa [List.getElem?_map, Option.map_map, Function.comp_def] using this
    rw [List.filterMap_cons, List.filterMap_cons]
    cases e : c.2[i]? with
    | none =>
      cases e' : c'.2[i]? with
      | none => exact ih
      | some v' => rw [e, e'] at h3; cases h3
    | some v =>
      cases e' : c'.2[i]? with
      | none => rw [e, e'] at h3; cases h3
      | some v' =>
        rw [e, e'] at h3
        simp only [Option.map_some, Option.some.injEq] at h3
        simp only [List.map_cons, ih, h3]

theorem args_level {lower : String → String} {numeric : Squeezed V → Bool} {str : V → V} {num : V → Num}
    {env : Env V W} (o' : Prelim.Opts) {t t' : Table V} (ht : Rescaled lower num f t t')
    (hp : ∀ c ∈ t.cols, Begins lower "algo_" c.1 → ∀ v ∈ c.2, p (num v)) :
    DictRel (URel f p [.algorithms, .y, .y_raw])
      (args env num (Metadata.fromDataFrame lower numeric str t))
      (args { env with prelim := o' } num (Metadata.fromDataFrame lower numeric str t')) := by
  have same : ∀ g : String → Bool, (∀ s, g s = true → ¬ Begins lower "algo_" s) →
      t'.loc g = t.loc g := by
    intro g hg
    unfold Table.loc
    rw [ht.rows]
    congr 1
    refine (forall₂_eq' (filter_pairs ht.columns fun a b hab => by rw [hab.1]) ?_).symm
    intro a ha b hab
    have := hab.2.2 (hg a.1 (List.mem_filter.1 ha).2)
    exact Prod.ext hab.1.symm this.symm
  have hname : ∀ s, Metadata.isName lower s = true → ¬ Begins lower "algo_" s := by
    rintro s hs ⟨r, hr⟩
    simp only [Metadata.isName, beq_iff_eq] at hs
    rw [hs] at hr
    have : ("instances".toList).take 5 = "algo_".toList := by rw [hr]; rfl
    exact absurd this (by decide)
  have hsrc : ∀ s, Metadata.isSource lower s = true → ¬ Begins lower "algo_" s := by
    rintro s hs ⟨r, hr⟩
    simp only [Metadata.isSource, beq_iff_eq] at hs
    rw [hs] at hr
    have : ("source".toList).take 5 = "algo_".toList := by rw [hr]; rfl
    exact absurd this (by decide)
  have hfeat : ∀ s, Metadata.isFeat lower s = true → ¬ Begins lower "algo_" s := by
    rintro s hs ⟨r, hr⟩
    obtain ⟨r', hr'⟩ := (Metadata.hasPrefix_iff _ _ _).1 hs
    rw [hr'] at hr
    have : ("feature_".toList ++ r').take 1 = ("algo_".toList ++ r).take 1 := by rw [hr]
    simp at this
  have halgo : ∀ s, Metadata.isAlgo lower s = true ↔ Begins lower "algo_" s :=
    fun s => Metadata.hasPrefix_iff _ _ s
  have e1 := same _ hname
  have e2 := same _ hsrc
  have e3 := same _ hfeat
  have e4 : (t'.cols.any fun c => Metadata.isSource lower c.1) =
      t.cols.any fun c => Metadata.isSource lower c.1 := by
    have : ∀ l l' : List (String × List V), List.Forall₂ (fun c c' => c'.1 = c.1) l l' →
        (l'.any fun c => Metadata.isSource lower c.1) = l.any fun c => Metadata.isSource lower c.1 := by
      intro l l' h
      induction h with
      | nil => rfl
      | cons h _ ih => rw [List.any_cons, List.any_cons, h, ih]
    exact this _ _ (ht.columns.imp fun _ _ h => h.1)
  have hf : List.Forall₂ (fun c c' : String × List V => c'.1 = c.1 ∧
      c'.2.map num = c.2.map fun v => f (num v)) (t.loc (Metadata.isAlgo lower)).cols
      (t'.loc (Metadata.isAlgo lower)).cols := by
    have h1 := filter_pairs (f := fun c => Metadata.isAlgo lower c.1) ht.columns
      fun a b hab => by rw [hab.1]
    have h2 : ∀ c ∈ t.cols.filter (fun c => Metadata.isAlgo lower c.1), Begins lower "algo_" c.1 :=
      fun c hc => (halgo _).1 (List.mem_filter.1 hc).2
    simp only [Table.loc]
    generalize t.cols.filter (fun c => Metadata.isAlgo lower c.1) = l at *
    generalize t'.cols.filter (fun c => Metadata.isAlgo lower c.1) = l' at *
    induction h1 with
    | nil => exact .nil
    | @cons a b l l' hab _ ih =>
      exact .cons ⟨hab.1, hab.2.1 (h2 a List.mem_cons_self)⟩
        (ih fun c hc => h2 c (List.mem_cons_of_mem _ hc))
  have hnames : (t'.loc (Metadata.isAlgo lower)).cols.map Prod.fst =
      (t.loc (Metadata.isAlgo lower)).cols.map Prod.fst := by
    generalize (t.loc (Metadata.isAlgo lower)).cols = l at hf
    generalize (t'.loc (Metadata.isAlgo lower)).cols = l' at hf
    induction hf with
    | nil => rfl
    | cons h _ ih => rw [List.map_cons, List.map_cons, h.1, ih]
  intro n
  have eqs : ∀ m : Name, m ≠ .algorithms →
      args { env with prelim := o' } num (Metadata.fromDataFrame lower numeric str t') m =
      args env num (Metadata.fromDataFrame lower numeric str t) m := by
    intro m hm
    unfold args Metadata.fromDataFrame
    dsimp only
    rw [e1, e2, e3, e4, hnames]
    cases m <;> first | rfl | exact (hm rfl).elim
  by_cases hfn : n = .algorithms
  · subst hfn
    refine .some ((urel_table (by decide)).2 ⟨_, rfl, ?_, ?_⟩)
    · dsimp only [Metadata.fromDataFrame, Table.toNumpy, onEntries]
      rw [hnames, List.map_map, List.map_map, List.map_map]
      have : (t'.loc (Metadata.isAlgo lower)).nrows = (t.loc (Metadata.isAlgo lower)).nrows := ht.rows
      rw [this]
      congr 2
      apply List.map_congr_left
      intro i hi
      exact row_level hf
    · intro r hr v hv
      dsimp only [Metadata.fromDataFrame, Table.toNumpy] at hr
      rw [List.map_map] at hr
      obtain ⟨i, hi, rfl⟩ := List.mem_map.1 hr
      obtain ⟨u, hu, rfl⟩ := List.mem_map.1 hv
      obtain ⟨c, hc, hcu⟩ := List.mem_filterMap.1 hu
      have hc' := List.mem_filter.1 hc
      exact hp c hc'.1 ((halgo _).1 hc'.2) u (List.mem_of_getElem? hcu)
  · rw [eqs n hfn]
    cases e : args env num (Metadata.fromDataFrame lower numeric str t) n with
    | none => exact .none
    | some v =>
      have hx : n ≠ .y := by rintro rfl; cases e
      have hx' : n ≠ .y_raw := by rintro rfl; cases e
      have h1 : n ≠ .y_best := by rintro rfl; cases e
      have h2 : n ≠ .min_y := by rintro rfl; cases e
      have h3 : n ≠ .pythia_summary := by rintro rfl; cases e
      exact .some ((urel_eq (by simp [hfn, hx, hx', h1, h2, h3])).2 rfl)

theorem prelim_names {env : Env V W} {vs : List (Val V W)} {out : List (Name × Val V W)}
    (h : runPrelim env vs = .ok out) : Name.y_raw ∈ out.map Prod.fst ∧ Name.y_best ∈ out.map Prod.fst := by
  unfold runPrelim at h
  split at h
  · split at h
    · split at h
      · cases h
      · cases h
        simp
    · cases h
  · cases h

/-- The raw performances and the best ones are there in the end. -/
theorem applyAll_raw {env : Env V W} {sched : List (List Stg)} {rest : List Stg} {k : Nat}
    {d d' : Dict Name (Val V W)}
    (h : applyAll ⟨sched, fun s => (inputs s).map Prod.fst, run env⟩ k (.preprocessing :: .prelim :: rest) d =
      .ok d') : (d' .y_raw).isSome ∧ (d' .y_best).isSome := by
  have key := Pipeline.applyAll_present
    (outs := fun s => if s = Stg.prelim then [(Name.y_raw, ()), (Name.y_best, ())] else [])
    (.preprocessing :: .prelim :: rest) d d' k (by
      intro s _ k vs out hrun a ha
      split at ha
      · rename_i hs
        subst hs
        have := prelim_names (show runPrelim env vs = .ok out from hrun)
        simp only [List.mem_cons, List.not_mem_nil, or_false] at ha
        rcases ha with rfl | rfl
        · exact this.1
        · exact this.2
      · cases ha) h
  exact ⟨key _ (.inr ⟨.prelim, by simp, (.y_raw, ()), by simp, rfl⟩),
    key _ (.inr ⟨.prelim, by simp, (.y_best, ()), by simp, rfl⟩)⟩

end Verif.EndToEnd
