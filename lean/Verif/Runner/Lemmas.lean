import Verif.Runner.Spec
import Mathlib.Data.List.Basic
/-! Helper lemmas for the runner. -/
set_option autoImplicit false
set_option linter.unusedSectionVars false

namespace Verif.Runner

variable {S N V E : Type} [DecidableEq S] [DecidableEq N]

theorem put_apply (d : Dict N V) (k n : N) (v : V) :
    d.put k v n = if n = k then some v else d n := rfl

theorem putAll_append (d : Dict N V) (l₁ l₂ : List (N × V)) :
    d.putAll (l₁ ++ l₂) = (d.putAll l₁).putAll l₂ := by
  induction l₁ generalizing d with
  | nil => rfl
  | cons p l ih => exact ih _

theorem putAll_eq (d : Dict N V) (out : List (N × V)) : d.putAll out = override d out := by
  induction out generalizing d with
  | nil => rfl
  | cons p l ih =>
    obtain ⟨k, v⟩ := p
    rw [Dict.putAll, ih]
    funext n
    simp only [override, List.reverse_cons, List.find?_append]
    cases hf : l.reverse.find? (fun p => p.1 = n) with
    | some q => simp
    | none =>
      by_cases h : k = n
      · simp [h, put_apply]
      · have : ¬ n = k := fun h' => h h'.symm
        simp [h, this, put_apply]

theorem override_of_not_mem {d : Dict N V} {out : List (N × V)} {n : N}
    (h : n ∉ out.map Prod.fst) : override d out n = d n := by
  unfold override
  have : out.reverse.find? (fun p => p.1 = n) = none := by
    rw [List.find?_eq_none]
    intro p hp
    simp only [decide_eq_true_eq]
    rintro rfl
    exact h (List.mem_map.2 ⟨p, List.mem_reverse.1 hp, rfl⟩)
  rw [this]

theorem override_of_mem {d : Dict N V} {out : List (N × V)} {n : N}
    (h : n ∈ out.map Prod.fst) : ∃ v, (n, v) ∈ out ∧ override d out n = some v := by
  obtain ⟨p, hp, rfl⟩ := List.mem_map.1 h
  unfold override
  cases hf : out.reverse.find? (fun q => q.1 = p.1) with
  | none =>
    rw [List.find?_eq_none] at hf
    exact absurd (decide_eq_true rfl) (hf p (List.mem_reverse.2 hp))
  | some q =>
    have hq := List.mem_of_find?_eq_some hf
    have hq' := List.find?_some hf
    simp only [decide_eq_true_eq] at hq'
    exact ⟨q.2, by rw [← hq']; exact List.mem_reverse.1 hq, rfl⟩

/-- Overrides agree where the dictionaries agree or the key is overridden. -/
theorem override_congr {d d' : Dict N V} {out : List (N × V)} {n : N}
    (h : d n = d' n) : override d out n = override d' out n := by
  unfold override
  split
  · rfl
  · exact h

theorem collect_eq (d : Dict N V) (ns : List N) :
    collect d ns = match ns.find? (fun n => (d n).isNone) with
      | some n => .error n
      | none => .ok (ns.filterMap d) := by
  induction ns with
  | nil => rfl
  | cons n ns ih =>
    rw [collect, List.find?_cons, List.filterMap_cons]
    cases h : d n with
    | none => simp
    | some v =>
      simp only [Option.isNone_some]
      rw [ih]
      cases hf : ns.find? (fun n => (d n).isNone) <;> simp

/-! ### The index of a stage -/

theorem indexFrom_some {s : S} {l : List (List S)} {i j : Nat} (h : indexFrom s i l = some j) :
    i ≤ j ∧ ∃ e, l[j - i]? = some e ∧ s ∈ e := by
  induction l generalizing i with
  | nil => simp [indexFrom] at h
  | cons e rest ih =>
    unfold indexFrom at h
    split at h
    · rename_i k hk
      cases h
      obtain ⟨h1, e', h2, h3⟩ := ih hk
      refine ⟨by omega, e', ?_, h3⟩
      rw [show j - i = (j - (i + 1)) + 1 from by omega]
      simpa using h2
    · split at h
      · rename_i hs
        cases h
        exact ⟨Nat.le_refl _, e, by simp, hs⟩
      · cases h

theorem indexFrom_none {s : S} {l : List (List S)} {i : Nat} :
    indexFrom s i l = none ↔ s ∉ l.flatten := by
  induction l generalizing i with
  | nil => simp [indexFrom]
  | cons e rest ih =>
    unfold indexFrom
    rw [List.flatten_cons, List.mem_append]
    split
    · rename_i k hk
      have : s ∈ rest.flatten := by
        by_contra hc
        rw [ih.2 hc] at hk
        cases hk
      simp [this]
    · rename_i hk
      have := ih.1 hk
      split <;> simp_all

theorem mem_flatten_get {order : List (List S)} {i : Nat} {e : List S} {s : S}
    (h : order[i]? = some e) (hs : s ∈ e) : s ∈ order.flatten :=
  List.mem_flatten.2 ⟨e, List.mem_of_getElem? h, hs⟩

/-- Two positions of a stage in a duplicate free schedule are equal. -/
theorem position_unique {order : List (List S)} (hnd : order.flatten.Nodup) {i j : Nat}
    {e e' : List S} {s : S} (hi : order[i]? = some e) (hj : order[j]? = some e')
    (hs : s ∈ e) (hs' : s ∈ e') : i = j := by
  induction order generalizing i j with
  | nil => simp at hi
  | cons f rest ih =>
    rw [List.flatten_cons, List.nodup_append] at hnd
    obtain ⟨-, hnd2, hdis⟩ := hnd
    cases i with
    | zero =>
      cases j with
      | zero => rfl
      | succ j =>
        simp only [List.getElem?_cons_zero, Option.some.injEq] at hi
        subst hi
        simp only [List.getElem?_cons_succ] at hj
        exact absurd rfl (hdis s hs s (mem_flatten_get hj hs'))
    | succ i =>
      cases j with
      | zero =>
        simp only [List.getElem?_cons_zero, Option.some.injEq] at hj
        subst hj
        simp only [List.getElem?_cons_succ] at hi
        exact absurd rfl (hdis s hs' s (mem_flatten_get hi hs))
      | succ j =>
        simp only [List.getElem?_cons_succ] at hi hj
        rw [ih hnd2 hi hj]

theorem indexOf_iff {order : List (List S)} (hnd : order.flatten.Nodup) {s : S} {i : Nat} :
    indexOf order s = some i ↔ ∃ e, order[i]? = some e ∧ s ∈ e := by
  constructor
  · intro h
    obtain ⟨-, h⟩ := indexFrom_some h
    simpa using h
  · rintro ⟨e, he, hs⟩
    cases h : indexOf order s with
    | none => exact absurd (mem_flatten_get he hs) (indexFrom_none.1 h)
    | some j =>
      obtain ⟨-, e', he', hs'⟩ := indexFrom_some h
      rw [position_unique hnd he (by simpa using he') hs hs']

theorem mem_drop_flatten {order : List (List S)} (hnd : order.flatten.Nodup) {i j : Nat}
    {e : List S} {s : S} (h : order[j]? = some e) (hs : s ∈ e) :
    s ∈ (order.drop i).flatten ↔ i ≤ j := by
  rw [List.mem_flatten]
  constructor
  · rintro ⟨e', he', hs'⟩
    obtain ⟨k, hk⟩ := List.getElem?_of_mem he'
    rw [List.getElem?_drop] at hk
    have := position_unique hnd h hk hs hs'
    omega
  · intro hij
    refine ⟨e, ?_, hs⟩
    apply List.mem_of_getElem? (i := j - i)
    rw [List.getElem?_drop]
    rwa [show i + (j - i) = j from by omega]

/-! ### The invariant -/

/-- Invariant of every reachable runner state. -/
structure Inv (P : Pipeline S N V E) (st : State S N V E) : Prop where
  len : st.data.length = st.cur + 1
  le : st.cur ≤ P.order.length
  done : ∀ (j : Nat) e, j < st.cur → P.order[j]? = some e → ∀ s ∈ e, st.ran s = true
  later : ∀ (j : Nat) e, st.cur < j → P.order[j]? = some e → ∀ s ∈ e, st.ran s = false
  same : ∀ j : Nat, j < st.cur → st.data[j]? = some st.avail
  availLt : st.avail < st.next
  dataLt : ∀ r ∈ st.data, r < st.next
  flagged : ∀ s, st.ran s = true → Succeeded st.calls s

theorem Inv.init (P : Pipeline S N V E) : Inv P (State.init : State S N V E) where
  len := rfl
  le := Nat.zero_le _
  done := by intro j e h; simp [State.init] at h
  later := by intros; rfl
  same := by intro j h; simp [State.init] at h
  availLt := by simp [State.init]
  dataLt := by simp [State.init]
  flagged := by intro s h; simp [State.init] at h

/-- The state after rolling back to `i`, when the dictionaries are all the same object. -/
def back (P : Pipeline S N V E) (st : State S N V E) (i : Nat) : State S N V E :=
  { st with
    cur := i
    data := st.data.take (i + 1)
    ran := fun t => if t ∈ (P.order.drop (i + 1)).flatten then false else st.ran t }

theorem Inv.back {P : Pipeline S N V E} (hnd : P.order.flatten.Nodup) {st : State S N V E}
    (h : Inv P st) {i : Nat} (hi : i ≤ st.cur) : Inv P (back P st i) where
  len := by
    have := h.len
    simp only [Runner.back, List.length_take]
    omega
  le := by
    have := h.le
    simp only [Runner.back]
    omega
  done := by
    intro j e hj he s hs
    simp only [Runner.back] at hj ⊢
    rw [if_neg, h.done j e (by omega) he s hs]
    rw [mem_drop_flatten hnd he hs]
    omega
  later := by
    intro j e hj he s hs
    simp only [Runner.back] at hj ⊢
    rw [if_pos]
    rw [mem_drop_flatten hnd he hs]
    omega
  same := by
    intro j hj
    simp only [Runner.back] at hj ⊢
    rw [List.getElem?_take, if_pos (by omega), h.same j (by omega)]
  availLt := h.availLt
  dataLt := fun r hr => h.dataLt r (List.mem_of_mem_take hr)
  flagged := by
    intro s hs
    simp only [Runner.back] at hs ⊢
    split at hs
    · cases hs
    · exact h.flagged s hs

theorem rollback_eq {P : Pipeline S N V E} {st : State S N V E} (h : Inv P st) {i : Nat}
    (hi : i < st.cur) : rollback P st i = some (back P st i) := by
  unfold rollback
  rw [h.same i hi]
  rfl

theorem back_cur {P : Pipeline S N V E} (hnd : P.order.flatten.Nodup) {st : State S N V E}
    (h : Inv P st) : back P st st.cur = st := by
  unfold back
  have h1 : st.data.take (st.cur + 1) = st.data := List.take_of_length_le (Nat.le_of_eq h.len)
  have h2 : (fun t => if t ∈ (P.order.drop (st.cur + 1)).flatten then false else st.ran t) =
      st.ran := by
    funext t
    split
    · rename_i ht
      obtain ⟨e, he, hte⟩ := List.mem_flatten.1 ht
      obtain ⟨k, hk⟩ := List.getElem?_of_mem he
      rw [List.getElem?_drop] at hk
      exact (h.later _ e (by omega) hk t hte).symm
    · rfl
  rw [h1, h2]

/-- `run_stage` for a stage that is not ahead of the schedule. -/
theorem runStage_le {P : Pipeline S N V E} (hnd : P.order.flatten.Nodup) {st : State S N V E}
    (h : Inv P st) {s : S} {i : Nat} (hs : indexOf P.order s = some i) (hi : i ≤ st.cur)
    (kw : List (N × V)) : runStage P st s kw = execute P (back P st i) s kw := by
  unfold runStage
  rw [hs]
  simp only
  rw [if_neg (by omega)]
  split
  · rw [rollback_eq h (by omega)]
  · rename_i hc
    have : i = st.cur := by simpa using hc
    rw [this, back_cur hnd h]

theorem runStage_gt {P : Pipeline S N V E} {st : State S N V E}
    {s : S} {i : Nat} (hs : indexOf P.order s = some i) (hi : st.cur < i)
    (kw : List (N × V)) : runStage P st s kw = (.error .stageRunning, st) := by
  unfold runStage
  rw [hs]
  simp only
  rw [if_pos hi]

theorem runStage_unknown {P : Pipeline S N V E} {st : State S N V E}
    {s : S} (hs : indexOf P.order s = none) (kw : List (N × V)) :
    runStage P st s kw = (.error .unknownStage, st) := by
  unfold runStage
  rw [hs]

/-! ### One execution -/

/-- Everything that is known about a successful execution of a stage of the current
element. -/
structure ExecOK (P : Pipeline S N V E) (st : State S N V E) (s : S) (e : List S) (vs : List V)
    (out : List (N × V)) (st' : State S N V E) : Prop where
  inv : Inv P st'
  avail : st'.avail = st.avail
  args : st'.args = override st.args out
  heap : ∀ r, r < st.next → r ≠ st.avail → st'.heap r = st.heap r
  next : st.next ≤ st'.next
  calls : st'.calls = st.calls ++ [⟨s, vs, .ok out⟩]
  ran : st'.ran = fun t => if t = s then true else st.ran t
  cur : st'.cur = if e.all st'.ran then st.cur + 1 else st.cur

theorem execute_missing {P : Pipeline S N V E} {st : State S N V E} {s : S}
    {kw : List (N × V)} {n : N}
    (h : (P.fields s).find? (fun n => (override st.args kw n).isNone) = some n) :
    execute P st s kw = (.error (.missingArgument n), st) := by
  unfold execute
  rw [collect_eq, putAll_eq, h]

theorem execute_error {P : Pipeline S N V E} {st : State S N V E} {s : S}
    {kw : List (N × V)} {e : E}
    (h : (P.fields s).find? (fun n => (override st.args kw n).isNone) = none)
    (hr : P.run st.calls.length s ((P.fields s).filterMap (override st.args kw)) = .error e) :
    execute P st s kw = (.error (.stage e), { st with
      calls := st.calls ++ [⟨s, (P.fields s).filterMap (override st.args kw), .error e⟩] }) := by
  unfold execute
  rw [collect_eq, putAll_eq, h]
  simp only [hr]

theorem execute_ok {P : Pipeline S N V E} (hnd : P.order.flatten.Nodup) {st : State S N V E}
    (hI : Inv P st) {s : S} {kw : List (N × V)} {out : List (N × V)} {e : List S}
    (he : P.order[st.cur]? = some e) (hs : s ∈ e)
    (h : (P.fields s).find? (fun n => (override st.args kw n).isNone) = none)
    (hr : P.run st.calls.length s ((P.fields s).filterMap (override st.args kw)) = .ok out) :
    ∃ st', execute P st s kw = (.ok out, st') ∧
      ExecOK P st s e ((P.fields s).filterMap (override st.args kw)) out st' := by
  have hlen := hI.len
  have hcur : st.cur < P.order.length := (List.getElem?_eq_some_iff.1 he).1
  have hsucc : ∀ t, (if t = s then true else st.ran t) = true → Succeeded
      (st.calls ++ [⟨s, (P.fields s).filterMap (override st.args kw), .ok out⟩]) t := by
    intro t ht
    by_cases hts : t = s
    · exact ⟨_, List.mem_append_right _ (List.mem_singleton.2 rfl), hts.symm, _, rfl⟩
    · rw [if_neg hts] at ht
      obtain ⟨ev, hev, h1, h2⟩ := hI.flagged t ht
      exact ⟨ev, List.mem_append_left _ hev, h1, h2⟩
  unfold execute
  rw [collect_eq, putAll_eq, h]
  simp only [hr]
  simp only [hlen, Nat.lt_succ_self, if_true]
  unfold progress
  simp only [he]
  by_cases hall : (e.all fun t => if t = s then true else st.ran t) = true
  · rw [if_pos hall, if_pos (by simp [hlen])]
    refine ⟨_, rfl, ?_⟩
    refine ⟨⟨?_, ?_, ?_, ?_, ?_, ?_, ?_, ?_⟩, rfl, ?_, ?_, ?_, rfl, rfl, ?_⟩
    · simp [hlen]
    · simp only; omega
    · intro j f hj hf t ht
      simp only at hj ⊢
      by_cases hjc : j = st.cur
      · subst hjc
        rw [he] at hf
        cases hf
        exact List.all_eq_true.1 hall t ht
      · rw [hI.done j f (by omega) hf t ht]
        simp
    · intro j f hj hf t ht
      simp only at hj ⊢
      rw [hI.later j f (by omega) hf t ht, if_neg]
      rintro rfl
      have := position_unique hnd hf he ht hs
      omega
    · intro j hj
      simp only at hj ⊢
      rw [List.getElem?_append_left (by simp [hlen]; omega)]
      simp only [List.set_set]
      by_cases hjc : j = st.cur
      · subst hjc
        rw [List.getElem?_set_self (by omega)]
      · rw [List.getElem?_set_ne (by omega), hI.same j (by omega)]
    · have := hI.availLt; simp only; omega
    · intro r hr
      simp only [List.set_set, List.mem_append, List.mem_singleton] at hr ⊢
      rcases hr with hr | rfl
      · have := hI.availLt
        rcases List.mem_or_eq_of_mem_set hr with hr | rfl
        · have := hI.dataLt r hr; omega
        · omega
      · omega
    · exact hsucc
    · have : st.avail ≠ st.next := by have := hI.availLt; omega
      simp only [State.args, if_neg this, if_true]
      rw [putAll_eq]
    · intro r hr hra
      have : r ≠ st.next := by omega
      simp only [if_neg this, if_neg hra]
    · simp
    · exact (if_pos hall).symm
  · rw [if_neg hall]
    refine ⟨_, rfl, ?_⟩
    refine ⟨⟨?_, hI.le, ?_, ?_, ?_, hI.availLt, ?_, ?_⟩, rfl, ?_, ?_, Nat.le_refl _, rfl, rfl, ?_⟩
    · simp [hlen]
    · intro j f hj hf t ht
      simp only at hj ⊢
      rw [hI.done j f (by omega) hf t ht]
      simp
    · intro j f hj hf t ht
      simp only at hj ⊢
      rw [hI.later j f (by omega) hf t ht, if_neg]
      rintro rfl
      have := position_unique hnd hf he ht hs
      omega
    · intro j hj
      simp only at hj ⊢
      rw [List.getElem?_set_ne (by omega), hI.same j (by omega)]
    · intro r hr
      simp only at hr ⊢
      have := hI.availLt
      rcases List.mem_or_eq_of_mem_set hr with hr | rfl
      · exact hI.dataLt r hr
      · exact this
    · exact hsucc
    · simp only [State.args, if_true]
      rw [putAll_eq]
    · intro r hr hra
      simp only [if_neg hra]
    · exact (if_neg hall).symm

/-- A generator that has stopped or raised is finished. -/
theorem genNext_end {P : Pipeline S N V E} {st st' : State S N V E} {g g' : Gen S N V}
    {o : GenOut S N V E} (h : genNext P st g = (o, g', st'))
    (ho : ∀ s out, o ≠ .yields s out) : g' = .finished := by
  have hloop : ∀ (st : State S N V E) (l : List S), genLoop P st l = (o, g', st') → g' = .finished := by
    intro st l hl
    cases l with
    | nil =>
      simp only [genLoop, Prod.mk.injEq] at hl
      exact hl.2.1.symm
    | cons s ss =>
      simp only [genLoop] at hl
      split at hl
      · simp only [Prod.mk.injEq] at hl
        exact hl.2.1.symm
      · simp only [Prod.mk.injEq] at hl
        exact absurd hl.1.symm (ho _ _)
  cases g with
  | created args =>
    simp only [genNext] at h
    split at h
    · simp only [Prod.mk.injEq] at h
      exact h.2.1.symm
    · exact hloop _ _ h
  | suspended rest => exact hloop _ _ h
  | finished =>
    simp only [genNext, Prod.mk.injEq] at h
    exact h.2.1.symm

theorem foldl_next_finished (P : Pipeline S N V E) (k m : Nat) (w : World S N V E)
    (hk : w.gens[k]? = some .finished) :
    ((List.replicate m (Op.next k)).foldl (step P) w).st = w.st := by
  induction m generalizing w with
  | zero => rfl
  | succ m ih =>
    rw [List.replicate_succ, List.foldl_cons]
    have hlt : k < w.gens.length := (List.getElem?_eq_some_iff.1 hk).1
    rw [ih]
    · simp only [step, hk, genNext]
    · simp only [step, hk, genNext]
      rw [List.getElem?_set_self hlt]

/-- Calling `next` often enough consumes the generator. -/
theorem foldl_next {P : Pipeline S N V E} {st st' : State S N V E} {g : Gen S N V}
    {ys : List (S × List (N × V))} {res : Except (RunError N E) Nat}
    (h : Consumes P st g ys res st') {k m : Nat} (w : World S N V E)
    (hk : w.gens[k]? = some g) (hst : w.st = st) (hm : ys.length < m) :
    ((List.replicate m (Op.next k)).foldl (step P) w).st = st' := by
  induction h generalizing w m with
  | @stops st g ref g' st' hg =>
    obtain ⟨m, rfl⟩ : ∃ n, m = n + 1 := ⟨m - 1, by omega⟩
    have hlt : k < w.gens.length := (List.getElem?_eq_some_iff.1 hk).1
    have hfin := genNext_end hg (by simp)
    rw [List.replicate_succ, List.foldl_cons, foldl_next_finished]
    · simp only [step, hk, hst, hg]
    · simp only [step, hk, hst, hg]
      rw [List.getElem?_set_self hlt, hfin]
  | @raises st g e g' st' hg =>
    obtain ⟨m, rfl⟩ : ∃ n, m = n + 1 := ⟨m - 1, by omega⟩
    have hlt : k < w.gens.length := (List.getElem?_eq_some_iff.1 hk).1
    have hfin := genNext_end hg (by simp)
    rw [List.replicate_succ, List.foldl_cons, foldl_next_finished]
    · simp only [step, hk, hst, hg]
    · simp only [step, hk, hst, hg]
      rw [List.getElem?_set_self hlt, hfin]
  | @yields st g s out g' st' ys res st'' hg _ ih =>
    obtain ⟨m, rfl⟩ : ∃ n, m = n + 1 := ⟨m - 1, by omega⟩
    have hlt : k < w.gens.length := (List.getElem?_eq_some_iff.1 hk).1
    rw [List.replicate_succ, List.foldl_cons]
    apply ih
    · simp only [step, hk, hst, hg]
      rw [List.getElem?_set_self hlt]
    · simp only [step, hk, hst, hg]
    · simp only [List.length_cons] at hm
      omega

end Verif.Runner
