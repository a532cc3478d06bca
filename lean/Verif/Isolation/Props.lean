import Verif.Isolation.Lemmas
import Mathlib.Data.List.Forall2
/-!
# Property C19: stages work on copies
-/
set_option autoImplicit false
set_option linter.unusedSectionVars false

namespace Verif.Isolation

variable {N : Type} [DecidableEq N]

/-! ### A concrete memory

Object 0 is an array, object 1 a list holding the array twice, object 2 a list holding itself and
the array.  The runner holds 0 as `"y"`, 1 as `"pair"`, 2 as `"loop"`. -/

def demoHeap : Heap where
  next := 3
  obj := fun a => match a with
    | 0 => ⟨41, []⟩
    | 1 => ⟨1, [0, 0]⟩
    | 2 => ⟨2, [2, 0]⟩
    | _ => ⟨0, []⟩

def demoMem : Mem String :=
  ⟨demoHeap, fun n => if n = "y" then some 0 else if n = "pair" then some 1
    else if n = "loop" then some 2 else none⟩

theorem demoMem_wf : demoMem.WF := by
  constructor
  · intro a ha b hb
    have : a = 0 ∨ a = 1 ∨ a = 2 := by
      have : a < 3 := ha
      omega
    rcases this with rfl | rfl | rfl <;> revert b <;> decide
  · intro n a h
    simp only [demoMem] at h ⊢
    have : a < 3 := by
      split at h
      · cases h; decide
      · split at h
        · cases h; decide
        · split at h
          · cases h; decide
          · cases h
    exact this

/-- A stage that overwrites the first input with a zero and returns it. -/
def zeroing : Body := fun h roots =>
  match roots with
  | [] => (h, none)
  | r :: _ => ({ h with obj := fun a => if a = r then ⟨0, []⟩ else h.obj a }, some [r])

theorem zeroing_confined : Confined zeroing := by
  intro h roots hw hr
  match roots, hr with
  | [], _ => exact ⟨hw, Nat.le_refl _, fun _ _ _ => rfl, fun vs h => by cases h⟩
  | r :: rs, hr =>
    refine ⟨?_, Nat.le_refl _, ?_, ?_⟩
    · intro a ha b hb
      simp only [zeroing] at ha hb ⊢
      split at hb
      · simp at hb
      · exact hw a ha b hb
    · intro a _ hn
      simp only [zeroing]
      rw [if_neg]
      rintro rfl
      exact hn (.root List.mem_cons_self)
    · intro vs h a ha
      cases h
      simp only [List.mem_singleton] at ha
      subst ha
      exact hr a List.mem_cons_self

/-! ### C19 -/

/-- **C19.** Let any history happen: stages that write only what they can reach from their
inputs run on any held values, succeed or raise, their outputs are stored, the caller makes new
objects.  Then everything that existed at the beginning, in particular every stored value and
every object of the caller, keeps its contents to every depth. -/
theorem C19_isolation (m : Mem N) (hm : m.WF) (ops : List (Op N))
    (hc : ∀ op ∈ ops, OpConfined op) :
    (∀ n a, m.held n = some a → ∀ depth, view (ops.foldl step m).heap depth a = view m.heap depth a) ∧
    ∀ a < m.heap.next, ∀ depth, view (ops.foldl step m).heap depth a = view m.heap depth a := by
  obtain ⟨-, -, h3⟩ := steps_frame ops hm hc
  have hall : ∀ a < m.heap.next, ∀ depth,
      view (ops.foldl step m).heap depth a = view m.heap depth a :=
    fun a ha depth => view_congr hm.1 h3 depth a ha
  exact ⟨fun n a h => hall a (hm.2 n a h), hall⟩

/-- **C19 at every moment.** What is held at any moment of a history keeps its contents during
the rest of the history. -/
theorem C19_always (m : Mem N) (hm : m.WF) (before after : List (Op N))
    (hc : ∀ op ∈ before ++ after, OpConfined op) (n : N) (a : Nat)
    (ha : (before.foldl step m).held n = some a) (depth : Nat) :
    view ((before ++ after).foldl step m).heap depth a =
      view (before.foldl step m).heap depth a := by
  have h1 := steps_frame before hm fun op ho => hc op (List.mem_append_left _ ho)
  rw [List.foldl_append]
  exact (C19_isolation _ h1.1 after fun op ho => hc op (List.mem_append_right _ ho)).1 n a ha depth

/-- **C19, the stage sees the stored values.** The copies given to a stage have the contents of
the stored objects to every depth, two inputs are the same object exactly when the stored ones
are, and nothing that existed before can be reached from them. -/
theorem C19_faithful_copy (h : Heap) (hw : h.WF) (roots : List Nat) (hr : ∀ a ∈ roots, a < h.next) :
    List.Forall₂ (fun a b => ∀ depth, view (deepcopy h roots).1 depth b = view h depth a) roots
      (deepcopy h roots).2 ∧
    (∀ (i j : Nat) (a b a' b' : Nat), roots[i]? = some a → roots[j]? = some b →
      (deepcopy h roots).2[i]? = some a' → (deepcopy h roots).2[j]? = some b' →
      (a' = b' ↔ a = b)) ∧
    ∀ b, Reach (deepcopy h roots).1 (deepcopy h roots).2 b → h.next ≤ b := by
  refine ⟨?_, ?_, ?_⟩
  · have : ∀ l : List Nat, (∀ a ∈ l, a ∈ copied h roots) →
        List.Forall₂ (fun a b => ∀ depth, view (deepcopy h roots).1 depth b = view h depth a) l
          (l.map (rename h roots)) := by
      intro l hl
      induction l with
      | nil => exact .nil
      | cons a l ih =>
        exact .cons (fun depth => view_copy hw depth a (hl a List.mem_cons_self))
          (ih fun b hb => hl b (List.mem_cons_of_mem _ hb))
    exact this roots fun a ha => copied_root ha (hr a ha)
  · intro i j a b a' b' ha hb ha' hb'
    simp only [deepcopy, List.getElem?_map, ha, hb, Option.map_some, Option.some.injEq] at ha' hb'
    subst ha' hb'
    have hma := copied_root (List.mem_of_getElem? ha) (hr a (List.mem_of_getElem? ha))
    have hmb := copied_root (List.mem_of_getElem? hb) (hr b (List.mem_of_getElem? hb))
    constructor
    · intro he
      unfold rename at he
      have he : (copied h roots).idxOf a = (copied h roots).idxOf b := by omega
      exact List.idxOf_inj hma |>.1 he
    · rintro rfl; rfl
  · intro b hb
    obtain ⟨a, -, rfl⟩ := reach_copies hw hr hb
    exact Nat.le_add_right _ _

/-- The history: the zeroing stage runs on `"y"` and its output becomes the stored `"z"`; then it
runs on `"z"`. -/
def demoOps : List (Op String) :=
  [.stage zeroing ["y", "pair"] ["z"], .new "w" 7 ["z", "loop"], .stage zeroing ["w"] ["w2"]]

example : ∀ op ∈ demoOps, OpConfined op := by
  intro op ho
  simp only [demoOps, List.mem_cons, List.not_mem_nil, or_false] at ho
  rcases ho with rfl | rfl | rfl
  · exact zeroing_confined
  · trivial
  · exact zeroing_confined

/-- The stage gets copies of the two objects at the new addresses 3 and 4; the shared array is
copied once, and the cycle of object 2 is reproduced. -/
example : copied demoHeap [0, 1] = [0, 1] := by simp [copied, visit, demoHeap]
example : (deepcopy demoHeap [0, 1]).2 = [3, 4] ∧
    (deepcopy demoHeap [0, 1]).1.obj 4 = ⟨1, [3, 3]⟩ := by
  simp [deepcopy, rename, copied, visit, demoHeap, List.idxOf_cons]
example : (deepcopy demoHeap [2]).1.obj 3 = ⟨2, [3, 4]⟩ := by
  simp [deepcopy, rename, copied, visit, demoHeap, List.idxOf_cons]

/-- Without the copy the same stage would corrupt the stored array. -/
example : (zeroing demoHeap [0]).1.obj 0 = ⟨0, []⟩ := rfl

end Verif.Isolation
