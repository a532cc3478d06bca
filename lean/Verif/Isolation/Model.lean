/-!
# Objects, deep copies and stages that write in place

Python values are references to mutable objects.  An object has a payload (the numbers, strings,
class, ...) and an ordered list of references to other objects.  Simplifications: immutable
objects are treated like mutable ones (copying them is harmless), and classes with their own
`__deepcopy__` are assumed to copy everything they own.
-/
set_option autoImplicit false

namespace Verif.Isolation

/-- A Python object as far as `copy.deepcopy` is concerned; stage_runner.py:155. -/
structure Obj where
  data : Nat
  refs : List Nat
  deriving DecidableEq, Repr

/-- The memory: objects live at the addresses below `next`; stage_runner.py:155. -/
structure Heap where
  next : Nat
  obj : Nat → Obj

/-- The order in which `deepcopy` meets objects: depth first, an object already in the memo is
not entered again; stage_runner.py:155.  `seen` holds the memo, newest first. -/
def visit (h : Heap) (stack seen : List Nat) : List Nat :=
  match stack with
  | [] => seen
  | a :: rest =>
    if a ∈ seen ∨ h.next ≤ a then visit h rest seen
    else visit h ((h.obj a).refs ++ rest) (a :: seen)
  termination_by (((List.range h.next).filter (· ∉ seen)).length, stack.length)
  decreasing_by
    · exact Prod.Lex.right _ (by simp)
    · rename_i hc
      simp only [not_or, Nat.not_le] at hc
      refine Prod.Lex.left _ _ ?_
      have h1 : (List.range h.next).filter (fun x => decide (x ∉ a :: seen)) =
          ((List.range h.next).filter (fun x => decide (x ∉ seen))).filter (· ≠ a) := by
        rw [List.filter_filter]
        congr 1
        funext x
        simp [not_or]
      rw [h1]
      apply List.length_filter_lt_length_iff_exists.2
      exact ⟨a, by simp [hc], by simp⟩

/-- The objects copied by `deepcopy` of a tuple of the given references, in order of creation;
stage_runner.py:155. -/
def copied (h : Heap) (roots : List Nat) : List Nat := (visit h roots []).reverse

/-- The address of the copy of `a`; stage_runner.py:155. -/
def rename (h : Heap) (roots : List Nat) (a : Nat) : Nat := h.next + (copied h roots).idxOf a

/-- `deepcopy(inputs)`, stage_runner.py:155: the memory afterwards and the references in the
copied tuple. -/
def deepcopy (h : Heap) (roots : List Nat) : Heap × List Nat :=
  ({ next := h.next + (copied h roots).length
     obj := fun b =>
       if b < h.next then h.obj b
       else match (copied h roots)[b - h.next]? with
         | some a => ⟨(h.obj a).data, (h.obj a).refs.map (rename h roots)⟩
         | none => ⟨0, []⟩ },
   roots.map (rename h roots))

/-- The code of a stage: it gets the memory and references to its inputs, and leaves a changed
memory and references to its outputs, or raises (`none`); stage_runner.py:155. -/
abbrev Body := Heap → List Nat → Heap × Option (List Nat)

/-- A runner and its caller: the memory and the references they hold by name (the dictionary of
available arguments, the caller's variables); stage_runner.py:34-50. -/
structure Mem (N : Type) where
  heap : Heap
  held : N → Option Nat

/-- What can happen: a stage runs on the values of some names and its outputs are stored under
names (stage_runner.py:144-158; it is not run when a name is missing), or the caller makes a new
object out of objects it holds. -/
inductive Op (N : Type)
  | stage (body : Body) (fields : List N) (outs : List N)
  | new (name : N) (data : Nat) (refs : List N)

/-- Storing the outputs, stage_runner.py:157-158. -/
def store {N : Type} [DecidableEq N] (held : N → Option Nat) : List (N × Nat) → N → Option Nat
  | [] => held
  | (n, a) :: rest => store (fun m => if m = n then some a else held m) rest

/-- Looking up several names, stage_runner.py:146-150; `none` is the `KeyError`. -/
def lookups {N : Type} (held : N → Option Nat) : List N → Option (List Nat)
  | [] => some []
  | n :: ns =>
    match held n, lookups held ns with
    | some a, some as => some (a :: as)
    | _, _ => none

/-- One step, stage_runner.py:140-158. -/
def step {N : Type} [DecidableEq N] (m : Mem N) : Op N → Mem N
  | .stage body fields outs =>
    match lookups m.held fields with
    | none => m
    | some roots =>
      let c := deepcopy m.heap roots
      let r := body c.1 c.2
      match r.2 with
      | none => { m with heap := r.1 }
      | some vs => { heap := r.1, held := store m.held (outs.zip vs) }
  | .new name data refs =>
    match lookups m.held refs with
    | none => m
    | some rs =>
      { heap := { next := m.heap.next + 1
                  obj := fun b => if b = m.heap.next then ⟨data, rs⟩ else m.heap.obj b }
        held := fun n => if n = name then some m.heap.next else m.held n }

end Verif.Isolation
