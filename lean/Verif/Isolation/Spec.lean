import Verif.Isolation.Model
/-!
# Specification for isolation: contents of objects and what a stage may write
-/
set_option autoImplicit false

namespace Verif.Isolation

/-- `b` can be reached from one of the references by following references. -/
inductive Reach (h : Heap) (roots : List Nat) : Nat → Prop
  | root {a : Nat} : a ∈ roots → Reach h roots a
  | ref {a b : Nat} : Reach h roots a → b ∈ (h.obj a).refs → Reach h roots b

/-- What an observer sees of an object: a tree, cut at some depth. -/
inductive Tree
  | cut
  | node (data : Nat) (children : List Tree)

/-- The contents of an object down to depth `n`. -/
def view (h : Heap) : Nat → Nat → Tree
  | 0, _ => .cut
  | n + 1, a => .node (h.obj a).data ((h.obj a).refs.map (view h n))

/-- Objects refer to existing objects. -/
def Heap.WF (h : Heap) : Prop := ∀ a < h.next, ∀ b ∈ (h.obj a).refs, b < h.next

/-- A stage that changes only objects reachable from its inputs and objects it makes itself, and
returns existing objects. -/
def Confined (body : Body) : Prop :=
  ∀ (h : Heap) (roots : List Nat), h.WF → (∀ a ∈ roots, a < h.next) →
    (body h roots).1.WF ∧ h.next ≤ (body h roots).1.next ∧
    (∀ a < h.next, ¬ Reach h roots a → (body h roots).1.obj a = h.obj a) ∧
    ∀ vs, (body h roots).2 = some vs → ∀ a ∈ vs, a < (body h roots).1.next

/-- Everything that is held exists. -/
def Mem.WF {N : Type} (m : Mem N) : Prop :=
  m.heap.WF ∧ ∀ n a, m.held n = some a → a < m.heap.next

/-- All stages of a history are confined. -/
def OpConfined {N : Type} : Op N → Prop
  | .stage body _ _ => Confined body
  | .new _ _ _ => True

end Verif.Isolation
