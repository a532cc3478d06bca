import Verif.Runner.PropsBuilt
/-!
# Specification of what a change in some stages can reach (C225)
-/
set_option autoImplicit false

namespace Verif.Runner

open Verif.Builder

variable {S N T V E : Type}

/-- The names that a change can reach, if it is made in the stages `changed` and in the initial values `given`:
those values, whatever a changed stage returns, and whatever is returned by a stage that reads a name that can be
reached. -/
inductive Reached (B : Builder S (N × T)) (changed : S → Prop) (given : N → Prop) : N → Prop
  | initial {n : N} (h : given n) : Reached B changed given n
  | own {s : S} {a : N × T} (h : changed s) (ha : a ∈ B.outs s) : Reached B changed given a.1
  | read {s : S} {a b : N × T} (hb : b ∈ B.ins s) (h : Reached B changed given b.1) (ha : a ∈ B.outs s) :
    Reached B changed given a.1

/-- The stages that are changed, or read something that the change can reach. -/
def Touched (B : Builder S (N × T)) (changed : S → Prop) (given : N → Prop) (s : S) : Prop :=
  changed s ∨ ∃ b ∈ B.ins s, Reached B changed given b.1

/-- In a run of these stages on `d`, after `k` executions, the stages before `s` complete and `s` raises `x`. -/
def RaisedBy [DecidableEq N] (P : Pipeline S N V E) (k : Nat) (stages : List S) (d : Dict N V) (s : S)
    (x : RunError N E) : Prop :=
  ∃ before after e, stages = before ++ s :: after ∧ applyAll P k before d = .ok e ∧
    applyStage P (k + before.length) s e = .error x

end Verif.Runner
