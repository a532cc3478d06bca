import Mathlib.Data.List.Basic
/-!
# How Python hands values from one function to the next

Calls, tuple unpackings and constructors of the stages (stages/*.py), reduced to names: which expression
of the caller becomes which parameter of the callee.  Expressions are kept as they are written.
-/
set_option autoImplicit false

namespace Verif.Wiring

/-- An argument as it is written at a call, e.g. stages/prelim.py:240-249: a variable or attribute of
`inputs` or `self`, or another expression with the variables it reads. -/
inductive Expr
  | var (name : String)
  | app (text : String) (reads : List String)
  deriving DecidableEq, Repr

/-- The parameters of a function without `self`, e.g. stages/prelim.py:318-327, or the fields of a
NamedTuple, e.g. stages/prelim.py:66-154; `optional` are those with a default. -/
structure Sig where
  params : List String
  optional : List String
  deriving DecidableEq, Repr

/-- The arguments of a call, e.g. stages/sifted.py:369-386: by position and by keyword. -/
structure Args where
  pos : List Expr
  kw : List (String × Expr)
  deriving DecidableEq, Repr

/-- Local variables with their values; a missing one is an unbound local (e.g. of
stages/prelim.py:216-313). -/
abbrev Frame (V : Type) := String → Option V

/-- Python's binding of arguments to parameters, as for the calls stages/sifted.py:369-386: positions
first, then keywords; `none` stands for the `TypeError` raised for too many, unknown, repeated or
missing arguments. -/
def bindArgs (s : Sig) (a : Args) : Option (List (String × Expr)) :=
  let taken := s.params.take a.pos.length
  let keys := a.kw.map Prod.fst
  if a.pos.length ≤ s.params.length
      ∧ keys.Nodup
      ∧ (∀ k ∈ keys, k ∈ s.params ∧ k ∉ taken)
      ∧ (∀ q ∈ s.params, q ∈ taken ∨ q ∈ keys ∨ q ∈ s.optional) then
    some (s.params.zip a.pos ++ a.kw)
  else none

/-- The value of an expression; `I` says what the other expressions compute from the variables they
read (e.g. stages/sifted.py:687, `[feat_labels[i] for i in selvars]`). -/
def Expr.eval {V : Type} (I : String → List (Option V) → Option V) (f : Frame V) : Expr → Option V
  | .var n => f n
  | .app t vs => I t (vs.map f)

/-- Names with the values of the expressions given for them, e.g. the attributes set by
stages/trace.py:233-239. -/
def valuesOf {V : Type} (I : String → List (Option V) → Option V) (b : List (String × Expr))
    (f : Frame V) : List (String × Option V) :=
  b.map fun p => (p.1, p.2.eval I f)

/-- A call, e.g. stages/sifted.py:369-386: the parameters of the callee with their values. -/
def call {V : Type} (I : String → List (Option V) → Option V) (s : Sig) (a : Args) (f : Frame V) :
    Option (List (String × Option V)) :=
  (bindArgs s a).map fun b => valuesOf I b f

/-- The local variables a function starts with: its parameters, then the attributes of its object, e.g.
stages/prelim.py:584-589 with 196-203. -/
def start {V : Type} (bound : List (String × Option V)) : Frame V := fun q => (bound.lookup q).join

/-- Run the rest of a function (e.g. stages/sifted.py:541-711), which can only change the names it
assigns to. -/
def after {V : Type} (assigned : List String) (body : Frame V → Frame V) (f : Frame V) : Frame V :=
  fun q => if q ∈ assigned then body f q else f q

/-- Assign a returned tuple to a list of targets, e.g. stages/prelim.py:218-238; `none` stands for the
`ValueError` raised for a wrong number of values. -/
def unpack {V : Type} (I : String → List (Option V) → Option V) (targets : List String)
    (values : List Expr) (callee caller : Frame V) : Option (Frame V) :=
  if targets.length = values.length then
    some fun q => match (targets.zip values).reverse.lookup q with
      | some e => e.eval I callee
      | none => caller q
  else none

end Verif.Wiring
