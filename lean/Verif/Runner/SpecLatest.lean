import Verif.Runner.Model
/-!
# The most recent value of an argument

Stated about a list of stage executions (who ran, what came out) and the initial values.
-/
set_option autoImplicit false

namespace Verif.Runner

variable {S N V E : Type}

/-- The execution succeeded and returned a value under the name `n`. -/
def Event.Wrote (ev : Event S N V E) (n : N) : Prop :=
  ∃ out, ev.result = .ok out ∧ n ∈ out.map Prod.fst

/-- The last pair with the name `n` in a result is `(n, v)`. -/
def LastPair (out : List (N × V)) (n : N) (v : V) : Prop :=
  ∃ pre post, out = pre ++ (n, v) :: post ∧ n ∉ post.map Prod.fst

/-- `v` is the most recent value of `n`: the last execution that returned something under `n`
returned `v`, or no execution did and `v` is the initial value. -/
def Latest (init : Dict N V) (evs : List (Event S N V E)) (n : N) (v : V) : Prop :=
  (∃ pre ev post out, evs = pre ++ ev :: post ∧ ev.result = .ok out ∧ LastPair out n v ∧
    ∀ e ∈ post, ¬ e.Wrote n) ∨
  ((∀ e ∈ evs, ¬ e.Wrote n) ∧ init n = some v)

end Verif.Runner
