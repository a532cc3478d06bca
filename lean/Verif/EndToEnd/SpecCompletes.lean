import Verif.EndToEnd.SpecTrace
import Verif.Prelim.Props
/-!
# Specification of the builds that complete
-/
set_option autoImplicit false

namespace Verif.EndToEnd

open Verif (Num)
open Verif.Pipeline (Stg Name defaultStages buildDefault runner)
open Verif.Metadata (Table Squeezed Begins fromDataFrame)
open Verif.Preprocessing (Mat)
open Verif.Runner (Dict Op exec runAll contents RunError)

variable {V W G : Type}

/-- `r` is the outcome of `run_all` on the metadata made from the table, after any calls of the runner's
methods, with the stages added in any order: an exception, or the output. -/
def Outcome (lower : String → String) (numeric : Squeezed V → Bool) (str : V → V) (num : V → Num)
    (env : Env V W) (t : Table V) (r : Except (RunError Name Err) (Dict Name (Val V W))) : Prop :=
  ∃ (order : List Stg) (π : Builder.SetOrder Stg) (sched : List (List Stg))
    (ops : List (Op Stg Name (Val V W))),
    order.Perm defaultStages ∧ buildDefault order π = .ok sched ∧
    contents (runAll (runner order sched (run env)) (exec (runner order sched (run env)) ops).st
      (args env num (fromDataFrame lower numeric str t))) = r

/-- A table without surprises: three rows, two features, two algorithms; all features and performances are
finite numbers; in no feature one number fills more than half of the rows; each algorithm has two different
performances other than 0. -/
structure Clean (lower : String → String) (num : V → Num) (t : Table V) : Prop where
  rows : 3 ≤ t.nrows
  finite : ∀ c ∈ t.cols, Begins lower "feature_" c.1 ∨ Begins lower "algo_" c.1 →
    ∀ v ∈ c.2, ∃ q, num v = .fin q
  features : ∃ c ∈ t.cols, ∃ c' ∈ t.cols, c.1 ≠ c'.1 ∧ Begins lower "feature_" c.1 ∧
    Begins lower "feature_" c'.1
  algorithms : ∃ c ∈ t.cols, ∃ c' ∈ t.cols, c.1 ≠ c'.1 ∧ Begins lower "algo_" c.1 ∧
    Begins lower "algo_" c'.1
  spread : ∀ c ∈ t.cols, Begins lower "feature_" c.1 → ∀ q : Num, 2 * (c.2.map num).count q ≤ t.nrows
  varied : ∀ c ∈ t.cols, Begins lower "algo_" c.1 → ∃ v ∈ c.2, ∃ w ∈ c.2,
    num v ≠ num w ∧ num v ≠ .fin 0 ∧ num w ≠ .fin 0

/-- `names` are the columns of the kind `Q`, in the order of the table. -/
structure Listed (t : Table V) (Q : String → Prop) (names : List String) : Prop where
  inOrder : names.Sublist (t.cols.map Prod.fst)
  exact : ∀ a, a ∈ names ↔ (∃ c ∈ t.cols, c.1 = a) ∧ Q a

/-- Two entries of a list differ. -/
def Varied {α : Type} (l : List α) : Prop := ∃ a ∈ l, ∃ b ∈ l, a ≠ b

/-- The transformation turns numbers that are not all the same into as many numbers. -/
def Transforms (tr : List Num → List Num) : Prop :=
  ∀ l : List ℚ, Varied l → ∃ l' : List ℚ, tr (l.map .fin) = l'.map .fin ∧ l'.length = l.length

/-- PILOT runs in the numerical mode, with enough starting points and without a pre-calculated `alpha` of
the right shape. -/
structure PilotReady (le : Late V W) : Prop where
  numerical : ∀ n q, (le.pilotOpts n q).analytic = false
  tries : ∀ n q, 1 ≤ (le.pilotOpts n q).nTries
  given : ∀ n q g, (le.pilotOpts n q).x0 = some g → (le.pilotOpts n q).nTries ≤ g.length
  starts : ∀ {p n q : Nat} (x : Matrix (Fin p) (Fin n) ℚ), (le.pilotOpts n q).x0 = none →
    (le.pilotOpts n q).nTries ≤ ((le.pilotLib (q := q) x).starts (le.pilotOpts n q).nTries).length
  alpha : ∀ n q shape values, (le.pilotOpts n q).alpha = some (shape, values) →
    shape ≠ (2 * (n + q) + 2 * n, 1)

/-- What the options and the libraries have to keep to: no selection of features or algorithms, a
transformation that works on numbers that are not all the same, PILOT ready to run, and trained models with a
prediction for each instance. -/
structure Usable (env : Env V W) (le : Nat → Late V W) : Prop where
  allFeatures : env.feats = none
  allAlgorithms : env.algos = none
  transforms : Transforms env.tr
  pilot : ∀ k, PilotReady (le k)
  sized : ∀ k z y b j res, (le k).fitted z y b j = .ok res → Pythia.Sized b.length res

/-- `b` are the verdicts on the performances in the table, a row for each instance and a column for each
algorithm: with an absolute threshold, good is what reaches it, and nothing that is missing; with a relative one
and a positive best performance, what is within the fraction of the best. -/
structure Verdicts (num : V → Num) (o : Prelim.Opts) (t : Table V) (algos : List String)
    (b : List (List Bool)) : Prop where
  rows : b.length = t.nrows
  cols : ∀ r ∈ b, r.length = algos.length
  absolute : o.absPerf = true → ∀ e : ℚ, o.epsilon = .fin e →
    ∀ (i j : Nat) (a : String) (v : V) (q : ℚ), algos[j]? = some a → Cell t a i v → num v = .fin q →
      (At b i j true ↔ if o.maxPerf then e ≤ q else q ≤ e)
  missing : o.absPerf = true → ∀ e : ℚ, o.epsilon = .fin e →
    ∀ (i j : Nat) (a : String) (v : V), algos[j]? = some a → Cell t a i v → num v = .nan → ¬ At b i j true
  relative : o.absPerf = false → ∀ e : ℚ, o.epsilon = .fin e → e < 1 →
    ∀ (i j : Nat) (a : String) (v : V) (best : ℚ), algos[j]? = some a → Cell t a i v →
      BestCell num o.maxPerf t algos i (.fin best) → 0 < best →
      (At b i j true ↔ Prelim.WithinFraction o.maxPerf e best (num v))

/-- Algorithm `j` cannot be trained: its training fails, or only one label occurs among the verdicts and the
cross-validated predictions. -/
def Untrainable (fitted : Nat → Except Pythia.Err Pythia.SvmRes) (b : List (List Bool)) (j : Nat) : Prop :=
  ∀ res, fitted j = .ok res → ∃ v, (∀ r ∈ b, r[j]? = some v) ∧ ∀ w ∈ res.ySub, w = v

/-- `p` are the winners on the performances in the table: for each instance the number, from 1, of the first
algorithm with the best performance; a best performance 0 in minimising a relative measure is left out. -/
structure Winners (num : V → Num) (o : Prelim.Opts) (t : Table V) (algos : List String) (p : List Nat) :
    Prop where
  rows : p.length = t.nrows
  first : ∀ (i : Nat) (b : ℚ), BestCell num o.maxPerf t algos i (.fin b) →
    (o.maxPerf = true ∨ o.absPerf = true ∨ b ≠ 0) →
    ∃ j a v, p[i]? = some (j + 1) ∧ algos[j]? = some a ∧ Cell t a i v ∧ num v = .fin b ∧
      ∀ (j' : Nat) a' v', j' < j → algos[j']? = some a' → Cell t a' i v' → num v' ≠ .fin b

/-- Two of the best footprints of `n` algorithms on `m` instances overlap in a region with more instances of one
algorithm than of the other.  With the experimental data, `p` says who is best. -/
def Clash (te : TraceEnv G) (n m : Nat) (p : List Nat) : Prop :=
  ∃ (z : List (Fin 2 → ℚ)) (best : List Nat) (i j : Nat) (b t : G), z.length = m ∧ best.length = m ∧
    (te.useSim = false → best = p) ∧ i < j ∧ j < n ∧
    (Trace.build te.geo te.purity z (Trace.bestMask best i)).polygon = some b ∧
    (Trace.build te.geo te.purity z (Trace.bestMask best j)).polygon = some t ∧
    Trace.Conflict te.geo z b t (Trace.bestMask best i) (Trace.bestMask best j)

end Verif.EndToEnd
