import Verif.Pythia.Model
/-!
# What the training of one algorithm is given

The whole of `PythiaStage.pythia` after the normalisation: the weights, the candidates for the
hyper-parameters and the training loop.  The training of one machine stays a parameter: a function
of the labels and the weights of the algorithm and of the candidates (the coordinates, the folds and
the options are the same for all algorithms).
-/
set_option autoImplicit false

namespace Verif.Pythia

open Verif (Num)

/-- A random generator: its state after seeding, and what one call of `_generate_params` draws from it;
pythia.py:345, 744-753.  (`LatinHypercube` draws from the generator or spawns a new one from it; both
change its state, so the next call gives other values.) -/
structure Rng (S : Type) where
  first : S
  draw : S → (List ℚ × List ℚ) × S

/-- The state of the generator before round `i` of the loop, each round without pre-calculated
parameters having called `_generate_params(rng)` once; pythia.py:405-411. -/
def Rng.before {S : Type} (rng : Rng S) : Nat → S
  | 0 => rng.first
  | i + 1 => (rng.draw (rng.before i)).2

/-- The candidates drawn in round `i`, pythia.py:408. -/
def Rng.drawn {S : Type} (rng : Rng S) (i : Nat) : List ℚ × List ℚ := (rng.draw (rng.before i)).1

/-- The flattened values in the shape of a matrix; the code works on the matrix itself,
pythia.py:382-384. -/
def reshapeLike {α β : Type} : List (List α) → List β → List (List β)
  | [], _ => []
  | r :: rs, l => l.take r.length :: reshapeLike rs (l.drop r.length)

/-- `w`, pythia.py:380-387: weights from the performances, or ones. -/
def weightMatrix (useWeights : Bool) (ninst nalgos : Nat) (y : List (List Num)) :
    Except Err (List (List Num)) :=
  if useWeights then
    match weights y.flatten with
    | .error e => .error e
    | .ok w => .ok (reshapeLike y w)
  else .ok (List.replicate ninst (List.replicate nalgos 1))

/-- One call of `_fitmatsvm` from the loop, pythia.py:407-421: it is given column `i` of the labels and
of the weights, and the candidates of round `i`. -/
def fitRound {S : Type} (rng : Rng S) (grid : Bool) (params : Option (List (List ℚ) × Nat))
    (svm : List Bool → List Num → List ℚ → List ℚ → Except Err SvmRes) (nalgos : Nat)
    (w : List (List Num)) (yBin : List (List Bool)) (i : Nat) : Except Err SvmRes :=
  fit grid (fun i cs gs => svm (column false yBin i) (column .nan w i) cs gs) i
    (paramSpace rng.drawn (checkParams params nalgos) i)

/-- `pythia`, pythia.py:326-511, after the normalisation of the coordinates. -/
def pythiaFull {S : Type} (lib : Lib) (rng : Rng S) (grid useWeights : Bool)
    (params : Option (List (List ℚ) × Nat))
    (svm : List Bool → List Num → List ℚ → List ℚ → Except Err SvmRes) (nalgos : Nat)
    (labels : List String) (y : List (List Num)) (yBin : List (List Bool)) (yBest : List Num) :
    Except Err Out :=
  match weightMatrix useWeights yBin.length nalgos y with
  | .error e => .error e
  | .ok w =>
    pythia lib nalgos labels y yBin yBest (fitRound rng grid params svm nalgos w yBin)

end Verif.Pythia
