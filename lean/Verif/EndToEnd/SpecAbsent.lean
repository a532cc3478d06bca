import Verif.EndToEnd.Model
import Verif.Preprocessing.PropsAbsent
/-!
# Specification of metadata from which instances or features have been left out
-/
set_option autoImplicit false

namespace Verif.EndToEnd

open Verif (Num)
open Verif.Pipeline (Name)
open Verif.Metadata (Meta)
open Verif.Preprocessing (pick Data Mat)
open Verif.Runner (Dict RunError)

variable {V W : Type}

/-- Metadata with labels `l` and sources `s` whose parts fit together. -/
structure Fitting (l : List V) (s : Option (List V)) (m : Meta V) : Prop where
  labels : m.labels = .series l
  sources : m.sources = s.map .series
  features : ∀ r ∈ m.features, r.length = m.featureNames.length
  algorithms : ∀ r ∈ m.algorithms, r.length = m.algorithmNames.length
  rows : m.algorithms.length = m.features.length
  labelled : l.length = m.features.length
  sourced : ∀ s', s = some s' → s'.length = m.features.length

/-- The arrays of the metadata, as preprocessing receives them. -/
def received (num : V → Num) (l : List V) (s : Option (List V)) (m : Meta V) : Data Num String V V where
  x := ⟨m.featureNames.length, m.features.map (·.map num)⟩
  y := ⟨m.algorithmNames.length, m.algorithms.map (·.map num)⟩
  s := s
  feat := m.featureNames
  inst := l

/-- The metadata with the instances at the positions `σ` only. -/
def instancesOnly (σ : List Nat) (l : List V) (s : Option (List V)) (m : Meta V) : Meta V :=
  { m with
    labels := .series (pick l σ)
    sources := s.map fun s => .series (pick s σ)
    features := pick m.features σ
    algorithms := pick m.algorithms σ }

/-- The metadata with the features at the positions `ks` only. -/
def featuresOnly (ks : List Nat) (m : Meta V) : Meta V :=
  { m with
    featureNames := pick m.featureNames ks
    features := m.features.map fun r => pick r ks }

/-- The same exception, or the same output for all names except those listed. -/
def SameExcept (names : List Name) :
    Except (RunError Name Err) (Dict Name (Val V W)) → Except (RunError Name Err) (Dict Name (Val V W)) → Prop
  | .error e, .error e' => e = e'
  | .ok d, .ok d' => ∀ n, n ∉ names → d n = d' n
  | _, _ => False

end Verif.EndToEnd
