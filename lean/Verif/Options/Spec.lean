import Verif.Options.Tables
import Mathlib.Data.List.Forall2
/-!
# Specification of option loading
-/
set_option autoImplicit false

namespace Verif.Options

variable {V : Type}

/-- The names of the fields of a group. -/
def Group.names (g : Group V) : List String := g.fields.map Prod.fst

/-- Ignoring case, the key is the field name `t` (or the placeholder), or an alias of `t`. -/
def Denotes (lower : String → String) (g : Group V) (key t : String) : Prop :=
  (lower key = t ∧ (t ∈ g.names ∨ t = "_")) ∨ (lower key, t) ∈ g.mapping

/-- Every key is known and no two keys denote the same field. -/
structure Acceptable (lower : String → String) (g : Group V) (data : Dict V) : Prop where
  known : ∀ p ∈ data, ∃ t, Denotes lower g p.1 t
  once : data.Pairwise fun p q => ∀ t, ¬ (Denotes lower g p.1 t ∧ Denotes lower g q.1 t)

/-- The loaded group: fields in order, given values, defaults for the rest. -/
structure Loaded (lower : String → String) (g : Group V) (data out : Dict V) : Prop where
  fields : out.map Prod.fst = g.names
  given : ∀ k v f, (k, v) ∈ data → Denotes lower g k f → f ∈ g.names → (f, v) ∈ out
  default : ∀ f d, (f, d) ∈ g.fields → (∀ p ∈ data, ¬ Denotes lower g p.1 f) → (f, d) ∈ out

/-- The tables of a group make sense: names and aliases do not clash. -/
structure Group.WF (g : Group V) : Prop where
  names : g.names.Nodup
  aliases : (g.mapping.map Prod.fst).Nodup
  targets : (g.mapping.map Prod.snd).Nodup
  known : ∀ p ∈ g.mapping, p.2 ∈ g.names
  clash : ∀ p ∈ g.mapping, (p.1 ∈ g.names → p.1 = p.2) ∧ p.1 ≠ "_"
  placeholder : "_" ∉ g.names

/-- The same entries in another order and with keys in another case. -/
def SameEntries (lower : String → String) (data data' : Dict V) : Prop :=
  ∃ mid, data.Perm mid ∧ List.Forall₂ (fun p q => lower p.1 = lower q.1 ∧ p.2 = q.2) mid data'

end Verif.Options
