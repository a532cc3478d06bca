/-!
# Model of loading options, `instancespace/data/options.py`

Python dictionaries are lists of pairs in insertion order with distinct keys.  `lower` is Python's
`str.lower` and is a parameter.  Values are opaque; `V` is the type of Python values.
-/
set_option autoImplicit false

namespace Verif.Options

variable {V : Type}

/-- A Python dictionary with string keys, the argument of data/options.py:398. -/
abbrev Dict (V : Type) := List (String × V)

/-- `d.get(k)`; the last entry wins, which matters only for dictionaries written as
comprehensions (options.py:691). -/
def get (d : Dict V) (k : String) : Option V := (d.reverse.find? fun p => p.1 == k).map Prod.snd

/-- A dataclass of options with the defaults of its fields (options.py:77-377, 685-687) and its
`field_mapping` (438-518). -/
structure Group (V : Type) where
  fields : Dict V
  mapping : List (String × String)

/-- Exceptions of data/options.py:398-717: the two `ValueError`s of `_validate_fields` (627, 638), the one of `from_dict` (427), and the
`AttributeError` of `.items()` (691) or `.keys()` (424) on something that is not a dictionary. -/
inductive OptError
  | conflict (key : String)
  | undefined (keys : List String)
  | extra (keys : List String)
  | attributeError
  deriving DecidableEq, Repr

/-- The exception is a `ValueError`, caught at data/options.py:782. -/
def OptError.isValueError : OptError → Bool
  | .attributeError => false
  | _ => true

/-- `field_mapping.get(json_field.lower(), json_field.lower())`, options.py:623. -/
def mapField (lower : String → String) (mapping : List (String × String)) (k : String) : String :=
  (get mapping (lower k)).getD (lower k)

/-- The loop of `_validate_fields`, options.py:621-643; `seen` are the keys of
`mapped_json_fields`, `errs` is `value_errors`. -/
def validateLoop (lower : String → String) (g : Group V) :
    Dict V → List String → List String → Except OptError Unit
  | [], _, errs => if errs = [] then .ok () else .error (.undefined errs)
  | (k, _) :: rest, seen, errs =>
    let m := mapField lower g.mapping k
    if m ∈ seen then .error (.conflict k)
    else validateLoop lower g rest (m :: seen)
      (if m ∉ g.fields.map Prod.fst ∧ m ≠ "_" then errs ++ [m] else errs)

/-- `_validate_fields`, options.py:584-643. -/
def validate (lower : String → String) (g : Group V) (data : Dict V) : Except OptError Unit :=
  validateLoop lower g data [] []

/-- The alias of a field, options.py:700-703. -/
def aliasOf (mapping : List (String × String)) (f : String) : String :=
  ((mapping.find? fun p => p.2 == f).map Prod.fst).getD f

/-- The value of one field, options.py:696-709; `low` is `data_lowercase`. -/
def fieldValue (lower : String → String) (g : Group V) (low : Dict V) (f : String) (dflt : V) : V :=
  match get low (lower f) with
  | some v => v
  | none => (get low (aliasOf g.mapping f)).getD dflt

/-- `_load_dataclass`, options.py:646-714; the dataclass is the list of its fields with values. -/
def load (lower : String → String) (g : Group V) (data : Dict V) : Except OptError (Dict V) :=
  let low := data.map fun p => (lower p.1, p.2)
  let mapped := g.fields.map fun p => (p.1, fieldValue lower g low p.1 p.2)
  match validate lower g data with
  | .error e => .error e
  | .ok () => .ok mapped

/-- `file_contents.get(name, {})` as a dictionary, options.py:437 and so on; `none` if the value is
not a dictionary. -/
def groupData (asDict : V → Option (Dict V)) (contents : Dict V) (name : String) :
    Option (Dict V) :=
  match get contents name with
  | none => some []
  | some v => asDict v

/-- The arguments of the constructor call of `from_dict`, in order, options.py:434-524: the first
exception ends the call.  `asDict` recognises dictionaries. -/
def loadAll (lower : String → String) (asDict : V → Option (Dict V)) (contents : Dict V) :
    List (String × Group V) → Except OptError (List (String × Dict V))
  | [] => .ok []
  | (name, g) :: rest =>
    match groupData asDict contents name with
    | none => .error .attributeError
    | some data =>
      match load lower g data with
      | .error e => .error e
      | .ok out =>
        match loadAll lower asDict contents rest with
        | .error e => .error e
        | .ok outs => .ok ((name, out) :: outs)

/-- `from_dict`, options.py:398-524. -/
def fromDict (lower : String → String) (asDict : V → Option (Dict V))
    (groups : List (String × Group V)) (contents : Dict V) :
    Except OptError (List (String × Dict V)) :=
  let extra := (contents.map Prod.fst).filter fun k => k ∉ groups.map Prod.fst
  if extra = [] then loadAll lower asDict contents groups else .error (.extra extra)

/-- What reading and parsing the file may do, options.py:774-776: give a value, fail with an
exception that is caught (`FileNotFoundError`, `OSError`, `JSONDecodeError`, `UnicodeDecodeError`
which is a `ValueError`), or fail otherwise (`RecursionError`, `MemoryError`). -/
inductive FileRead (V : Type)
  | value (v : V)
  | caught
  | other

/-- Outcome of `from_json_file`, data/options.py:744-785. -/
inductive Outcome (α : Type)
  | returns (r : Option α)
  | raises
  deriving DecidableEq, Repr

/-- `from_json_file`, options.py:744-785. -/
def fromJsonFile (lower : String → String) (asDict : V → Option (Dict V))
    (groups : List (String × Group V)) : FileRead V → Outcome (List (String × Dict V))
  | .other => .raises
  | .caught => .returns none
  | .value v =>
    match asDict v with
    | none => .raises
    | some contents =>
      match fromDict lower asDict groups contents with
      | .ok o => .returns (some o)
      | .error e => if e.isValueError then .returns none else .raises

/-- `InstanceSpaceOptions.default`, options.py:537-565: each group given or its default. -/
def default (groups : List (String × Group V)) (given : String → Option (Dict V)) :
    List (String × Dict V) :=
  groups.map fun p => (p.1, (given p.1).getD p.2.fields)

end Verif.Options
