import Verif.Metadata.Model
import Verif.Options.Tables
/-!
# Making an instance space from files (instance_space.py:314-380)

The listing of the options on the terminal (353-356) is not modelled.  Making the object
(`InstanceSpace.__init__`) builds the default pipeline, which never fails (C10).
-/
set_option autoImplicit false

namespace Verif.InstanceSpace

open Verif.Metadata (Meta Read Squeezed fromCsvFile)
open Verif.Options (Dict FileRead Outcome Group fromJsonFile)

variable {V W : Type}

/-- What an `InstanceSpace` is made from, instance_space.py:134-137 and 160-163. -/
structure Created (V W : Type) where
  metadata : Meta V
  options : List (String × Dict W)

/-- The surroundings: the parts of pandas and of the standard library that are parameters of the
models of `from_csv_file` (metadata.py:83-119) and `from_json_file` (options.py:744-785). -/
structure Env (V W : Type) where
  lower : String → String
  numeric : Squeezed V → Bool
  str : V → V
  asDict : W → Option (Dict W)
  groups : List (String × Group W)

/-- `instance_space_from_files`, instance_space.py:314-358.  The second component says whether the
options file was opened (the call at line 345). -/
def fromFiles (env : Env V W) (csv : Read V) (json : FileRead W) :
    Outcome (Created V W) × Bool :=
  match fromCsvFile env.lower env.numeric env.str csv with
  | .raised => (.raises, false)
  | .value none => (.returns none, false)
  | .value (some m) =>
    match fromJsonFile env.lower env.asDict env.groups json with
    | .raises => (.raises, true)
    | .returns none => (.returns none, true)
    | .returns (some o) => (.returns (some ⟨m, o⟩), true)

/-- `Path(directory / name)`, instance_space.py:377-378. -/
def inDirectory (directory name : String) : String := directory ++ "/" ++ name

/-- `instance_space_from_directory`, instance_space.py:361-380; `csvAt` and `jsonAt` are what reading
the file at a path gives. -/
def fromDirectory (env : Env V W) (csvAt : String → Read V) (jsonAt : String → FileRead W)
    (directory : String) : Outcome (Created V W) × Bool :=
  fromFiles env (csvAt (inDirectory directory "metadata.csv"))
    (jsonAt (inDirectory directory "options.json"))

end Verif.InstanceSpace
