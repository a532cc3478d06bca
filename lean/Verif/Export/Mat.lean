/-!
# The MATLAB file (`save_instance_space_output_mat`, _serialisers.py:721-733)
-/
set_option autoImplicit false

namespace Verif.Export

/-- The length of the longest label, which is that of the entries of `np.array(data.algo_labels)`,
_serialisers.py:729. -/
def widest : List (List Char) → Nat
  | [] => 0
  | l :: ls => max l.length (widest ls)

/-- An entry of a character matrix: the label, filled up with spaces as `savemat` does,
_serialisers.py:727. -/
def padded (n : Nat) (l : List Char) : List Char := l ++ List.replicate (n - l.length) ' '

/-- The rows of the character matrix that `savemat` writes for the labels, _serialisers.py:727-730. -/
def matRows (labels : List (List Char)) : List (List Char) := labels.map (padded (widest labels))

end Verif.Export
