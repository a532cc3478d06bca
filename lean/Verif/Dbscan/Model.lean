/-!
# Model of `TraceStage.dbscan` (`instancespace/stages/trace.py`)

Points are the numbers below `m`; `near i j` is the comparison `dist(x_i, x)[j] <= eps` of lines
917-918 and 935-936.  The array `type_` (lines 910, 920, 923, 927, 940, 942, 951) is not returned
and not modelled.
-/
set_option autoImplicit false

namespace Verif.Dbscan

/-- The arrays `touched` and `classes` and the counter `no`, trace.py:911-913. -/
structure St where
  touched : Nat → Bool
  classes : Nat → Int
  no : Nat

/-- `np.where(d <= eps)[0]` for the point `i`, trace.py:916-918, 932-936. -/
def neigh (near : Nat → Nat → Bool) (m i : Nat) : List Nat := (List.range m).filter (near i)

/-- `classes[ind] = v`, trace.py:928, 938, 950. -/
def setAll (classes : Nat → Int) (ind : List Nat) (v : Int) : Nat → Int :=
  fun p => if p ∈ ind then v else classes p

/-- `a[i] = v` for one position, trace.py:921, 924, 925, 933, 945, 947. -/
def upd {α : Type} (a : Nat → α) (i : Nat) (v : α) : Nat → α := fun p => if p = i then v else a p

/-- The loop `for j in i1`, trace.py:943-947; the list is `ind_list`. -/
def visit : List Nat → List Nat → St → List Nat × St
  | [], list, s => (list, s)
  | j :: js, list, s =>
    if s.touched j = false then
      visit js (list ++ [j])
        { s with touched := upd s.touched j true, classes := upd s.classes j s.no }
    else visit js list s

/-- The loop `while len(ind_list) > 0`, trace.py:930-947.  The first argument bounds the number of
iterations; `2 * m` is proved to be enough (the loop always ends with an empty list). -/
def expand (near : Nat → Nat → Bool) (m : Nat) : Nat → List Nat → St → List Nat × St
  | 0, list, s => (list, s)
  | _ + 1, [], s => ([], s)
  | fuel + 1, c :: rest, s =>
    let s := { s with touched := upd s.touched c true }
    let i1 := neigh near m c
    if 1 < i1.length then
      let r := visit i1 rest { s with classes := setAll s.classes i1 s.no }
      expand near m fuel r.1 r.2
    else expand near m fuel rest s

/-- The body of the loop over the points, trace.py:915-948. -/
def point (near : Nat → Nat → Bool) (m k : Nat) (s : St) (i : Nat) : St :=
  if s.touched i = false then
    let ind := neigh near m i
    let s := if 1 < ind.length ∧ ind.length < k + 1 then { s with classes := upd s.classes i 0 }
      else s
    let s := if ind.length = 1 then
        { s with classes := upd s.classes i (-1), touched := upd s.touched i true }
      else s
    if k + 1 ≤ ind.length then
      let s := (expand near m (2 * m) ind { s with classes := setAll s.classes ind s.no }).2
      { s with no := s.no + 1 }
    else s
  else s

/-- The state after the loop over the points, trace.py:910-948. -/
def loop (near : Nat → Nat → Bool) (m k : Nat) : St :=
  (List.range m).foldl (point near m k) ⟨fun _ => false, fun _ => 0, 1⟩

/-- `dbscan`, trace.py:905-952: the labels of the points. -/
def dbscan (near : Nat → Nat → Bool) (m k : Nat) : List Int :=
  (List.range m).map fun p =>
    let c := (loop near m k).classes p
    if c = 0 then -1 else c

end Verif.Dbscan
