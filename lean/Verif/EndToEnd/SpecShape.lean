import Verif.EndToEnd.SpecLate
/-!
# Specification of the sizes of the arrays of the Model
-/
set_option autoImplicit false

namespace Verif.EndToEnd

open Verif (Num)
open Verif.Pipeline (Name)
open Verif.Runner (Dict)

variable {V W : Type}

/-- A table of `n` rows and `m` columns. -/
def IsTable (d : Dict Name (Val V W)) (name : Name) (n m : Nat) : Prop :=
  ∃ t, d name = some (.table t) ∧ t.ncols = m ∧ t.rows.length = n ∧ ∀ r ∈ t.rows, r.length = m

/-- Truth values in `n` rows and `m` columns. -/
def IsTruths (d : Dict Name (Val V W)) (name : Name) (n m : Nat) : Prop :=
  ∃ b, d name = some (.verdicts b) ∧ b.length = n ∧ ∀ r ∈ b, r.length = m

/-- A list of `n` numbers. -/
def IsNumbers (d : Dict Name (Val V W)) (name : Name) (n : Nat) : Prop :=
  ∃ l, d name = some (.numbers l) ∧ l.length = n

/-- A list of `n` natural numbers. -/
def IsCounts (d : Dict Name (Val V W)) (name : Name) (n : Nat) : Prop :=
  ∃ l, d name = some (.counts l) ∧ l.length = n

/-- A list of `n` names. -/
def IsNames (d : Dict Name (Val V W)) (name : Name) (n : Nat) : Prop :=
  ∃ l, d name = some (.names l) ∧ l.length = n

/-- The parts of the Model made by preprocessing, PRELIM and SIFTED have the sizes of `n` instances, `f`
features, chosen from `g`, and `m` algorithms. -/
structure DataShapes (d : Dict Name (Val V W)) (n g f m : Nat) : Prop where
  feat_labels : IsNames d .feat_labels f
  algo_labels : IsNames d .algo_labels m
  selvars : IsCounts d .selvars f
  x : IsTable d .x n f
  y : IsTable d .y n m
  x_raw : IsTable d .x_raw n g
  y_raw : IsTable d .y_raw n m
  y_bin : IsTruths d .y_bin n m
  y_best : IsNumbers d .y_best n
  p : IsCounts d .p n
  num_good_algos : IsCounts d .num_good_algos n
  beta : ∃ l, d .beta = some (.flags l) ∧ l.length = n
  s : ∃ o, d .s = some (.sources o) ∧ ∀ l, o = some l → l.length = n

/-- The parts made by PILOT, CLOISTER and PYTHIA, likewise; the coordinates are points of the plane. -/
structure LateShapes (d : Dict Name (Val V W)) (n f m : Nat) : Prop where
  a : IsTable d .a 2 f
  z : IsTable d .z n 2
  b : IsTable d .b f 2
  z_edge : ∃ e, IsTable d .z_edge e 2
  z_ecorr : ∃ e, IsTable d .z_ecorr e 2
  w : IsTable d .w n m
  cvcmat : IsTable d .cvcmat m 4
  y_sub : IsTruths d .y_sub n m
  y_hat : IsTruths d .y_hat n m
  pr0_sub : IsTable d .pr0_sub n m
  pr0_hat : IsTable d .pr0_hat n m
  box_consnt : IsNumbers d .box_consnt m
  k_scale : IsNumbers d .k_scale m
  accuracy : IsNumbers d .accuracy m
  precision : IsNumbers d .precision m
  recall : IsNumbers d .recall m
  selection0 : IsCounts d .selection0 n
  selection1 : IsCounts d .selection1 n

/-- And so do the labels of the instances and the matrix of the performances, the rest of the claim. -/
structure AllShapes (d : Dict Name (Val V W)) (n g f m : Nat) : Prop extends DataShapes d n g f m,
    LateShapes d n f m where
  inst_labels : ∃ l, d .inst_labels = some (.labels l) ∧ l.length = n
  c : IsTable d .c 2 m

end Verif.EndToEnd
