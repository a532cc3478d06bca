import Mathlib.Algebra.Order.Field.Rat
import Mathlib.Tactic.Linarith
/-!
# Floating point numbers with exact arithmetic

A number is NaN, an infinity or a rational.  The operations follow IEEE 754 without rounding,
overflow and the sign of zero (a zero is positive zero).  They model numpy's elementwise
operations; the files and lines that use them are cited where they are used.
-/
set_option autoImplicit false

namespace Verif

/-- A float: NaN, an infinity or a finite number; numpy `double`, e.g. prelim.py:31-34. -/
inductive Num
  | nan | ninf | fin (q : ℚ) | pinf
  deriving DecidableEq, Repr

namespace Num

instance (n : Nat) : OfNat Num n := ⟨.fin n⟩

/-- `np.isnan`, prelim.py:621, 645. -/
def isNan : Num → Bool
  | .nan => true
  | _ => false

/-- `a < b`; false when an argument is NaN.  prelim.py:432, 455-456. -/
def lt : Num → Num → Bool
  | .nan, _ => false
  | _, .nan => false
  | .ninf, .ninf => false
  | .ninf, _ => true
  | _, .ninf => false
  | .pinf, _ => false
  | _, .pinf => true
  | .fin a, .fin b => decide (a < b)

/-- `a <= b`; false when an argument is NaN.  prelim.py:628, 634, 652, 658. -/
def le : Num → Num → Bool
  | .nan, _ => false
  | _, .nan => false
  | .ninf, _ => true
  | _, .ninf => false
  | _, .pinf => true
  | .pinf, _ => false
  | .fin a, .fin b => decide (a ≤ b)

/-- `a == b`; NaN differs from itself.  prelim.py:409, 631-632. -/
def eq : Num → Num → Bool
  | .nan, _ => false
  | a, b => decide (a = b)

/-- `-a`, used by `sub`; prelim.py:453. -/
def neg : Num → Num
  | .nan => .nan
  | .ninf => .pinf
  | .pinf => .ninf
  | .fin a => .fin (-a)

/-- `a + b`, prelim.py:452, 459-460. -/
def add : Num → Num → Num
  | .nan, _ => .nan
  | _, .nan => .nan
  | .fin a, .fin b => .fin (a + b)
  | .pinf, .ninf => .nan
  | .ninf, .pinf => .nan
  | .pinf, _ => .pinf
  | .ninf, _ => .ninf
  | _, .pinf => .pinf
  | _, .ninf => .ninf

/-- `a - b`, prelim.py:453, 539, 633-634, 657-658. -/
def sub (a b : Num) : Num := add a (neg b)

/-- The infinity with the sign of a non-zero number, NaN for zero (IEEE 754); used by `mul` and
`div`, prelim.py:458-460, 634. -/
def infSign (q : ℚ) : Num := if 0 < q then .pinf else if q < 0 then .ninf else .nan

/-- `a * b`, prelim.py:432, 452, 458-460. -/
def mul : Num → Num → Num
  | .nan, _ => .nan
  | _, .nan => .nan
  | .fin a, .fin b => .fin (a * b)
  | .fin a, .pinf => infSign a
  | .pinf, .fin a => infSign a
  | .fin a, .ninf => infSign (-a)
  | .ninf, .fin a => infSign (-a)
  | .pinf, .pinf => .pinf
  | .ninf, .ninf => .pinf
  | .pinf, .ninf => .ninf
  | .ninf, .pinf => .ninf

/-- `a / b`, prelim.py:633-634, 657-658.  Dividing by (positive) zero gives an infinity. -/
def div : Num → Num → Num
  | .nan, _ => .nan
  | _, .nan => .nan
  | .fin a, .fin b => if b = 0 then infSign a else .fin (a / b)
  | .fin _, _ => .fin 0
  | .pinf, .fin b => if b < 0 then .ninf else .pinf
  | .ninf, .fin b => if b < 0 then .pinf else .ninf
  | _, _ => .nan

instance : Add Num := ⟨add⟩
instance : Sub Num := ⟨sub⟩
instance : Mul Num := ⟨mul⟩
instance : Div Num := ⟨div⟩
instance : Neg Num := ⟨neg⟩

/-- The machine epsilon `np.finfo(float).eps`, prelim.py:555, 631. -/
def eps : ℚ := 1 / 2 ^ 52

theorem eps_pos : 0 < eps := by
  unfold eps
  norm_num

@[simp] theorem fin_add (a b : ℚ) : (Num.fin a + Num.fin b) = .fin (a + b) := rfl
@[simp] theorem fin_sub (a b : ℚ) : (Num.fin a - Num.fin b) = .fin (a - b) := by
  change Num.fin (a + -b) = _
  rw [sub_eq_add_neg]
@[simp] theorem fin_mul (a b : ℚ) : (Num.fin a * Num.fin b) = .fin (a * b) := rfl
theorem fin_div (a b : ℚ) (h : b ≠ 0) : (Num.fin a / Num.fin b) = .fin (a / b) := by
  change (if b = 0 then _ else _) = _
  rw [if_neg h]

theorem le_trans {a b c : Num} (h1 : a.le b = true) (h2 : b.le c = true) : a.le c = true := by
  cases a <;> cases b <;> cases c <;> simp_all [le]
  exact _root_.le_trans h1 h2

theorem le_iff_lt_or_eq {a b : Num} : a.le b = true ↔ a.lt b = true ∨ (a = b ∧ a ≠ .nan) := by
  cases a <;> cases b <;> simp [le, lt]
  exact _root_.le_iff_lt_or_eq

theorem lt_of_not_le {a b : Num} (ha : a ≠ .nan) (hb : b ≠ .nan) (h : a.le b = false) :
    b.lt a = true := by
  cases a <;> cases b <;> simp_all [le, lt]

theorem not_le_of_lt {a b : Num} (h : b.lt a = true) : a.le b = false := by
  cases a <;> cases b <;> simp_all [le, lt]

theorem le_of_not_lt {a b : Num} (ha : a ≠ .nan) (hb : b ≠ .nan) (h : a.lt b = false) :
    b.le a = true := by
  cases a <;> cases b <;> simp_all [le, lt]

theorem eq_iff {a b : Num} : a.eq b = true ↔ a = b ∧ a ≠ .nan := by
  cases a <;> cases b <;> simp [eq]

theorem lt_trans {a b c : Num} (h1 : a.lt b = true) (h2 : b.lt c = true) : a.lt c = true := by
  cases a <;> cases b <;> cases c <;> simp_all [lt]
  exact _root_.lt_trans h1 h2

theorem lt_irrefl (a : Num) : a.lt a = false := by
  cases a <;> simp [lt]

theorem le_refl {a : Num} (h : a ≠ .nan) : a.le a = true := by
  cases a <;> simp_all [le]

theorem le_antisymm {a b : Num} (h1 : a.le b = true) (h2 : b.le a = true) : a = b := by
  cases a <;> cases b <;> simp_all [le]
  exact _root_.le_antisymm h1 h2

theorem isNan_iff {a : Num} : a.isNan = true ↔ a = .nan := by cases a <;> simp [isNan]

end Num
end Verif
