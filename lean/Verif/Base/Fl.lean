import Mathlib.Algebra.Order.Field.Rat
import Mathlib.Tactic.Linarith
import Mathlib.Tactic.NormNum

/-!
# Floats with NaN and infinities

IEEE comparison semantics as used by numpy/pandas; finite values are exact rationals (rounding is not modelled).
-/

namespace Sorcha

/-- A floating-point value: NaN, ±∞ or a finite (exact) number. -/
inductive Fl
  | nan
  | ninf
  | fin (q : ℚ)
  | pinf
deriving DecidableEq, Repr

namespace Fl

/-- IEEE `<`: false if an operand is NaN. -/
def lt : Fl → Fl → Bool
  | nan, _ => false
  | _, nan => false
  | ninf, ninf => false
  | ninf, _ => true
  | fin _, ninf => false
  | fin a, fin b => decide (a < b)
  | fin _, pinf => true
  | pinf, _ => false

/-- IEEE `==`. -/
def eq : Fl → Fl → Bool
  | nan, _ => false
  | _, nan => false
  | a, b => decide (a = b)

/-- IEEE `<=`. -/
def le (a b : Fl) : Bool := lt a b || eq a b

/-- IEEE `+` on special values, exact on finite ones. -/
def add : Fl → Fl → Fl
  | nan, _ => nan
  | _, nan => nan
  | pinf, ninf => nan
  | ninf, pinf => nan
  | pinf, _ => pinf
  | _, pinf => pinf
  | ninf, _ => ninf
  | _, ninf => ninf
  | fin a, fin b => fin (a + b)

/-- IEEE `-x`. -/
def neg : Fl → Fl
  | nan => nan
  | pinf => ninf
  | ninf => pinf
  | fin a => fin (-a)

/-- `x ** 2`. -/
def sq : Fl → Fl
  | nan => nan
  | pinf => pinf
  | ninf => pinf
  | fin a => fin (a ^ 2)

/-- `np.isnan`. -/
def isNan : Fl → Bool
  | nan => true
  | _ => false

@[simp] theorem lt_fin (a b : ℚ) : lt (fin a) (fin b) = decide (a < b) := rfl
@[simp] theorem lt_nan_left (a : Fl) : lt nan a = false := by cases a <;> rfl
@[simp] theorem lt_nan_right (a : Fl) : lt a nan = false := by cases a <;> rfl
@[simp] theorem le_fin (a b : ℚ) : le (fin a) (fin b) = decide (a ≤ b) := by
  simp [le, lt, eq, le_iff_lt_or_eq, Bool.decide_or]
@[simp] theorem le_nan_left (a : Fl) : le nan a = false := by cases a <;> rfl
@[simp] theorem le_nan_right (a : Fl) : le a nan = false := by cases a <;> rfl

theorem lt_irrefl (a : Fl) : lt a a = false := by cases a <;> simp [lt]

theorem lt_trans {a b c : Fl} (h1 : lt a b = true) (h2 : lt b c = true) : lt a c = true := by
  cases a <;> cases b <;> cases c <;> simp_all [lt]
  rename_i x y z; exact _root_.lt_trans h1 h2

/-- For two numbers (not NaN), `<` is the negation of the reversed `≤`. -/
theorem not_lt_iff_le {a b : Fl} (ha : a ≠ nan) (hb : b ≠ nan) : lt a b = false ↔ le b a = true := by
  cases a <;> cases b <;> simp_all [lt, le_fin] <;> simp [le, lt, eq]

end Fl
end Sorcha
