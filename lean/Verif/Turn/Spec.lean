import Mathlib.Data.Rat.Floor

/-!
# Floating point numbers, and angles up to whole turns

Nothing here refers to how the program reduces angles.
-/

namespace Sorcha.Turn.Spec

/-- A number with 53 binary digits. (Numbers too large or too small for the exponent of a double are left out of consideration.) -/
def IsDouble (q : ℚ) : Prop := ∃ m e : ℤ, q = m * (2 : ℚ) ^ e ∧ |m| < 2 ^ 53

/-- Rounding to a nearest floating point number, whichever it is if there are two. -/
structure Nearest (rnd : ℚ → ℚ) : Prop where
  double : ∀ x, IsDouble (rnd x)
  near : ∀ x f, IsDouble f → |rnd x - x| ≤ |f - x|

/-- The angle is the other one up to whole turns and an error, all in degrees. -/
def SameDirection (error ra a : ℚ) : Prop := ∃ k : ℤ, |ra - (a + 360 * k)| ≤ error

end Sorcha.Turn.Spec
