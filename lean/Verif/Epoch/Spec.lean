import Mathlib.Data.Rat.Floor
import Mathlib.Tactic.Linarith
import Mathlib.Tactic.NormNum

/-!
# Time scales

The times of visits are given in TAI as modified Julian dates. Terrestrial time is 32.184 s ahead of TAI; a Julian date is a modified Julian date
plus 2400000.5; barycentric dynamical time differs from terrestrial time by less than 2 ms. Nothing here refers to how the program converts
times.
-/

namespace Sorcha.Epoch.Spec

/-- The Julian date in terrestrial time of an instant given as modified Julian date in TAI. -/
def terrestrial (mjd : ℚ) : ℚ := mjd + 2400000.5 + 32.184 / 86400

/-- Rounding to floating point numbers with 53 binary digits: it keeps order and moves a number by at most one part in 2^53. -/
structure Double (rnd : ℚ → ℚ) : Prop where
  mono : ∀ x y, x ≤ y → rnd x ≤ rnd y
  close : ∀ x, |rnd x - x| ≤ |x| / 2 ^ 53

/-- Seconds of barycentric dynamical time since J2000, as a function of the Julian date in terrestrial time in millionths of a day. -/
structure Seconds (et : ℤ → ℚ) : Prop where
  mono : ∀ m n, m ≤ n → et m ≤ et n
  close : ∀ n : ℤ, |et n - (n / 1000000 - 2451545) * 86400| ≤ 0.002

/-- The years 1858 to 2132. -/
def Years (mjd : ℚ) : Prop := 0 ≤ mjd ∧ mjd ≤ 100000

end Sorcha.Epoch.Spec
