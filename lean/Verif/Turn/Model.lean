import Mathlib.Data.Rat.Floor

/-!
# Model of the reduction of right ascensions in floating point numbers

`a` is the floating point number that the program has for the angle of a direction in degrees, from -180 to 180 (`arctan2` and its conversion to degrees are not
modelled here; the exact calculation is in `Ephem` and `Photom`). `rnd` is the rounding of a sum.
-/

namespace Sorcha.Turn

/-- `fmod` of C, which is exact: the remainder has the sign of `a`. -/
def fmod (a b : ℚ) : ℚ := a - b * (if 0 ≤ a / b then ⌊a / b⌋ else ⌈a / b⌉ : ℤ)

/-- `a % b` and `np.mod(a, b)` for floating point numbers (`npy_divmod`): the remainder of `fmod`, to which `b` is added if the signs differ. -/
def npMod (rnd : ℚ → ℚ) (a b : ℚ) : ℚ :=
  if fmod a b = 0 then 0 else if decide (b < 0) ≠ decide (fmod a b < 0) then rnd (fmod a b + b) else fmod a b

/-- `ra = radeg * np.arctan2(y, x) % 360` of `vec2ra_dec`, ephemeris/simulation_geometry.py:163. -/
def raEphemeris (rnd : ℚ → ℚ) (a : ℚ) : ℚ := npMod rnd a 360

/-- `ra = modulo(rad2deg(phi) + 360, 360)` of `icrf2radec`, modules/PPRandomizeMeasurements.py:397. -/
def raRandomised (rnd : ℚ → ℚ) (a : ℚ) : ℚ := npMod rnd (rnd (a + 360)) 360

end Sorcha.Turn
