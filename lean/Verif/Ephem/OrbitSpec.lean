import Mathlib.Analysis.SpecialFunctions.Trigonometric.Series
import Verif.Ephem.Spec

/-!
# Specification for the orbit conversions
-/

namespace Sorcha.Ephem.Spec
open Sorcha.Photom Real

/-- The Stumpff function `c_k`, by its power series. -/
noncomputable def c (k : ℕ) (x : ℝ) : ℝ := ∑' j : ℕ, (-x) ^ j / ((k + 2 * j).factorial : ℝ)

/-- The first four Stumpff functions. -/
noncomputable def exact (x : ℝ) : ℝ × ℝ × ℝ × ℝ := (c 0 x, c 1 x, c 2 x, c 3 x)

/-- Kepler's equation in universal variables, starting at perihelion: the time since perihelion at the universal anomaly `s`. -/
noncomputable def keplerTime (mu q e s : ℝ) : ℝ :=
  q * (s * c 1 (mu * (1 - e) / q * s ^ 2)) + mu * (s ^ 3 * c 3 (mu * (1 - e) / q * s ^ 2))

/-- Unit vector towards perihelion, for inclination `i`, node `Ω` and argument of perihelion `ω`. -/
noncomputable def perihelionDir (i Ω ω : ℝ) : Vec :=
  ⟨cos Ω * cos ω - sin Ω * sin ω * cos i, sin Ω * cos ω + cos Ω * sin ω * cos i, sin ω * sin i⟩

/-- Unit vector in the orbital plane, a quarter turn ahead of perihelion. -/
noncomputable def motionDir (i Ω ω : ℝ) : Vec :=
  ⟨-(cos Ω * sin ω) - sin Ω * cos ω * cos i, -(sin Ω * sin ω) + cos Ω * cos ω * cos i, cos ω * sin i⟩

/-- Normal of the orbital plane. -/
noncomputable def poleDir (i Ω : ℝ) : Vec := ⟨sin Ω * sin i, -(cos Ω * sin i), cos i⟩

/-- `k` times a vector. -/
def times (k : ℝ) (v : Vec) : Vec := ⟨k * v.x, k * v.y, k * v.z⟩

/-- Cross product. -/
def cross (a b : Vec) : Vec := ⟨a.y * b.z - a.z * b.y, a.z * b.x - a.x * b.z, a.x * b.y - a.y * b.x⟩

/-- Rotation about the x axis by the obliquity of the ecliptic (84381.448 arcsec): ecliptic to equatorial coordinates. -/
noncomputable def equatorial (v : Vec) : Vec :=
  ⟨v.x, cos (84381.448 / 3600 * (π / 180)) * v.y - sin (84381.448 / 3600 * (π / 180)) * v.z,
    sin (84381.448 / 3600 * (π / 180)) * v.y + cos (84381.448 / 3600 * (π / 180)) * v.z⟩

/-- The combination `x P + y Q`. -/
def combine (x : ℝ) (P : Vec) (y : ℝ) (Q : Vec) : Vec := ⟨x * P.x + y * Q.x, x * P.y + y * Q.y, x * P.z + y * Q.z⟩

/-- Position on an ellipse with semi-major axis `a` and eccentricity `e` at eccentric anomaly `E`, for perihelion direction `P` and `Q` a
quarter turn ahead. -/
noncomputable def ellipsePosition (a e E : ℝ) (P Q : Vec) : Vec := combine (a * (cos E - e)) P (a * (√(1 - e ^ 2) * sin E)) Q

/-- Velocity on the ellipse for a central mass `mu`. -/
noncomputable def ellipseVelocity (mu a e E : ℝ) (P Q : Vec) : Vec :=
  combine (-(√(mu / a) / (1 - e * cos E) * sin E)) P (√(mu / a) / (1 - e * cos E) * (√(1 - e ^ 2) * cos E)) Q

/-- Degrees to radians. -/
noncomputable def radians (x : ℝ) : ℝ := x * (π / 180)

end Sorcha.Ephem.Spec
