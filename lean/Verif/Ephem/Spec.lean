import Mathlib.Analysis.SpecialFunctions.Trigonometric.Deriv
import Verif.Photom.Model

/-!
# Specification of the ephemeris geometry

Stated with components only, without the helpers of the model.
-/

namespace Sorcha.Ephem.Spec
open Sorcha.Photom Real

/-- Inner product. -/
def inner (a b : Vec) : ℝ := a.x * b.x + a.y * b.y + a.z * b.z

/-- Length. -/
noncomputable def length (a : Vec) : ℝ := √(a.x ^ 2 + a.y ^ 2 + a.z ^ 2)

/-- The vector from `a` to `b`. -/
def fromTo (a b : Vec) : Vec := ⟨b.x - a.x, b.y - a.y, b.z - a.z⟩

/-- `w` is the velocity of the moving point `f` at time `t`. -/
def Velocity (f : ℝ → Vec) (w : Vec) (t : ℝ) : Prop :=
  HasDerivAt (fun s => (f s).x) w.x t ∧ HasDerivAt (fun s => (f s).y) w.y t ∧ HasDerivAt (fun s => (f s).z) w.z t

/-- The point at distance `R` in the direction of right ascension `a` and declination `d` (radians). -/
noncomputable def sky (R a d : ℝ) : Vec := ⟨R * (cos d * cos a), R * (cos d * sin a), R * sin d⟩

end Sorcha.Ephem.Spec
