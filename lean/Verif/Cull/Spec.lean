import Verif.Ephem.OrbitSpec
import Verif.Ephem.Parse

/-!
# The orbit that a row of the orbit table describes
-/

namespace Sorcha.Cull.Spec
open Sorcha.Photom Sorcha.Ephem.Spec

/-- `X`, with velocity `V`, moves under the attraction of a mass `mu` at the origin (Newton's law), and never is at the origin. -/
def Moves (mu : ℝ) (X V : ℝ → Vec) : Prop :=
  ∀ t, Velocity X (V t) t ∧ Velocity V (times (-mu / length (X t) ^ 3) (X t)) t ∧ 0 < length (X t)

/-- At some time the point is at perihelion: at distance `q` in the direction given by the angles, moving at right angles with the speed that belongs to
the eccentricity. -/
noncomputable def Perihelion (mu q e i Ω ω : ℝ) (X V : ℝ → Vec) : Prop :=
  ∃ t, X t = times q (perihelionDir i Ω ω) ∧ V t = times √(mu * (1 + e) / q) (motionDir i Ω ω)

/-- The orbit of a row: Cartesian formats give a position and a velocity, Keplerian ones an ellipse, cometary ones any conic. The mass is that of the Sun
or of the whole solar system, in au and days: at most 2.964e-4. -/
noncomputable def Orbit (row : Sorcha.Ephem.OrbitRow) (X : ℝ → Vec) : Prop :=
  ∃ mu V, 0 < mu ∧ mu ≤ 2.964e-4 ∧ Moves mu X V ∧
    ((row.format ∈ ["CART", "BCART"] ∧ ∃ t, X t = row.pos ∧ V t = row.vel) ∨
     (row.format ∈ ["KEP", "BKEP"] ∧ 0 < row.a ∧ 0 ≤ row.e ∧ row.e < 1 ∧
        Perihelion mu (row.a * (1 - row.e)) row.e (radians row.inc) (radians row.node) (radians row.argPeri) X V) ∨
     (row.format ∈ ["COM", "BCOM"] ∧ 0 < row.q ∧ 0 ≤ row.e ∧
        Perihelion mu row.q row.e (radians row.inc) (radians row.node) (radians row.argPeri) X V))

end Sorcha.Cull.Spec
