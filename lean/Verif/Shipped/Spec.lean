import Verif.Pipeline.Spec
import Verif.Cameras.Data
import Verif.Geom.Spec
import Mathlib.Analysis.SpecialFunctions.Trigonometric.Basic

/-!
# Specification: what the supplied Rubin configurations stand for

Nothing here refers to how the configuration is read or how the loop works; the numbers are those of the documentation of the configurations.
-/

namespace Sorcha.Shipped.Spec

open Sorcha.Pipeline (Env Row Final)
open Sorcha.Geom.Spec

variable {G W V : Type}

/-- A position on the sky, in degrees, as a point of the focal plane of a camera pointed at a field centre and turned by an angle: the gnomonic projection
about the field centre, rotated. -/
noncomputable def image (ra dec fra fdec rot : ℝ) : ℝ × ℝ :=
  let d := Real.pi / 180
  let den := Real.sin (fdec * d) * Real.sin (dec * d) + Real.cos (fdec * d) * Real.cos (dec * d) * Real.cos ((ra - fra) * d)
  let ξ := Real.cos (dec * d) * Real.sin ((ra - fra) * d) / den
  let η := (Real.cos (fdec * d) * Real.sin (dec * d) - Real.sin (fdec * d) * Real.cos (dec * d) * Real.cos ((ra - fra) * d)) / den
  (Real.cos (rot * d) * ξ - Real.sin (rot * d) * η, Real.sin (rot * d) * ξ + Real.cos (rot * d) * η)

/-- The image of a row's position; `field` gives the field centre and the rotation angle of a visit. -/
noncomputable def position (field : V → ℝ × ℝ × ℝ) (r : Row W V) : ℝ × ℝ :=
  image r.rest.ra r.rest.dec (field r.rest.src.2.rest).1 (field r.rest.src.2.rest).2.1 (field r.rest.src.2.rest).2.2

/-- The corners of a detector on the focal plane; the file of the LSST camera gives them in radians, with 19 decimal places. -/
noncomputable def polygon (corners : List (ℤ × ℤ)) : List (ℝ × ℝ) :=
  corners.map fun c => (Real.tan (c.1 / 10 ^ 19), Real.tan (c.2 / 10 ^ 19) / Real.cos (c.1 / 10 ^ 19))

/-- The point is on the `k`-th detector of the LSST camera, more than two arcseconds from its sides. -/
def OnChip (p : ℝ × ℝ) (k : ℕ) : Prop :=
  ∃ d, Cameras.lsstFile[k]? = some d ∧ p ∈ region (polygon d.2) ∧
    ∀ a b, Side (polygon d.2) a b → ∀ q ∈ segment ℝ a b, 2 / 3600 * (Real.pi / 180) < Geom.Spec.dist p q

/-- One of the six filters. -/
def Band (f : String) : Prop := f = "u" ∨ f = "g" ∨ f = "r" ∨ f = "i" ∨ f = "z" ∨ f = "y"

/-- A visit of the survey in one of the six filters. -/
def Visited (survey : String) (answer : List (Pointing.Visit V)) (v : Pointing.Visit V) : Prop :=
  ∃ v0 ∈ answer, Pointing.Spec.Prepared survey v0 v ∧ Band v.filter

/-- The row is that of an observation during a visit of its field. -/
def From (survey : String) (answer : List (Pointing.Visit V)) (E : Env G W V) (obs : List (Pointing.Obs W)) (r : Row W V) : Prop :=
  ∃ o ∈ obs, ∃ v, Visited survey answer v ∧ v.id = o.field ∧ Pointing.Spec.Agree v.start o.mjd ∧ r.rest.src = (o, v) ∧
    r.objId = o.obj ∧ r.optFilter = v.filter ∧ ∃ m, E.measure (o, v) = some m ∧ r.snr = m.snr

/-- The night of a row; nights start at 16 hours UTC. -/
def night (r : Row W V) : ℤ := ⌊r.rest.src.1.mjd - 16 / 24⌋

/-- The rows of the object have a tracklet in the night: two observations less than 90 minutes and more than half an arcsecond apart. -/
def Tracklet (sep : ℚ → ℚ → ℚ → ℚ → ℚ) (rows : List (Row W V)) (id : String) (n : ℤ) : Prop :=
  ∃ a ∈ rows, ∃ b ∈ rows, a.objId = id ∧ b.objId = id ∧ night a = n ∧ night b = n ∧ a.rest.src.1.mjd < b.rest.src.1.mjd ∧
    (b.rest.src.1.mjd - a.rest.src.1.mjd) * 24 * 60 < 90 ∧ 1 / 2 < sep b.rest.ra b.rest.dec a.rest.ra a.rest.dec * 3600

/-- There are tracklets in at least three of the fifteen nights that end with night `D`. -/
def Discovered (sep : ℚ → ℚ → ℚ → ℚ → ℚ) (rows : List (Row W V)) (id : String) (D : ℤ) : Prop :=
  ∃ N : Finset ℤ, 3 ≤ N.card ∧ ∀ n ∈ N, D - 15 < n ∧ n ≤ D ∧ Tracklet sep rows id n

/-- What is assumed of a run's environment: the library's sorts sort. -/
structure Library (E : Env G W V) : Prop where
  sortIndex : ∀ l, (E.sortIndex l).Perm l
  sortOut : Pipeline.Spec.SortsOut E
  sortT : Linking.Spec.Sorts E.sortT

end Sorcha.Shipped.Spec
