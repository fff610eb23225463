import Mathlib.Analysis.Convex.Hull
import Mathlib.Analysis.Convex.Segment
import Mathlib.Analysis.SpecialFunctions.Sqrt
import Mathlib.Data.Real.Basic

/-!
# Specification vocabulary for the camera footprint (independent of the model)
-/

namespace Sorcha.Geom.Spec

/-- Euclidean distance of two points of the plane. -/
noncomputable def dist (p q : ℝ × ℝ) : ℝ := √((p.1 - q.1) ^ 2 + (p.2 - q.2) ^ 2)

/-- The area covered by a detector with the given corners: their convex hull. -/
def region (l : List (ℝ × ℝ)) : Set (ℝ × ℝ) := convexHull ℝ {p | p ∈ l}

/-- The corners of a convex polygon, in any order: at least three, different, none inside the hull of the others. -/
def ConvexPosition (l : List (ℝ × ℝ)) : Prop :=
  3 ≤ l.length ∧ l.Nodup ∧ ∀ v ∈ l, v ∉ convexHull ℝ {p | p ∈ l ∧ p ≠ v}

/-- Twice the signed area of the triangle `a b p`; positive if `p` is to the left of the way from `a` to `b`. -/
def left (a b p : ℝ × ℝ) : ℝ := (b.1 - a.1) * (p.2 - a.2) - (b.2 - a.2) * (p.1 - a.1)

/-- The way from corner `a` to corner `b` is a side of the polygon, passed with the polygon to the left. -/
def Side (l : List (ℝ × ℝ)) (a b : ℝ × ℝ) : Prop := a ∈ l ∧ b ∈ l ∧ a ≠ b ∧ ∀ v ∈ l, 0 ≤ left a b v

end Sorcha.Geom.Spec
