import Verif.Filters.Model
import Mathlib.Data.EReal.Basic
import Mathlib.Analysis.Real.Sqrt

/-!
# Specification vocabulary of the cuts

Written against extended real numbers and square roots, not against the comparison operators of the model.
-/

namespace Sorcha.Filters.Spec

/-- The number a float stands for; NaN stands for no number. -/
noncomputable def num : Fl → Option EReal
  | .nan => none
  | .ninf => some ⊥
  | .fin q => some (((q : ℝ)) : EReal)
  | .pinf => some ⊤

/-- `x` is strictly smaller than `y`, both being numbers. -/
def Below (x y : Fl) : Prop := ∃ a b, num x = some a ∧ num y = some b ∧ a < b

/-- Real length of a 3-vector with rational coordinates. -/
noncomputable def length3 (x y z : ℚ) : ℝ := Real.sqrt ((x : ℝ) ^ 2 + (y : ℝ) ^ 2 + (z : ℝ) ^ 2)

/-- Real length of a 2-vector with rational coordinates. -/
noncomputable def length2 (x y : ℚ) : ℝ := Real.sqrt ((x : ℝ) ^ 2 + (y : ℝ) ^ 2)

/-- Position coordinates of the row are finite: `(x, y, z)`. -/
def PositionIs {ρ : Type} (r : Det ρ) (x y z : ℚ) : Prop := r.x = .fin x ∧ r.y = .fin y ∧ r.z = .fin z

/-- The heliocentric distance of the row lies strictly between the limits. -/
def DistanceInside {ρ : Type} (lower upper : ℚ) (r : Det ρ) : Prop :=
  ∃ x y z, PositionIs r x y z ∧ (lower : ℝ) < length3 x y z ∧ length3 x y z < upper

/-- The on-sky motion of the row lies strictly between the limits. -/
def MotionInside {ρ : Type} (lower upper : ℚ) (r : Det ρ) : Prop :=
  ∃ a d, r.raRate = .fin a ∧ r.decRate = .fin d ∧ (lower : ℝ) < length2 a d ∧ length2 a d < upper

/-- The row is brighter than a saturation limit that applies to it. -/
def Saturated {ρ : Type} (observingFilters : List String) (limits : List Fl) (r : Det ρ) : Prop :=
  ∃ (i : ℕ) (f : String) (x : Fl), observingFilters[i]? = some f ∧ limits[i]? = some x ∧ r.optFilter = f ∧ Below r.psfMag x

/-- No two rows of the table carry the same index label. -/
def UniqueLabels {ρ : Type} (t : Table ρ) : Prop := (t.map Prod.fst).Nodup

end Sorcha.Filters.Spec
