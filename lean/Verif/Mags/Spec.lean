import Verif.Mags.Model

/-!
# Specification vocabulary for magnitudes
-/

namespace Sorcha.Mags.Spec
open Sorcha.Mags Sorcha.Photom

/-- Absolute magnitude in the filter of the visit: the one of the main filter, plus the colour for any other filter. -/
noncomputable def absoluteInFilter (main : String) (r : Row) : ℝ :=
  if r.filt = main then r.val ("H_" ++ main) else r.val ("H_" ++ main) + r.val (r.filt ++ "-" ++ main)

/-- Value of a phase parameter for an observation: the common column if the common columns are given, else the column of its
filter. -/
noncomputable def phaseValue (common : Prop) [Decidable common] (p : String) (r : Row) : ℝ :=
  if common then r.val p else r.val (p ++ r.filt)

/-- The parameters each phase function needs. -/
inductive Needs : String → List String → Prop
  | HG1G2 : Needs "HG1G2" ["G1", "G2"]
  | HG : Needs "HG" ["GS"]
  | HG12 : Needs "HG12" ["G12"]
  | linear : Needs "linear" ["S"]
  | none : Needs "none" []

/-- Distance in astronomical units. -/
noncomputable def au (km : ℝ) : ℝ := km / 149597870.7

/-- Apparent magnitude of an object with absolute magnitude `H` at heliocentric distance `r` and range `d` (au), not counting
phase and activity. -/
noncomputable def apparent (H r d : ℝ) : ℝ := H + 5 * Real.logb 10 (r * d)

end Sorcha.Mags.Spec
