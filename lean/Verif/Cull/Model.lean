import Verif.Ephem.Parse
import Verif.Mags.Model

/-!
# Model of the faint-object filter with its estimate of the perihelion

modules/PPFaintObjectCullingFilter.py:10-135, for a table of orbits and physical parameters. Real arithmetic.
-/

namespace Sorcha.Cull
open Sorcha.Photom Sorcha.Ephem

/-- The ways the filter stops. -/
inductive Err
  | noRows                    -- uncaught `IndexError` of `iloc[0]`
  | format                    -- uncaught `ValueError` of `get_perihelion_row`
  | cull (e : Mags.Err)
deriving DecidableEq, Repr

/-- A row of the joined table: identifier, absolute magnitude, colours, epoch and the row of the orbit table. -/
structure Target where
  id : String
  H : ℝ
  colour : String → ℝ
  epoch : ℝ
  row : OrbitRow

/-- The masses, PPFaintObjectCullingFilter.py:121-122. -/
noncomputable def gmSun : ℝ := 2.9591220828559115e-04
noncomputable def gmTotal : ℝ := 2.9630927487993194e-04

/-- The Sun at rest at the origin, PPFaintObjectCullingFilter.py:127. -/
noncomputable def atRest : Vec × Vec := (⟨0, 0, 0⟩, ⟨0, 0, 0⟩)

/-- The perihelion of one row for the epoch of the first row, PPFaintObjectCullingFilter.py:129-133. The ephemeris (`None`) is not looked at since the
dictionary has the epoch. -/
noncomputable def perihelion (cart : ToCartesian) (epoch : ℝ) (row : OrbitRow) : Except Err ℝ :=
  match perihelionRow cart (fun _ => atRest) gmSun gmTotal row epoch [(epoch, atRest)] with
  | none => .error .format
  | some k => .ok k.1.q

/-- `PPEstimatePerihelion`, PPFaintObjectCullingFilter.py:103-135. -/
noncomputable def estimate (cart : ToCartesian) : List Target → Except Err (List ℝ)
  | [] => .error .noRows
  | t :: ts => (t :: ts).mapM fun s => perihelion cart t.epoch s.row

/-- The column `q`: of the table if it has one, else estimated, PPFaintObjectCullingFilter.py:52-53. -/
noncomputable def perihelia (cart : ToCartesian) (hasQ : Bool) (ts : List Target) : Except Err (List ℝ) :=
  if hasQ then .ok (ts.map fun t => t.row.q) else estimate cart ts

/-- `PPFaintObjectCullingFilter`, PPFaintObjectCullingFilter.py:10-100: `hasQ` tells whether the table has a column `q`. The result is the list of
identifiers kept. -/
noncomputable def cullOrbits (cart : ToCartesian) (hasQ : Bool) (boost : Mags.Boost) (main : String) (observing : List String) (visits : List Mags.Visit)
    (ts : List Target) : Except Err (List String) := do
  let qs ← perihelia cart hasQ ts
  let out ← (Mags.cull boost main observing visits ((ts.zip qs).map fun p => ⟨p.1.id, p.2, p.1.H, p.1.colour⟩)).mapError .cull
  .ok (out.map (·.id))

end Sorcha.Cull
