import Verif.Ini.Model
import Verif.Pipeline.Model
import Verif.Cameras.Model

/-!
# Model of a Rubin run from the text of its configuration file

sorcha.py:60-394: the configuration (`Ini.configure`), the pointing table (`Pointing.readPointing`), the camera (`Cameras.builtIn`) and the loop
(`Pipeline.rounds`) put together. The observations of the rounds, read from a file or generated, are the argument `blocks`.
-/

namespace Sorcha.Shipped

open Sorcha.Pipeline (Env Row Final State)

variable {G W V : Type}

/-- The ways a run stops. -/
inductive Stop
  | config (e : Ini.Stop)
  | pointing (e : Pointing.Err)
  | camera                       -- another camera than the built-in ones, or an edge threshold that is not a finite number: not modelled
  | run (e : Pipeline.Err)
deriving Repr

/-- Position, field centre and rotation of a row in degrees, as `applyFootprint` reads them (PPFootprintFilter.py:624-681): columns `RA_deg` and
`Dec_deg` of the row, `fieldRA_deg`, `fieldDec_deg`, `fieldRotSkyPos_deg` of its visit, given by `field`. -/
def sky (field : V → ℝ × ℝ × ℝ) (r : Row W V) : ℝ × ℝ × ℝ × ℝ × ℝ :=
  (r.rest.ra, r.rest.dec, (field r.rest.src.2.rest).1, (field r.rest.src.2.rest).2.1, (field r.rest.src.2.rest).2.2)

/-- `detector.ison` of each detector in turn, PPFootprintFilter.py:670-702 (`Cameras.observe`), for one row. -/
noncomputable def detectors (field : V → ℝ × ℝ × ℝ) (camera : List (String × Geom.Pt)) (t : Option ℝ) : List (Row W V → Bool) :=
  open Classical in
  (Geom.footprint camera).map fun d r =>
    decide (Geom.isOn d Cameras.tolerance t (Geom.radecToFocalPlane (Photom.deg2rad (sky field r).1) (Photom.deg2rad (sky field r).2.1)
      (Photom.deg2rad (sky field r).2.2.1) (Photom.deg2rad (sky field r).2.2.2.1) (Photom.deg2rad (sky field r).2.2.2.2)))

/-- The edge threshold as a number, PPApplyFOVFilter.py:48. -/
def threshold : Option Fl → Option (Option ℝ)
  | none => some none
  | some (.fin q) => some (some q)
  | _ => none

/-- The footprint, sorcha.py:174-177 and PPFootprintFilter.py:541-563: without a path (or with an empty one) the built-in camera of the survey. -/
noncomputable def camera (lower : String → String) (survey : String) (field : V → ℝ × ℝ × ℝ) (fov : Config.Fov) :
    Except Stop (List (Row W V → Bool)) :=
  match fov with
  | .footprint path edge =>
    match (path.getD "" == ""), Cameras.builtIn (lower survey), threshold edge with
    | true, some c, some t => .ok (detectors field c t)
    | _, _, _ => .error .camera
  | _ => .ok []

/-- A Rubin run. `answer` is the answer to the query of the pointing database; `E` gives everything else the run uses, its pointing table and its
detectors excepted. -/
noncomputable def run (py : Config.Py) (lcMethods caMethods : List String) (survey : String) (lines : List Ini.Line) (field : V → ℝ × ℝ × ℝ)
    (answer : Option (List (Pointing.Visit V))) (E : Env G W V) (s : State G) (blocks : List (List (Pointing.Obs W))) :
    Except Stop (List (List (Final W V))) :=
  match Ini.configure py lcMethods caMethods survey lines with
  | .error e => .error (.config e)
  | .ok (c, _) =>
    match Pointing.readPointing answer c.filters survey false false with
    | .error e => .error (.pointing e)
    | .ok db =>
      match camera py.lower survey field c.fov with
      | .error e => .error e
      | .ok ds =>
        match Pipeline.rounds { E with db := db, detectors := ds } c s blocks with
        | .error e => .error (.run e)
        | .ok outs => .ok outs

end Sorcha.Shipped
