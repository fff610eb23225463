import Verif.Cameras.Data
import Verif.Geom.Model

/-!
# Model of the built-in cameras
-/

namespace Sorcha.Cameras
open Sorcha.Geom

/-- `pd.read_csv` of a camera file, PPFootprintFilter.py:545 and 563: one row per corner, with the detector's name and two numbers.
Simplified: the names of the LSST file, which are whole numbers, are kept as text; the numbers are exact. -/
noncomputable def readCamera (digits : ℕ) (file : List (String × List (ℤ × ℤ))) : List (String × Pt) :=
  file.flatMap fun d => d.2.map fun c => (d.1, ((c.1 : ℝ) / 10 ^ digits, (c.2 : ℝ) / 10 ^ digits))

/-- The table made of `LSST_detector_corners_100123.csv`. -/
noncomputable def lsstCamera : List (String × Pt) := readCamera 19 lsstFile

/-- The table made of `DES_ccd_corners.csv`. -/
noncomputable def desCamera : List (String × Pt) := readCamera 9 desFile

/-- `Footprint.__init__` without a path, PPFootprintFilter.py:551-563, for the survey's name in lower case: the file is chosen
by the name; another name is an uncaught error (`default_camera_config_file` has no value). -/
noncomputable def builtIn (survey : String) : Option (List (String × Pt)) :=
  if ["rubin_sim", "lsst"].contains survey then some lsstCamera
  else if survey == "des" then some desCamera
  else none

/-- The tolerance of `Detector.ison`, PPFootprintFilter.py:232. -/
noncomputable def tolerance : ℝ := 10 ^ (-11 : ℤ)

/-- `Footprint.applyFootprint`, PPFootprintFilter.py:670-702, on the detectors of a built-in camera: positions, field centres
and rotation angles in degrees are turned into focal-plane coordinates; the answer is a list of row numbers and detector numbers. -/
noncomputable def observe (camera : List (String × Pt)) (edgeThresh : Option ℝ) (rows : List (ℝ × ℝ × ℝ × ℝ × ℝ)) : List (ℕ × ℕ) :=
  applyFootprint (footprint camera) tolerance edgeThresh (rows.map fun r =>
    radecToFocalPlane (Photom.deg2rad r.1) (Photom.deg2rad r.2.1) (Photom.deg2rad r.2.2.1) (Photom.deg2rad r.2.2.2.1) (Photom.deg2rad r.2.2.2.2))

end Sorcha.Cameras
