import Verif.Geom.Model

/-!
# Model of the units and the rotation of a detector

`Detector` of PPFootprintFilter.py as a class of its own; a run uses detectors in radians only (`Verif.Geom.Model`).
-/

namespace Sorcha.Geom
open Sorcha.Photom Real

/-- A detector with the name of its units. The attributes `ra` and `dec`, which nothing uses later, are left out. -/
structure UDetector where
  d : Detector
  units : String

/-- The corners and the centre of a detector, each number multiplied by `k`. -/
noncomputable def Detector.scale (k : ℝ) (d : Detector) : Detector :=
  { corners := d.corners.map fun c => (k * c.1, k * c.2), center := (k * d.center.1, k * d.center.2) }

/-- `rad2deg`, PPFootprintFilter.py:436-443. -/
noncomputable def UDetector.rad2deg (u : UDetector) : UDetector :=
  if u.units = "radians" then ⟨u.d.scale (180 / π), "degrees"⟩ else u

/-- `deg2rad`, PPFootprintFilter.py:459-466. -/
noncomputable def UDetector.deg2rad (u : UDetector) : UDetector :=
  if u.units = "degrees" then ⟨u.d.scale (π / 180), "radians"⟩ else u

/-- `Detector.__init__`, PPFootprintFilter.py:211-234. In degrees the method `deg2rad` is called before there are corners: with the units `degrees` it fails with an
`AttributeError` (`none`), with the units `deg` it does nothing. -/
noncomputable def UDetector.new (points : List Pt) (units : String) : Option UDetector :=
  if units = "degrees" then none
  else some ⟨Detector.init points, units⟩

/-- The edge threshold in the units of the detector, PPFootprintFilter.py:277-285; with other units the program stops. -/
noncomputable def edgeIn (units : String) (e : ℝ) : Option ℝ :=
  if units = "degrees" ∨ units = "deg" then some (e / 3600)
  else if units = "radians" ∨ units = "rad" then some (e / 3600 * (π / 180))
  else none

/-- `Detector.ison`, PPFootprintFilter.py:262-305, for one point. With an edge threshold and unknown units the program stops and no point is returned. -/
noncomputable def UDetector.isOn (u : UDetector) (ε : ℝ) (edgeThresh : Option ℝ) (p : Pt) : Prop :=
  sq p u.d.center ≤ npMax (u.d.corners.map fun c => sq c u.d.center) ∧
  |segmentedArea u.d p - trueArea u.d| ≤ ε ∧
  match edgeThresh with
  | none => True
  | some e => ∃ t, edgeIn u.units e = some t ∧ ∀ ed ∈ edges u.d.corners, distToSegment p ed.1.1 ed.1.2 ed.2.1 ed.2.2 > t

/-- The point turned about the origin, PPFootprintFilter.py:413-419. -/
noncomputable def turned (θ : ℝ) (p : Pt) : Pt :=
  let z : ℂ := (⟨p.1, p.2⟩ : ℂ) * ⟨cos θ, sin θ⟩
  (z.re, z.im)

/-- `rotateDetector`, PPFootprintFilter.py:413-420: a new detector, made of the turned corners; its units are the default. -/
noncomputable def UDetector.rotate (θ : ℝ) (u : UDetector) : Option UDetector := UDetector.new (u.d.corners.map (turned θ)) "radians"

end Sorcha.Geom
