import Verif.Photom.Model
import Mathlib.Data.List.Sort
import Mathlib.Data.List.Rotate

/-!
# Model of the camera footprint

Real arithmetic. A point of the focal plane is a pair of reals.
-/

namespace Sorcha.Geom
open Sorcha.Photom Real

/-- A point on the focal plane. -/
abbrev Pt := ℝ × ℝ

/-- `distToSegment`, PPFootprintFilter.py:36-77, for one point. -/
noncomputable def distToSegment (p : Pt) (x0 y0 x1 y1 : ℝ) : ℝ :=
  let lenSq := (x1 - x0) * (x1 - x0) + (y1 - y0) * (y1 - y0)
  if lenSq = 0 then √((p.1 - x0) * (p.1 - x0) + (p.2 - y0) * (p.2 - y0))
  else
    let t := ((p.1 - x0) * (x1 - x0) + (p.2 - y0) * (y1 - y0)) / lenSq
    let t := if t < 0 then 0 else t
    let t := if t > 1 then 1 else t
    let projX := x0 + (x1 - x0) * t
    let projY := y0 + (y1 - y0) * t
    √((p.1 - projX) * (p.1 - projX) + (p.2 - projY) * (p.2 - projY))

/-- `np.cross`. -/
def cross3 (a b : Vec) : Vec := ⟨a.y * b.z - a.z * b.y, a.z * b.x - a.x * b.z, a.x * b.y - a.y * b.x⟩

/-- `np.sum(a * b)` of two vectors. -/
def dot3 (a b : Vec) : ℝ := a.x * b.x + a.y * b.y + a.z * b.z

/-- `v / np.linalg.norm(v)`. -/
noncomputable def unit3 (v : Vec) : Vec := ⟨v.x / √(dot3 v v), v.y / √(dot3 v v), v.z / √(dot3 v v)⟩

/-- `radec_to_tangent_plane`, PPFootprintFilter.py:85-140; angles in radians. -/
noncomputable def radecToTangentPlane (ra dec fieldRa fieldDec : ℝ) : Pt :=
  let o : Vec := ⟨cos ra * cos dec, sin ra * cos dec, sin dec⟩
  let f : Vec := ⟨cos fieldRa * cos fieldDec, sin fieldRa * cos fieldDec, sin fieldDec⟩
  let fx : Vec := ⟨-f.y, f.x, 0⟩
  let fy := cross3 f fx
  let fx := unit3 fx
  let fy := unit3 fy
  let k := 1 / dot3 f o
  let o : Vec := ⟨o.x * k - f.x, o.y * k - f.y, o.z * k - f.z⟩
  (dot3 o fx, dot3 o fy)

/-- `radec_to_focal_plane`, PPFootprintFilter.py:143-178: rotation by complex multiplication. -/
noncomputable def radecToFocalPlane (ra dec fieldRa fieldDec fieldRot : ℝ) : Pt :=
  let xy := radecToTangentPlane ra dec fieldRa fieldDec
  let z : ℂ := (⟨xy.1, xy.2⟩ : ℂ) * Complex.exp (Complex.I * fieldRot)
  (z.re, z.im)

/-- A detector: its corners on the focal plane and their centroid. -/
structure Detector where
  corners : List Pt
  center : Pt

/-- The projection of a corner in `Detector.__init__`, PPFootprintFilter.py:219-226. -/
noncomputable def projectCorner (c : Pt) : Pt :=
  let z := cos c.1 * cos c.2
  (sin c.1 * cos c.2 / z, sin c.2 / z)

/-- The centroid, PPFootprintFilter.py:228-230. -/
noncomputable def centroid (l : List Pt) : Pt := ((l.map (·.1)).sum / l.length, (l.map (·.2)).sum / l.length)

/-- `Detector.__init__`, PPFootprintFilter.py:189-230, for corners in radians (the only units the footprint uses). -/
noncomputable def Detector.init (points : List Pt) : Detector :=
  { corners := points.map projectCorner, center := centroid (points.map projectCorner) }

/-- `np.roll(l, 1)`. -/
def roll (l : List Pt) : List Pt := l.getLast?.toList ++ l.dropLast

/-- `trueArea`, PPFootprintFilter.py:302-328. -/
noncomputable def trueArea (d : Detector) : ℝ :=
  let l := d.corners.map fun c => (c.1 - d.center.1, c.2 - d.center.2)
  0.5 * ((l.zip (roll l)).map fun e => |e.1.1 * e.2.2 - e.1.2 * e.2.1|).sum

/-- `segmentedArea`, PPFootprintFilter.py:330-371. -/
noncomputable def segmentedArea (d : Detector) (p : Pt) : ℝ :=
  let l := d.corners.map fun c => (c.1 - p.1, c.2 - p.2)
  0.5 * ((l.zip (roll l)).map fun e => |e.1.1 * e.2.2 - e.1.2 * e.2.1|).sum

/-- Squared distance, as in PPFootprintFilter.py:267-268. -/
def sq (p q : Pt) : ℝ := (p.1 - q.1) ^ 2 + (p.2 - q.2) ^ 2

/-- `np.max` of a non-empty list. -/
noncomputable def npMax (l : List ℝ) : ℝ := l.max?.getD 0

/-- The edges tested, PPFootprintFilter.py:284-292: corner `i` and corner `i + 1` modulo `n`. -/
def edges (l : List Pt) : List (Pt × Pt) := l.zip (l.rotate 1)

/-- `Detector.ison`, PPFootprintFilter.py:232-300, for one point and a detector in radians: the edge threshold is in
arcseconds. -/
noncomputable def isOn (d : Detector) (ε : ℝ) (edgeThresh : Option ℝ) (p : Pt) : Prop :=
  sq p d.center ≤ npMax (d.corners.map fun c => sq c d.center) ∧
  |segmentedArea d p - trueArea d| ≤ ε ∧
  match edgeThresh with
  | none => True
  | some e => ∀ ed ∈ edges d.corners, distToSegment p ed.1.1 ed.1.2 ed.2.1 ed.2.2 > deg2rad (e / 3600)

/-- `sortCorners`, PPFootprintFilter.py:373-394: by angle about the centre. -/
noncomputable def sortCorners (d : Detector) : Detector :=
  { d with corners := d.corners.insertionSort fun a b =>
      arctan2 (a.2 - d.center.2) (a.1 - d.center.1) ≤ arctan2 (b.2 - d.center.2) (b.1 - d.center.1) }

/-- `Footprint.__init__`, PPFootprintFilter.py:569-592: corners grouped by detector, in order of first appearance. -/
noncomputable def footprint (rows : List (String × Pt)) : List Detector :=
  let names := (rows.map (·.1)).reverse.dedup.reverse
  names.map fun n => sortCorners (Detector.init ((rows.filter (·.1 = n)).map (·.2)))

/-- `Footprint.applyFootprint` after the projection, PPFootprintFilter.py:689-702: for every detector in turn the positions of
the points on it, with the detector's number. -/
noncomputable def applyFootprint (ds : List Detector) (ε : ℝ) (edgeThresh : Option ℝ) (points : List Pt) : List (ℕ × ℕ) :=
  open Classical in
  ds.zipIdx.flatMap fun d => (points.zipIdx.filter fun p => decide (isOn d.1 ε edgeThresh p.1)).map fun p => (p.2, d.2)

end Sorcha.Geom
