import Verif.DesRun.Model
import Verif.Pipeline.Spec
import Verif.Visits.Spec
import Verif.Des.Spec

/-!
# Specification: what a DES run outputs

Nothing here refers to the stages of `Model.lean`, only to its records.
-/

namespace Sorcha.DesRun.Spec
open Sorcha.Filters.Spec (Below Saturated DistanceInside MotionInside)
open Sorcha.Pipeline (Row)
open Sorcha.Pipeline.Spec (rowOf bare)

variable {G W V : Type}

/-- The radius of the search for observations: the sum of the two settings, in degrees. -/
def Radius (c : Config.Cfg) (b : ℚ) : Prop := ∃ a f g, c.simulation = some a ∧ a.fov = .fin f ∧ a.buffer = .fin g ∧ b = f + g

/-- A row as the visits footprint sees it. -/
noncomputable def place (E : Env G W V) (r : Row W V) : Visits.Obs :=
  ⟨0, E.fieldKey r.rest.src.1.field, (r.rest.ra : ℝ), (r.rest.dec : ℝ), E.fieldRA (bare r)⟩

/-- The row is inside the configured field of view: for the visits footprint it is on a chip of its own visit and has that chip's number. -/
def InView (E : Env G W V) (c : Config.Cfg) (r : Row W V) : Prop :=
  match c.fov with
  | .visits _ => ∃ b, Radius c b ∧ ∃ chip ∈ E.chips (E.fieldKey r.rest.src.1.field), ∃ p, Visits.Spec.Place (b : ℝ) (place E r) p ∧
      E.ext.contains chip p = true ∧ r.rest.detector = some chip.detectorID.toNat
  | _ => Pipeline.Spec.InView E.base c r

/-- The row obeys the limits on magnitude. -/
structure WithinLimits (c : Config.Cfg) (r : Row W V) : Prop where
  mag : ∀ l, c.expert.magLimit = some l → Below r.trailedSourceMag l
  bright : c.saturation.on.on = true → ∃ ls, c.saturation.limits = some ls ∧ ¬ Saturated c.filters ls r

/-- The object of the row is seen at least once, among the given rows, at a distance from the Sun between the limits (astronomical units). -/
def Near (c : Config.Cfg) (rows : List (Row W V)) (r : Row W V) : Prop :=
  c.linking.distanceOn.on = true → ∃ upper lower, c.linking.distance = some (.fin upper, .fin lower) ∧
    ∃ r' ∈ rows, r'.objId = r.objId ∧ DistanceInside (lower * 149597870.7) (upper * 149597870.7) r'

/-- The motion of the row on the sky is between the limits. -/
def Moving (c : Config.Cfg) (r : Row W V) : Prop :=
  c.linking.motionOn.on = true → ∃ upper lower, c.linking.motion = some (.fin upper, .fin lower) ∧ MotionInside lower upper r

/-- The limits of the distance and motion cuts are numbers that are not negative. -/
def Sensible (c : Config.Cfg) : Prop :=
  (∀ u l, c.linking.distance = some (u, l) → ∃ x y : ℚ, u = .fin x ∧ l = .fin y ∧ 0 ≤ x ∧ 0 ≤ y) ∧
  ∀ u l, c.linking.motion = some (u, l) → ∃ x y : ℚ, u = .fin x ∧ l = .fin y ∧ 0 ≤ x ∧ 0 ≤ y

/-- A row as the discovery filter sees it. -/
def SeenAs (d : Des.Row (Row W V)) (r : Row W V) : Prop :=
  d.obj = r.objId ∧ d.t = r.rest.src.1.mjd ∧ r.x = .fin d.x ∧ r.y = .fin d.y ∧ r.z = .fin d.z

/-- The rows the field of view makes of one row: one for each detector, for each chip of the visit, or the row itself. -/
def views (E : Env G W V) (c : Config.Cfg) (r : Row W V) : List (Row W V) :=
  match c.fov with
  | .visits _ => (E.chips (E.fieldKey r.rest.src.1.field)).map fun chip => { r with rest := { r.rest with detector := some chip.detectorID.toNat } }
  | _ => Pipeline.Spec.views E.base c r

/-- All rows of the observations: for each visit of the field and each detector or chip. -/
def candidates (E : Env G W V) (c : Config.Cfg) (obs : List (Pointing.Obs W)) : List (Row W V) :=
  obs.flatMap fun o => (E.base.db.filter fun v => v.id = o.field).flatMap fun v =>
    match E.base.measure (o, v) with
    | none => []
    | some m => views E c (rowOf c (o, v) m)

/-- Those of them that are in view and within the limits on magnitude. -/
noncomputable def survivors (E : Env G W V) (c : Config.Cfg) (obs : List (Pointing.Obs W)) : List (Row W V) :=
  keep (fun r => InView E c r ∧ WithinLimits c r) (candidates E c obs)

/-- The rows of objects at the right distance that have the right motion. -/
noncomputable def kept (c : Config.Cfg) (reached : List (Row W V)) : List (Row W V) := keep (fun r => Near c reached r ∧ Moving c r) reached

/-- What the discovery filter makes of the rows: of each object all rows or none; all, if it was seen in nine nights; none, if it does not meet the rule of the survey;
in the order of time. -/
structure Discoveries (kept out : List (Row W V)) : Prop where
  all_or_none : ∀ id, (out.filter fun r => r.objId = id).Perm (kept.filter fun r => r.objId = id) ∨ (out.filter fun r => r.objId = id) = []
  rule : ∀ r ∈ out, ∃ ds, List.Forall₂ SeenAs ds (kept.filter fun r' => r'.objId = r.objId) ∧ Des.Spec.Discovered ds
  nine : ∀ id ds, List.Forall₂ SeenAs ds (kept.filter fun r => r.objId = id) → 9 ≤ Des.Spec.nights (ds.map (·.t)) →
    (out.filter fun r => r.objId = id).Perm (kept.filter fun r => r.objId = id)
  time : out.Pairwise fun a b => a.rest.src.1.mjd ≤ b.rest.src.1.mjd

/-- The places a row of a visit can be found at: no detector, one of the detectors, or one of the chips of the visit. -/
def places (E : Env G W V) (c : Config.Cfg) (field : ℕ) : List (Option ℕ) :=
  match c.fov with
  | .footprint _ _ => (List.range E.base.detectors.length).map some
  | .visits _ => (E.chips (E.fieldKey field)).map fun chip => some chip.detectorID.toNat
  | _ => [none]

/-- No fading function, no fill factor, and not the visits footprint, whose answer depends on the other objects of the block (`C52_other_objects_fails`). -/
def Deterministic (c : Config.Cfg) : Prop :=
  c.fading = .off ∧ (∀ fill radius, c.fov = .circle fill radius → fill = none ∨ fill = some (.fin 0)) ∧ ∀ q, c.fov ≠ .visits q

/-- The library behaves: the sorts sort; with the visits footprint, nearest neighbours are nearest, the search radius is at most 90 degrees and the observations are less
than that from their field in right ascension. -/
structure Sound (E : Env G W V) (c : Config.Cfg) (obs : List (Pointing.Obs W)) : Prop where
  sortIndex : ∀ l, (E.base.sortIndex l).Perm l
  sortTime : Des.Spec.SortSound E.sortTime
  visits : ∀ q, c.fov = .visits q → Visits.Spec.Sound E.ext ∧ ∀ b, Radius c b → b ≤ 90 ∧
    Visits.Spec.Regular (b : ℝ) ((Pipeline.Spec.candidates E.base c obs).map (place E))

end Sorcha.DesRun.Spec
