import Verif.Base.Fl
import Verif.Base.Table

/-!
# Model of the deterministic cuts

`PPMagnitudeLimit`, `PPSNRLimit`, `PPBrightLimit`, `distance_cut`, `motion_cut`.
-/

namespace Sorcha.Filters

/-- The columns of one observation the cuts look at; `rest` stands for all others. -/
structure Det (ρ : Type) where
  objId : String
  optFilter : String
  psfMag : Fl
  trailedSourceMag : Fl
  snr : Fl              -- SNRPSFMag
  x : Fl                -- Obj_Sun_x_LTC_km
  y : Fl
  z : Fl
  raRate : Fl           -- RARateCosDec_deg_day
  decRate : Fl          -- DecRate_deg_day
  rest : ρ
deriving DecidableEq, Repr

variable {ρ : Type}

/-- `PPMagnitudeLimit`, modules/PPMagnitudeLimit.py:25-28 (default column `trailedSourceMag`). -/
def magnitudeLimit (limit : Fl) (t : Table (Det ρ)) : Table (Det ρ) :=
  (t.mask fun r => r.trailedSourceMag.lt limit).resetIndex

/-- `PPSNRLimit`, modules/PPSNRLimit.py:28-31 (default column `SNRPSFMag`). -/
def snrLimit (limit : Fl) (t : Table (Det ρ)) : Table (Det ρ) :=
  (t.mask fun r => limit.lt r.snr).resetIndex

/-- The value of `bright_limit`: a float, a list, or something else (`None`, int ...). -/
inductive BrightLimit
  | one (x : Fl)
  | perFilter (xs : List Fl)
  | other
deriving DecidableEq, Repr

/-- The ways `PPBrightLimit` fails: `sys.exit` on a wrong type, `IndexError` on a short list. -/
inductive BrightErr
  | badType
  | indexError
deriving DecidableEq, Repr

/-- The loop over the filters, modules/PPBrightLimit.py:38-42: labels to drop; `bright_limit[i]` raises if the list is too
short. -/
def brightLabels (t : Table (Det ρ)) : List String → List Fl → Except BrightErr (List ℕ)
  | [], _ => .ok []
  | _ :: _, [] => .error .indexError
  | f :: fs, x :: xs => do
    let rest ← brightLabels t fs xs
    return t.labelsWhere (fun r => decide (r.optFilter = f) && r.psfMag.lt x) ++ rest

/-- `PPBrightLimit`, modules/PPBrightLimit.py:31-54. -/
def brightLimit (observingFilters : List String) (bl : BrightLimit) (t : Table (Det ρ)) :
    Except BrightErr (Table (Det ρ)) :=
  match bl with
  | .one x => .ok (t.dropLabels (t.labelsWhere fun r => r.psfMag.lt x)).resetIndex
  | .perFilter xs => do
    let ls ← brightLabels t observingFilters xs
    return (t.dropLabels ls).resetIndex
  | .other => .error .badType

/-- `distance_sq`, modules/PPDistanceandMotionCuts.py:25-29. -/
def distanceSq (r : Det ρ) : Fl := (r.x.sq.add r.y.sq).add r.z.sq

/-- `distance_cut`, modules/PPDistanceandMotionCuts.py:25-40.  `upper`, `lower` are the limits already converted to
km (lines 30-31 multiply by the length of one au). -/
def distanceCut (upper lower : Fl) (t : Table (Det ρ)) : Table (Det ρ) :=
  let within := t.mask fun r => (distanceSq r).lt upper.sq && lower.sq.lt (distanceSq r)
  let objs := (within.rows.map (·.objId)).dedup
  t.mask fun r => objs.contains r.objId

/-- `motion_sq`, modules/PPDistanceandMotionCuts.py:63. -/
def motionSq (r : Det ρ) : Fl := r.raRate.sq.add r.decRate.sq

/-- `motion_cut`, modules/PPDistanceandMotionCuts.py:63-69. -/
def motionCut (upper lower : Fl) (t : Table (Det ρ)) : Table (Det ρ) :=
  t.dropLabels (t.labelsWhere fun r => !((motionSq r).lt upper.sq && lower.sq.lt (motionSq r)))

end Sorcha.Filters
