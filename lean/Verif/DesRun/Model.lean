import Verif.Pipeline.Model
import Verif.Visits.Model
import Verif.Des.Model

/-!
# Model of a DES run: the loop of `runDESSimulation`

des.py:178-407. The steps shared with the Rubin run are those of `Pipeline.Model`; this file models how a DES run puts them together and the steps it has of its own.
-/

namespace Sorcha.DesRun
open Sorcha.Pipeline (Row State Meas)

/-- The ways a round stops. -/
inductive Err
  | base (e : Pipeline.Err)   -- one of the steps shared with a Rubin run
  | column                    -- a column is read that a DES run never makes
  | typeError                 -- a number is needed and the setting is `None`
  | index                     -- `iloc` beyond the table
  | position                  -- a heliocentric position is not finite: not modelled
deriving DecidableEq, Repr

/-- Everything the loop uses besides the configuration. -/
structure Env (G W V : Type) where
  /-- what a Rubin run uses too -/
  base : Pipeline.Env G W V
  /-- the outside functions of the visits footprint -/
  ext : Visits.Ext
  /-- the visits database: the chips of a field -/
  chips : String → List Visits.Chip
  /-- the field of a row as it is used in the query -/
  fieldKey : ℕ → String
  /-- `fieldRA_deg` -/
  fieldRA : Row W V → ℝ
  /-- detection probability for the given transient efficiency -/
  prob : Fl → Row W V → Fl
  /-- `sort_values` of the discovery filter -/
  sortTime : List (Des.Row (Row W V)) → List (Des.Row (Row W V))

variable {G W V : Type}

/-- The columns the visits footprint reads, PPVisitsFootprintFilter.py:60-67. -/
noncomputable def toVisit (E : Env G W V) (r : ℕ × Row W V) : Visits.Obs :=
  ⟨r.1, E.fieldKey r.2.rest.src.1.field, (r.2.rest.ra : ℝ), (r.2.rest.dec : ℝ), E.fieldRA r.2⟩

/-- The branch `visits_footprint` of `PPApplyFOVFilter`, PPApplyFOVFilter.py:58-70. The radius is the sum of two settings that are `None` with external ephemerides. The
column `limMag_perChip`, which no later step reads, is left out, and chip numbers are taken to be natural numbers. -/
noncomputable def onVisits (E : Env G W V) (c : Config.Cfg) (t : Table (Row W V)) : Except Err (Table (Row W V)) :=
  match c.simulation with
  | none => .error .typeError
  | some a =>
    match Pipeline.toQ (a.fov.add a.buffer) with
    | none => .error (.base .settings)
    | some b =>
      match (Visits.visitsFootprint E.ext 3 (b : ℝ) E.chips (t.map (toVisit E))).mapM
          (fun h => (t[h.1]?).map fun r => (r.1, { r.2 with rest := { r.2.rest with detector := some h.2.detectorID.toNat } })) with
      | none => .error .index
      | some l => .ok (E.base.sortIndex l)

/-- The field of view, des.py:299-310. -/
noncomputable def view (E : Env G W V) (c : Config.Cfg) (s : State G) (t : Table (Row W V)) : Except Err (Table (Row W V) × State G) :=
  match c.fov with
  | .visits _ => if t.length > 0 then (onVisits E c t).map fun t => (t, s) else .ok (t, s)
  | _ => (Pipeline.fieldOfView E.base c s t).mapError .base

/-- `randomizeAstrometryAndPhotometry`, des.py:276-297: it reads uncertainties and signal-to-noise ratios, which are not computed (des.py:267-274 is commented out). -/
def randomize (c : Config.Cfg) (t : Table (Row W V)) : Except Err (Table (Row W V)) :=
  if c.expert.randomization.on then .error .column else .ok t

/-- The SNR cut, des.py:312-320; there is no column `SNRPSFMag`. -/
def snrCut (c : Config.Cfg) (t : Table (Row W V)) : Except Err (Table (Row W V)) :=
  if c.expert.snrLimit.isSome && decide (t.length > 0) then .error .column else .ok t

/-- The fading function, des.py:328-337, and DESFadingFunctionFilter.py:8-53. The settings of the other surveys do not have the transient efficiency. -/
def fade (E : Env G W V) (c : Config.Cfg) (s : State G) (t : Table (Row W V)) : Except Err (Table (Row W V) × State G) :=
  match c.fading with
  | .off => .ok (t, s)
  | .on _ _ => if t.length > 0 then .error .typeError else .ok (t, s)
  | .des efficiency =>
    if t.length > 0 then
      let (t, g) := Rng.fadingFilter E.base.gen E.base.md5 (E.prob efficiency) s.rngs t
      .ok (t, { s with rngs := g })
    else .ok (t, s)

/-- `(x * u.au).to(u.km).value`, PPDistanceandMotionCuts.py:30-31. -/
def km : Fl → Fl
  | .fin q => .fin (q * 1495978707 / 10)
  | x => x

/-- The distance cut, des.py:347-354. -/
def distance (c : Config.Cfg) (t : Table (Row W V)) : Except Err (Table (Row W V)) :=
  if c.linking.distanceOn.on && decide (t.length > 0) then
    match c.linking.distance with
    | none => .error .typeError
    | some (upper, lower) => .ok (Filters.distanceCut (km upper) (km lower) t)
  else .ok t

/-- The motion cut, des.py:356-363. -/
def motion (c : Config.Cfg) (t : Table (Row W V)) : Except Err (Table (Row W V)) :=
  if c.linking.motionOn.on && decide (t.length > 0) then
    match c.linking.motion with
    | none => .error .typeError
    | some (upper, lower) => .ok (Filters.motionCut upper lower t)
  else .ok t

/-- The columns the discovery filter reads, DESDiscoveryFilter.py:45-63. -/
def toDes (r : Row W V) : Option (Des.Row (Row W V)) :=
  match r.x, r.y, r.z with
  | .fin x, .fin y, .fin z => some ⟨r.objId, r.rest.src.1.mjd, x, y, z, r⟩
  | _, _, _ => none

/-- The discovery filter, des.py:365-370. -/
def discover (E : Env G W V) (c : Config.Cfg) (t : Table (Row W V)) : Except Err (List (Row W V)) :=
  if c.linking.desDiscovery.on && decide (t.length > 0) then
    match t.rows.mapM toDes with
    | none => .error .position
    | some rows => .ok ((Des.discoveryFilter E.sortTime rows).map (·.rest))
  else .ok t.rows

/-- One round after its observations have been read or generated, des.py:227-393. -/
noncomputable def process (E : Env G W V) (c : Config.Cfg) (s : State G) (obs : List (Pointing.Obs W)) : Except Err (List (Row W V) × State G) :=
  if obs.length = 0 then .ok ([], { s with round := s.round + 1 })
  else do
    let t ← (Pipeline.measured E.base c obs).mapError .base
    let t ← randomize c t
    let (t, s) ← view E c s t
    let t ← snrCut c t
    let (t, s) ← fade E c s (Pipeline.magCut c t)
    let t ← (Pipeline.brightCut c t).mapError .base
    let t ← distance c t
    let t ← motion c t
    let out ← discover E c t
    return (out, { s with round := s.round + 1 })

/-- The rounds one after the other, des.py:178-394: what each of them hands over for output. A round without rows writes nothing. -/
noncomputable def rounds (E : Env G W V) (c : Config.Cfg) (s : State G) : List (List (Pointing.Obs W)) → Except Err (List (List (Row W V)))
  | [] => .ok []
  | obs :: rest => do
    let (out, s) ← process E c s obs
    let outs ← rounds E c s rest
    return if out.length > 0 then out :: outs else outs

/-- A run with an external ephemeris file, des.py:130-146 and 184-187: the blocks of the readers through the rounds. -/
noncomputable def runExternal {C : Type} (E : Env G W V) (c : Config.Cfg) (s : State G) (parse : List C → ℕ × ℚ × W) (P : Readers.IdParse) (missing : List C)
    (fe fo : List (Readers.Line C)) (fs : List (List (Readers.Line C))) (fuel : ℕ) : Option (Except Err (List (List (Row W V)))) :=
  match Readers.runExternal P missing fe fo fs c.input.chunk fuel with
  | none => none
  | some (.error _) => some (.error (.base .reader))
  | some (.ok blocks) => some (rounds E c s (blocks.map fun b => b.map (Pipeline.toObs parse)))

/-- A run with generated ephemerides, des.py:188-219: `cull` is the faint object filter, `ephem` makes the observations of the objects of the block. A block with no
object left is skipped. -/
noncomputable def runGenerated {C : Type} (E : Env G W V) (c : Config.Cfg) (s : State G) (cull : Readers.Rec C → Bool)
    (ephem : List (Readers.Rec C) → List (Pointing.Obs W)) (P : Readers.IdParse) (missing : List C) (fo : List (Readers.Line C))
    (fs : List (List (Readers.Line C))) (fuel : ℕ) : Option (Except Err (List (List (Row W V)))) :=
  match Readers.runAux P missing fo fs c.input.chunk fuel with
  | none => none
  | some (.error _) => some (.error (.base .reader))
  | some (.ok blocks) => some (rounds E c s (blocks.map fun b =>
      if c.expert.bruteForce then ephem b
      else if (b.filter fun r => !cull r).length = 0 then [] else ephem (b.filter fun r => !cull r)))

end Sorcha.DesRun
