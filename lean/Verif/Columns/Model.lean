import Verif.Config.Model
import Verif.Mags.Model
import Verif.Rng.Model
import Verif.Output.Model

/-!
# Model of the column names of a run

What happens to the names of the columns of the observations table from the input files to the output, in a Rubin run (sorcha.py:129-409) and in a DES run
(des.py:118-397). The values are left out: a step reads some columns, fails if one of them is missing, and adds, renames or drops columns. The names in one file are taken to
be different and without white space around them.
-/

namespace Sorcha.Columns

/-- The names of the columns of a table, in their order. -/
abbrev Cols := List String

/-- The ways a run stops because of its columns. -/
inductive Err
  | key (c : String)   -- KeyError: a column is read that is not there
  | overlap            -- ValueError: tables with a common column are joined
  | badEphemeris       -- EphemerisReader.py:170-177
  | noColour           -- PPApplyColourOffsets.py:69-71, "H column missing!"
  | noPhase            -- PPApplyColourOffsets.py:86-92 and the same for the other functions
  | unknownPhase       -- PPApplyColourOffsets.py:150-154
  | emptyApply         -- ValueError: `apply` on a table without rows does not give a column
  | noIndex            -- sqlite: an index on a column the table does not have
  | output (e : Output.Err)
deriving DecidableEq, Repr

/-- Reading columns. -/
def need (names : List String) (cs : Cols) : Except Err Unit :=
  match names.find? fun c => c ∉ cs with
  | some c => .error (.key c)
  | none => .ok ()

/-- `observations[c] = ...`: a new column is added at the end. -/
def put (cs : Cols) (c : String) : Cols := if c ∈ cs then cs else cs ++ [c]

/-- A step that reads some columns and assigns others. -/
def step (reads writes : List String) (cs : Cols) : Except Err Cols := do
  need reads cs
  return writes.foldl put cs

/-- `left.join(right.set_index("ObjID"), on="ObjID")`. -/
def join (l r : Cols) : Except Err Cols := do
  need ["ObjID"] r
  need ["ObjID"] l
  if (r.filter fun c => c ≠ "ObjID").any fun c => c ∈ l then .error .overlap else .ok (l ++ r.filter fun c => c ≠ "ObjID")

/-- `pd.merge(left, right, on=key)`: columns of both tables other than the key get the suffixes `_x` and `_y`. -/
def merge (key : String) (l r : Cols) : Cols :=
  (l.map fun c => if c ≠ key ∧ c ∈ r then c ++ "_x" else c) ++ (r.filter fun c => c ≠ key).map fun c => if c ∈ l then c ++ "_y" else c

/-- The columns of the files of a run. -/
structure Files where
  /-- the external ephemeris file; `none`: the ephemerides are generated -/
  ephemeris : Option Cols
  orbits : Cols
  params : Cols
  /-- the file for light curves and activity, read if one of them is on -/
  complex : Cols
  /-- the answer of the pointing database -/
  pointing : Cols

/-- A light curve or activity model: the columns it reads and adds. -/
structure Addon where
  reads : List String
  adds : List String

/-- What else a run depends on: the filter of H, the registered models and the filters of the matched observations of the chunk. -/
structure Run where
  main : String
  lightcurve : Option Addon
  activity : Option Addon
  present : List String

/-! ## Input -/

/-- The columns of an ephemeris, EphemerisReader.py:140-163. -/
def ephemCols : Cols :=
  ["ObjID", "FieldID", "fieldMJD_TAI", "Range_LTC_km", "RangeRate_LTC_km_s", "RA_deg", "RARateCosDec_deg_day", "Dec_deg", "DecRate_deg_day", "Obj_Sun_x_LTC_km",
    "Obj_Sun_y_LTC_km", "Obj_Sun_z_LTC_km", "Obj_Sun_vx_LTC_km_s", "Obj_Sun_vy_LTC_km_s", "Obj_Sun_vz_LTC_km_s", "Obs_Sun_x_km", "Obs_Sun_y_km", "Obs_Sun_z_km",
    "Obs_Sun_vx_km_s", "Obs_Sun_vy_km_s", "Obs_Sun_vz_km_s", "phase_deg"]

/-- `EphemerisDataReader._process_and_validate_input_table`, EphemerisReader.py:137-179. Names are taken to have been stripped. -/
def readEphemeris (cs : Cols) : Except Err Cols := do
  let cs := cs.filter fun c => c ∉ ["V", "V(H=0)"]
  if cs.any fun c => c ∉ ephemCols ∧ c ∉ ["fieldJD_TDB"] then .error .badEphemeris
  else do
    need ephemCols cs
    return ephemCols

/-- The columns of a generated ephemeris, simulation_driver.py:135-159. -/
def generatedCols : Cols :=
  ["ObjID", "FieldID", "fieldMJD_TAI", "fieldJD_TDB", "Range_LTC_km", "RangeRate_LTC_km_s", "RA_deg", "RARateCosDec_deg_day", "Dec_deg", "DecRate_deg_day",
    "Obj_Sun_x_LTC_km", "Obj_Sun_y_LTC_km", "Obj_Sun_z_LTC_km", "Obj_Sun_vx_LTC_km_s", "Obj_Sun_vy_LTC_km_s", "Obj_Sun_vz_LTC_km_s", "Obs_Sun_x_km", "Obs_Sun_y_km",
    "Obs_Sun_z_km", "Obs_Sun_vx_km_s", "Obs_Sun_vy_km_s", "Obs_Sun_vz_km_s", "phase_deg"]

/-- `PPReadPointingDatabase`, PPReadPointingDatabase.py:50-92. -/
def readPointing (des fading : Bool) (cs : Cols) : Except Err Cols := do
  need ["observationId", "filter"] cs
  let cs := (put cs "observationId_").map fun c => if c = "observationId" then "FieldID" else if c = "filter" then "optFilter" else c
  if des then do
    let cs ← step ["observationMidpointMJD_TAI", "visitExposureTime"] ["observationStartMJD_TAI"] cs
    need (if fading then ["c", "k"] else []) cs
    return cs
  else step ["observationStartMJD_TAI", "visitTime"] ["observationMidpointMJD_TAI"] cs

/-- `precompute_pointing_information`, simulation_setup.py:219-270, called if the ephemerides are generated. -/
def precompute (cs : Cols) : Except Err Cols :=
  step ["fieldRA_deg", "fieldDec_deg", "observationMidpointMJD_TAI"]
    ["visit_vector_x", "visit_vector_y", "visit_vector_z", "fieldJD_TDB", "r_obs_x", "r_obs_y", "r_obs_z", "v_obs_x", "v_obs_y", "v_obs_z", "r_sun_x", "r_sun_y", "r_sun_z",
      "v_sun_x", "v_sun_y", "v_sun_z"] cs

/-- The visits as they are matched, sorcha.py:129-140; des.py:118-132. -/
def visits (des : Bool) (c : Config.Cfg) (f : Files) : Except Err Cols := do
  let p ← readPointing des (des && c.fading ≠ .off) f.pointing
  match f.ephemeris with
  | some _ => .ok p
  | none => precompute p

/-- Whether the third auxiliary file is read, sorcha.py:159-160; des.py:150-151. -/
def useComplex (c : Config.Cfg) : Bool := c.activity.isSome || c.lightcurve.isSome

/-- `CombinedDataReader.read_block`, CombinedDataReader.py:173-197: the auxiliary files one after the other. -/
def readBlock (c : Config.Cfg) (f : Files) (eph : Cols) : Except Err Cols := do
  let t ← join eph f.orbits
  let t ← join t f.params
  if useComplex c then join t f.complex else .ok t

/-- `CombinedDataReader.read_aux_block`, CombinedDataReader.py:247-270. -/
def readAux (c : Config.Cfg) (f : Files) : Except Err Cols := do
  let t ← join f.orbits f.params
  if useComplex c then join t f.complex else .ok t

/-- `PPFaintObjectCullingFilter`, PPFaintObjectCullingFilter.py:47-98: the perihelion distance stays in the table. What light curve and activity models read here is left
out, and so are the orbit columns, which `OrbitAuxReader` has checked. -/
def cull (c : Config.Cfg) (r : Run) (db cs : Cols) : Except Err Cols := do
  need ["optFilter", "fieldFiveSigmaDepth_mag"] db
  let cs := put cs "q"
  need ["ObjID"] cs
  need (c.filters.flatMap fun b => if b = r.main then ["H_" ++ r.main] else ["H_" ++ r.main, b ++ "-" ++ r.main]) cs
  return cs

/-- The observations of a chunk before the match, sorcha.py:190-224; des.py:181-215. -/
def observations (c : Config.Cfg) (r : Run) (f : Files) (db : Cols) : Except Err Cols :=
  match f.ephemeris with
  | some e => do
    let eph ← readEphemeris e
    readBlock c f eph
  | none => do
    let t ← readAux c f
    let t ← if c.expert.bruteForce then .ok t else cull c r db t
    join generatedCols t

/-- Columns of the visits that are not merged, PPMatchPointingToObservations.py:44-48. -/
def notMerged : List String :=
  ["fieldJD_TDB", "pixels_begin", "pixels_end", "visit_vector_x", "visit_vector_y", "visit_vector_z", "pixels_x", "pixels_y", "pixels_z", "r_obs_x", "r_obs_y", "r_obs_z",
    "v_obs_x", "v_obs_y", "v_obs_z", "r_sun_x", "r_sun_y", "r_sun_z", "v_sun_x", "v_sun_y", "v_sun_z"]

/-- `PPMatchPointingToObservations`, PPMatchPointingToObservations.py:50-72. -/
def matchVisits (db cs : Cols) : Except Err Cols := do
  let db := db.filter fun c => c ∉ notMerged
  need ["FieldID"] cs
  need ["FieldID"] db
  let cs := merge "FieldID" cs db
  need ["optFilter", "observationStartMJD_TAI", "fieldMJD_TAI", "observationId_", "observationMidpointMJD_TAI"] cs
  return cs.filter fun c => c ∉ ["observationStartMJD_TAI", "observationId_", "observationMidpointMJD_TAI"]

/-! ## Magnitudes -/

/-- The columns of the phase function for more than one filter, PPApplyColourOffsets.py:73-154. Parameters given for each filter are replaced by one column; with no rows
`apply` gives a table and the assignment fails. -/
def phase (c : Config.Cfg) (r : Run) (cs : Cols) : Except Err Cols :=
  match Mags.phaseParams c.phase with
  | none => .error .unknownPhase
  | some ps =>
    if (("H_" ++ r.main) :: ps).all (· ∈ cs) then .ok cs
    else
      let special := ps.flatMap fun p => c.filters.map fun b => p ++ b
      if (("H_" ++ r.main) :: special).all (· ∈ cs) then
        if r.present.isEmpty then .error .emptyApply
        else do
          need (ps.flatMap fun p => r.present.map fun b => p ++ b) cs
          return (ps.foldl put cs).filter fun x => x ∉ special
      else .error .noPhase

/-- `PPApplyColourOffsets`, PPApplyColourOffsets.py:7-164. -/
def colours (c : Config.Cfg) (r : Run) (cs : Cols) : Except Err Cols := do
  need ["H_" ++ r.main] cs
  let cs := put (put cs "H_original") (r.main ++ "-" ++ r.main)
  if r.present.any fun b => b ++ "-" ++ r.main ∉ cs then .error .noColour
  else do
    let cs ← phase c r cs
    return (cs.filter fun x => !Mags.isColour r.main x).map fun x =>
      if x = "H_" ++ r.main then "H_filter" else if x = "H_original" then "H_" ++ r.main else x

/-- `PPCalculateApparentMagnitudeInFilter`, PPCalculateApparentMagnitudeInFilter.py:72-147. -/
def inFilter (c : Config.Cfg) (r : Run) (cs : Cols) : Except Err Cols := do
  need ["Range_LTC_km"] cs
  need (if "Obj_Sun_LTC_km" ∈ cs then [] else ["Obj_Sun_x_LTC_km", "Obj_Sun_y_LTC_km", "Obj_Sun_z_LTC_km"]) cs
  need ["phase_deg", "H_filter"] cs
  need ((Mags.phaseParams c.phase).getD []) cs
  let cs := put cs "trailedSourceMagTrue"
  let cs ← match r.lightcurve with
    | none => .ok cs
    | some a => step a.reads (a.adds ++ ["Delta_m"]) cs
  match r.activity with
  | none => .ok cs
  | some a => step a.reads a.adds cs

/-- `PPCalculateApparentMagnitude`, PPCalculateApparentMagnitude.py:71-92. -/
def magnitudes (c : Config.Cfg) (r : Run) (cs : Cols) : Except Err Cols := do
  let cs ← if c.filters.length > 1 then colours c r cs else step ["H_" ++ r.main] ["H_filter"] cs
  inFilter c r cs

/-- The point source magnitude, sorcha.py:254-263; des.py:245-250. -/
def trailing (c : Config.Cfg) (cs : Cols) : Except Err Cols :=
  step ((if c.expert.trailing.on then ["RARateCosDec_deg_day", "DecRate_deg_day", "seeingFwhmEff_arcsec", "visitExposureTime"] else []) ++ ["trailedSourceMagTrue"])
    ["PSFMagTrue"] cs

/-- The limiting magnitude, sorcha.py:265-272; des.py:252-259. -/
def depth (c : Config.Cfg) (cs : Cols) : Except Err Cols :=
  step ((if c.expert.vignetting.on then ["RA_deg", "Dec_deg", "fieldRA_deg", "fieldDec_deg"] else []) ++ ["fieldFiveSigmaDepth_mag"]) ["fiveSigmaDepth_mag"] cs

/-- `addUncertainties`, PPAddUncertainties.py:99-137. -/
def uncertainties (c : Config.Cfg) (cs : Cols) : Except Err Cols :=
  step ((if c.expert.trailing.on then ["RARateCosDec_deg_day", "DecRate_deg_day", "seeingFwhmGeom_arcsec", "visitExposureTime"] else []) ++
      ["trailedSourceMagTrue", "fiveSigmaDepth_mag", "seeingFwhmGeom_arcsec", "PSFMagTrue"])
    ["astrometricSigma_deg", "SNRTrailedSourceMag", "trailedSourceMagSigma", "SNRPSFMag", "PSFMagSigma"] cs

/-- `randomizeAstrometryAndPhotometry`, PPRandomizeMeasurements.py:72-93 and 163-199, or the copies of sorcha.py:303-306; des.py:294-297. -/
def randomize (c : Config.Cfg) (cs : Cols) : Except Err Cols :=
  if c.expert.randomization.on then do
    need (if c.expert.defaultSnrCut then ["SNRPSFMag"] else []) cs
    let cs ← step ["trailedSourceMagTrue", "trailedSourceMagSigma"] ["trailedSourceMag"] cs
    let cs ← step (if c.expert.trailing.on then ["PSFMagTrue", "PSFMagSigma"] else []) ["PSFMag"] cs
    need ["RA_deg", "Dec_deg", "astrometricSigma_deg"] cs
    let cs := cs.map fun x => if x = "RA_deg" then "RATrue_deg" else if x = "Dec_deg" then "DecTrue_deg" else x
    return put (put cs "RA_deg") "Dec_deg"
  else step ["RA_deg", "Dec_deg", "trailedSourceMagTrue", "PSFMagTrue"] ["RATrue_deg", "DecTrue_deg", "trailedSourceMag", "PSFMag"] cs

/-! ## Filters -/

/-- `PPApplyFOVFilter`, PPApplyFOVFilter.py:45-80. The rotation of the camera is optional. -/
def fieldOfView (c : Config.Cfg) (cs : Cols) : Except Err Cols :=
  match c.fov with
  | .footprint _ _ => step ["RA_deg", "Dec_deg", "fieldRA_deg", "fieldDec_deg"] ["detectorID"] cs
  | .visits _ => step ["FieldID", "RA_deg", "Dec_deg", "fieldRA_deg"] ["detectorID", "limMag_perChip"] cs
  | .circle _ radius =>
    if Rng.truthy radius then do
      need ["RA_deg", "Dec_deg", "fieldRA_deg", "fieldDec_deg"] cs
      return cs.filter fun x => x ≠ "object_separation"
    else .ok cs
  | .none => .ok cs

/-- SNR and magnitude cut, PPSNRLimit.py:5-31 and PPMagnitudeLimit.py:1-28. -/
def cuts (c : Config.Cfg) (cs : Cols) : Except Err Cols :=
  step ((if c.expert.snrLimit.isSome then ["SNRPSFMag"] else []) ++ if c.expert.magLimit.isSome then ["trailedSourceMag"] else []) [] cs

/-- The fading functions, PPFadingFunctionFilter.py:37-49 with PPDetectionProbability.py:101-106, and DESFadingFunctionFilter.py:41-51 with
DESDetectionProbability.py:103-109. -/
def fade (des : Bool) (c : Config.Cfg) (cs : Cols) : Except Err Cols :=
  if c.fading = .off then .ok cs
  else do
    need (if des then ["PSFMag", "fiveSigmaDepth_mag", "c", "k"]
      else ["PSFMag", if "limMag_perChip" ∈ cs then "limMag_perChip" else "fiveSigmaDepth_mag"]) cs
    return cs.filter fun x => x ≠ "detection_probability"

/-- `PPBrightLimit`, PPBrightLimit.py:30-44. -/
def bright (c : Config.Cfg) (cs : Cols) : Except Err Cols :=
  step (if c.saturation.on.on then "PSFMag" :: (if (c.saturation.limits.getD []).length = 1 then [] else ["optFilter"]) else []) [] cs

/-- `PPLinkingFilter`, PPLinkingFilter.py:68-115. -/
def link (c : Config.Cfg) (cs : Cols) : Except Err Cols :=
  if c.linking.ssp.isSome then do
    let cs ← step ["ObjID", "FieldID", "fieldMJD_TAI", "RA_deg", "Dec_deg"] ["object_linked"] cs
    return merge "ObjID" cs ["ObjID", "date_linked_MJD"]
  else .ok cs

/-- The cuts and the discovery filter of a DES run, PPDistanceandMotionCuts.py:24-39 and 64-69, DESDiscoveryFilter.py:46. -/
def discover (c : Config.Cfg) (cs : Cols) : Except Err Cols :=
  step ((if c.linking.distanceOn.on then ["Obj_Sun_x_LTC_km", "Obj_Sun_y_LTC_km", "Obj_Sun_z_LTC_km", "ObjID"] else []) ++
      (if c.linking.motionOn.on then ["RARateCosDec_deg_day", "DecRate_deg_day"] else []) ++
      if c.linking.desDiscovery.on then ["ObjID", "fieldMJD_TAI", "Obj_Sun_x_LTC_km", "Obj_Sun_y_LTC_km", "Obj_Sun_z_LTC_km"] else []) [] cs

/-- A chunk of a Rubin run of which rows are left at the end, sorcha.py:129-375: the columns handed over for output. -/
def rubin (c : Config.Cfg) (r : Run) (f : Files) : Except Err Cols := do
  let db ← visits false c f
  let cs ← observations c r f db
  let cs ← matchVisits db cs
  let cs ← magnitudes c r cs
  let cs ← trailing c cs
  let cs ← depth c cs
  let cs ← uncertainties c cs
  let cs ← randomize c cs
  let cs ← fieldOfView c cs
  let cs ← cuts c cs
  let cs ← fade false c cs
  let cs ← bright c cs
  link c cs

/-- The same for a DES run, des.py:118-373: no uncertainties are computed. -/
def des (c : Config.Cfg) (r : Run) (f : Files) : Except Err Cols := do
  let db ← visits true c f
  let cs ← observations c r f db
  let cs ← matchVisits db cs
  let cs ← magnitudes c r cs
  let cs ← trailing c cs
  let cs ← depth c cs
  let cs ← randomize c cs
  let cs ← fieldOfView c cs
  let cs ← cuts c cs
  let cs ← fade true c cs
  let cs ← bright c cs
  discover c cs

/-! ## Output -/

/-- `output_columns`, sorchaConfigs.py:741-748. -/
def columnsOf : Config.Columns → Output.Columns
  | .named s => if s = "basic" then .basic else if s = "all" then .all else .list [s]
  | .listed l => .list l

/-- The columns `PPWriteOutput` writes, PPOutput.py:163-206; a table without rows stands for any table with these columns. -/
def written (c : Config.Cfg) (cs : Cols) : Except Err Cols := do
  need ["Obj_Sun_x_LTC_km", "Obj_Sun_y_LTC_km", "Obj_Sun_z_LTC_km"] cs
  match Output.selectColumns (columnsOf c.output.columns) (c.linking.ssp.isSome && !c.linking.dropUnlinked) ⟨put cs "Obj_Sun_LTC_km", []⟩ with
  | .error e => .error (.output e)
  | .ok g => .ok g.cols

/-- What `stats` reads, PPStats.py:36-58. -/
def stats (c : Config.Cfg) (cs : Cols) : Except Err Unit :=
  need (["ObjID", "optFilter", "trailedSourceMag", "phase_deg"] ++
    if c.linking.ssp.isSome then (if c.linking.dropUnlinked then ["date_linked_MJD"] else ["object_linked", "date_linked_MJD"]) else []) cs

/-- The indices made at the end of a run with a database, PPOutput.py:129-131. -/
def index (c : Config.Cfg) (out : Cols) : Except Err Unit :=
  if c.output.format = "sqlite3" then
    if ["ObjID", "fieldMJD_TAI", "optFilter"].all (· ∈ out) then .ok () else .error .noIndex
  else .ok ()

end Sorcha.Columns
