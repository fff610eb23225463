import Verif.Config.Model
import Verif.Rng.Model

/-!
# Model of the settings in the log: `PrintConfigsToLog`

sorchaConfigs.py:1503-1749. A line is the text of one message, without what the logging module puts before it. Line breaks inside a value are not
interpreted. `str` of numbers and of lists of numbers is a parameter.
-/

namespace Sorcha.Log

abbrev Line := List Char

/-- A fixed text. -/
def fixed (l : List Char) : Line := l

/-- The characters of a string literal, as a fixed text. -/
macro "text! " s:str : term => do
  let cs := (s.getString.toList.map fun c => Lean.Syntax.mkCharLit c).toArray
  `(fixed [$cs,*])

/-- `str` for floats, integers, and lists of floats. -/
structure Str where
  fl : Fl → String
  int : ℤ → String
  fls : List Fl → String

/-- What is taken from the command line (`sorchaArguments`), and the main filter and the colours that were found in the heading of the parameter file
(`sconfigs.filters.mainfilter`, `othercolours`, sorcha.py:110-121). -/
structure Args where
  configfile : String
  paramsinput : String
  orbinfile : String
  inputEphemeris : Option String
  outputEphemeris : Option String
  survey : String
  pointing : String
  visits : Option String
  outpath : String
  stem : String
  main : String
  colours : List String
deriving DecidableEq, Repr

/-- `auxiliaryConfigs`: the names of the files. -/
structure Aux where
  leapSeconds : String
  earthHistorical : String
  earthPredict : String
  orientation : String
  planets : String
  highPrecision : String
  obsCodes : String
  obsCodesCompressed : String
  jplPlanets : String
  jplSmall : String
  metaKernel : String
deriving DecidableEq, Repr

/-- `str` of an attribute that may be `None`. -/
def orNone {α : Type} (f : α → String) : Option α → String
  | none => "None"
  | some x => f x

/-- `if path:` for an optional text. -/
def given : Option String → Bool
  | none => false
  | some s => s ≠ ""

/-- `if x:` for an optional integer. -/
def nonzero : Option ℤ → Bool
  | none => false
  | some x => x ≠ 0

/-- `" ".join(...)`. -/
def spaced : List String → List Char
  | [] => []
  | [s] => s.toList
  | s :: l => s.toList ++ ' ' :: spaced l

/-- Lines 1522-1537: files, survey, activity. -/
def files (a : Args) (c : Config.Cfg) : List Line :=
  [text! "The config file used is located at " ++ a.configfile.toList,
   text! "The physical parameters file used is located at " ++ a.paramsinput.toList,
   text! "The orbits file used is located at " ++ a.orbinfile.toList] ++
  (if given a.inputEphemeris then [text! "The ephemerides file used is located at " ++ (a.inputEphemeris.getD "").toList] else []) ++
  (if given a.outputEphemeris then [text! "The output ephemerides file is located " ++ (a.outputEphemeris.getD "").toList] else []) ++
  [text! "The survey selected is: " ++ a.survey.toList] ++
  (if c.activity = some "comet" then [text! "Cometary activity set to: " ++ "comet".toList]
   else if c.activity = none then [text! "No cometary activity selected."] else [])

/-- Lines 1539-1575: input section, filters, phase function, effects. -/
def inputs (str : Str) (a : Args) (c : Config.Cfg) : List Line :=
  [text! "Format of ephemerides file is: " ++ c.input.ephFormat.toList,
   text! "Format of auxiliary files is: " ++ c.input.auxFormat.toList,
   text! "Pointing database path is: " ++ a.pointing.toList,
   text! "Pointing database required query is: " ++ c.input.query.toList,
   text! "The number of objects processed in a single chunk is: " ++ (str.int c.input.chunk).toList,
   text! "The main filter in which H is defined is " ++ a.main.toList,
   text! "The filters included in the post-processing results are " ++ spaced c.filters] ++
  (if a.colours.length > 0 then [text! "Thus, the colour indices included in the simulation are " ++ spaced a.colours] else []) ++
  [text! "The apparent brightness is calculated using the following phase function model: " ++ c.phase.toList,
   if c.expert.trailing.on then text! "Computation of trailing losses is switched ON." else text! "Computation of trailing losses is switched OFF.",
   if c.expert.randomization.on then text! "Randomization of position and magnitude around uncertainties is switched ON."
     else text! "Randomization of position and magnitude around uncertainties is switched OFF.",
   if c.expert.vignetting.on then text! "Vignetting is switched ON." else text! "Vignetting is switched OFF."]

/-- Lines 1577-1611: the camera. `lower` is `str.lower`. For the camera model `visits_footprint` the name of the visits database is appended; it is a text
there (run.py:195-204). -/
def camera (lower : String → String) (str : Str) (a : Args) (c : Config.Cfg) : List Line :=
  match c.fov with
  | .footprint path edge =>
    [text! "Footprint is modelled after the actual camera footprint."] ++
    (if given path then [text! "Loading camera footprint from " ++ (path.getD "").toList]
     else (if lower a.survey = "rubin_sim" ∨ lower a.survey = "lsst" then [text! "Loading default LSST footprint LSST_detector_corners_100123.csv"] else []) ++
       (if lower a.survey = "des" then [text! "Loading default DES footprint DES_ccd_corners.csv"] else [])) ++
    [if Rng.truthy edge then text! "The footprint edge threshold is " ++ (str.fl (edge.getD .nan)).toList ++ text! " arcseconds"
     else text! "Default footprint edge threshold used (10px or 2 arcseconds)."]
  | .circle fill radius =>
    [text! "Footprint is circular."] ++
    (if Rng.truthy fill then [text! "The code will approximate chip gaps using filling factor: " ++ (str.fl (fill.getD .nan)).toList]
     else if Rng.truthy radius then [text! "A circular footprint will be applied with radius: " ++ (str.fl (radius.getD .nan)).toList] else [])
  | .visits _ =>
    [text! "Footprint is the actual camera footprint for each observation.",
     text! "Loading camera footprint from " ++ (a.visits.getD "").toList]
  | .none => [text! "Camera footprint is turned OFF."]

/-- Lines 1613-1643: saturation, SNR, magnitude limits and the fading function. The DES variant of the latter has neither width nor peak efficiency. -/
def limits (str : Str) (c : Config.Cfg) : List Line :=
  [if c.saturation.on.on then text! "The upper saturation limit(s) is/are: " ++ (orNone str.fls c.saturation.limits).toList
   else text! "Saturation limit is turned OFF.",
   match c.expert.snrLimit with
   | some x => text! "The lower SNR limit is: " ++ (str.fl x).toList
   | none => text! "SNR limit is turned OFF."] ++
  (if c.expert.defaultSnrCut then [text! "Default SNR cut is ON. All observations with SNR < 2.0 will be removed."] else []) ++
  [match c.expert.magLimit with
   | some x => text! "The magnitude limit is: " ++ (str.fl x).toList
   | none => text! "Magnitude limit is turned OFF."] ++
  (match c.fading with
   | .off => [text! "The detection efficiency fading function is OFF."]
   | .des _ => [text! "The detection efficiency fading function is ON.",
      text! "The width parameter of the fading function has been set to: " ++ "None".toList,
      text! "The peak efficiency of the fading function has been set to: " ++ "None".toList]
   | .on w p => [text! "The detection efficiency fading function is ON.",
      text! "The width parameter of the fading function has been set to: " ++ (str.fl w).toList,
      text! "The peak efficiency of the fading function has been set to: " ++ (str.fl p).toList])

/-- Lines 1645-1680: the linking filter. -/
def linking (str : Str) (c : Config.Cfg) : List Line :=
  match c.linking.ssp with
  | none => [text! "Solar System Processing linking filter is turned OFF."]
  | some s =>
    [text! "Solar System Processing linking filter is turned ON.",
     text! "For SSP linking...",
     text! "...the fractional detection efficiency is: " ++ (str.fl s.efficiency).toList,
     text! "...the minimum required number of observations in a tracklet is: " ++ (str.int s.nObs).toList,
     text! "...the minimum required number of tracklets to form a track is: " ++ (str.int s.nTracklets).toList,
     text! "...the maximum window of time in days of tracklets to be contained in to form a track is: " ++ (str.int s.window).toList,
     text! "...the minimum angular separation between observations in arcseconds is: " ++ (str.fl s.sep).toList,
     text! "...the maximum temporal separation between subsequent observations in a tracklet in days is: " ++ (str.fl s.maxTime).toList,
     text! "...the time in UTC at which it is noon at the observatory location (in standard time) is " ++ (str.fl s.nightStart).toList] ++
    (if c.linking.dropUnlinked then [] else [text! "Unlinked objects will not be dropped."])

/-- Lines 1681-1718: the auxiliary files. -/
def auxiliary (x : Aux) : List Line :=
  [text! "The auxiliary files used for emphemris generation...",
   text! "...the leap second file is: " ++ x.leapSeconds.toList,
   text! "...the historical Earth orientation specification file is: " ++ x.earthHistorical.toList,
   text! "...the prediction of the Earth's future orientation file is: " ++ x.earthPredict.toList,
   text! "...the orientation information and physical constants for other bodies file is: " ++ x.orientation.toList,
   text! "...the Earth's position for ephemerides file is: " ++ x.planets.toList,
   text! "...the regularly updated specification of the Earth's orientation file is: " ++ x.highPrecision.toList,
   text! "...the observatory position information and Minor Planet Center (MPC) observatory codes file is: " ++ x.obsCodes.toList ++
     text! " and compressed file is: " ++ x.obsCodesCompressed.toList,
   text! "...the ephemerides for solar-system planets from JPL's Horizon system file is: " ++ x.jplPlanets.toList,
   text! "...the ephemerides for solar-system small bodies from JPL's Horizon system file is: " ++ x.jplSmall.toList,
   text! "...the meta kernal file is : " ++ x.metaKernel.toList]

/-- Lines 1719-1735: the generation of ephemerides and the light curve. -/
def ephemerides (str : Str) (c : Config.Cfg) : List Line :=
  (if c.input.ephemeridesType = "ar" then
    [text! "ASSIST+REBOUND Simulation is turned ON.",
     text! "For ASSIST+REBOUND...",
     text! "...the field's angular FOV is: " ++ (orNone (fun s => str.fl s.fov) c.simulation).toList,
     text! "...the buffer around the FOV is: " ++ (orNone (fun s => str.fl s.buffer) c.simulation).toList,
     text! "...the picket interval is: " ++ (orNone (fun s => str.int s.picket) c.simulation).toList,
     text! "...the observatory code is: " ++ (orNone (fun s => s.obsCode) c.simulation).toList,
     text! "...the healpix order is: " ++ (orNone (fun s => str.int s.order) c.simulation).toList,
     text! "...the number of sub-intervals is: " ++ (orNone (fun s => str.int s.nSub) c.simulation).toList]
   else [text! "ASSIST+REBOUND Simulation is turned OFF."]) ++
  (if given c.lightcurve then
    [text! "A lightcurve model is being applied.", text! "The lightcurve model is: " ++ (c.lightcurve.getD "").toList]
   else [text! "No lightcurve model is being applied."])

/-- Lines 1737-1749: the output. -/
def output (str : Str) (a : Args) (c : Config.Cfg) : List Line :=
  [text! "Output files will be saved in path: " ++ a.outpath.toList ++ text! " with filestem " ++ a.stem.toList,
   text! "Output files will be saved as format: " ++ c.output.format.toList,
   if nonzero c.output.posDecimals then text! "In the output, positions will be rounded to " ++ (str.int (c.output.posDecimals.getD 0)).toList ++ text! " decimal places."
     else text! "In the output, positions will not be rounded",
   if nonzero c.output.magDecimals then text! "In the output, magnitudes will be rounded to " ++ (str.int (c.output.magDecimals.getD 0)).toList ++ text! " decimal places."
     else text! "In the output, magnitudes will not be rounded",
   match c.output.columns with
   | .listed l => text! "The output columns are set to: " ++ spaced l
   | .named s => text! "The output columns are set to: " ++ s.toList]

/-- `PrintConfigsToLog`, sorchaConfigs.py:1503-1749. -/
def settings (lower : String → String) (str : Str) (a : Args) (x : Aux) (c : Config.Cfg) : List Line :=
  files a c ++ inputs str a c ++ camera lower str a c ++ limits str c ++ linking str c ++ auxiliary x ++ ephemerides str c ++ output str a c

end Sorcha.Log
