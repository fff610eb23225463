import Mathlib.Data.List.TakeWhile
import Verif.Base.Fl

/-!
# Model of the configuration: utilities/sorchaConfigs.py

A section of the configuration file is the list of its keys and values, all strings, as `configparser` returns them (its own parsing, i.e.
splitting a file into sections, is modelled in `Verif/Ini/Model.lean`). Each dataclass becomes a structure of what the later code reads, and each
`_validate_...` a function that either returns it or stops. `float(s)`, `int(s)`, `str.lower` and `os.path.isfile` are parameters.
-/

namespace Sorcha.Config

/-- Python built-ins used on the strings of the file; `none` stands for `ValueError`. -/
structure Py where
  toFloat : String → Option Fl
  toInt : String → Option Int
  lower : String → String
  isFile : String → Bool

/-- The ways the validation stops. All but `typeError` and `attrError` are `sys.exit` with a message. -/
inductive Err
  | missing (key : String)
  | unwanted (key : String)
  | notFloat (key : String)
  | notInt (key : String)
  | notBool (key : String)
  | notAllowed (key : String)
  | bounds (key : String)
  | badFilters
  | badSaturation
  | noFootprint
  | noFile (key : String)
  | both                          -- limits that exclude each other
  | some                          -- only some of the keys that belong together
  | desOnly
  | urlOnly (key : String)
  | typeError                     -- uncaught `TypeError`
deriving DecidableEq, Repr

/-- A section: its keys and values. -/
abbrev Sect := List (String × String)

/-- The value of a key; `none` stands for the default `None` of the dataclass field. -/
def get (s : Sect) (k : String) : Option String := (s.find? (·.1 = k)).map (·.2)

/-- `section_class(**section_dict, **extra_args)`, sorchaConfigs.py:1286-1293: a key that is not a field of the dataclass, or that is also passed
by the caller, is a `TypeError`. -/
def construct (fields extra : List String) (s : Sect) : Except Err Unit :=
  if s.all (fun kv => fields.contains kv.1 && !extra.contains kv.1) then .ok () else .error .typeError

/-! ## Helpers, sorchaConfigs.py:1301-1500 -/

/-- Python's white space (`str.isspace` of one character). -/
def isSpace (c : Char) : Bool :=
  (9 ≤ c.toNat && c.toNat ≤ 13) || (28 ≤ c.toNat && c.toNat ≤ 32) || c.toNat = 0x85 || c.toNat = 0xA0 || c.toNat = 0x1680 ||
    (0x2000 ≤ c.toNat && c.toNat ≤ 0x200A) || c.toNat = 0x2028 || c.toNat = 0x2029 || c.toNat = 0x202F || c.toNat = 0x205F ||
    c.toNat = 0x3000

/-- `str.strip(chars)` on characters: drop those satisfying `p` from both ends. -/
def stripChars (p : Char → Bool) (l : List Char) : List Char := ((l.dropWhile p).reverse.dropWhile p).reverse

/-- `s.strip()`. -/
def strip (s : String) : String := String.ofList (stripChars isSpace s.toList)

/-- `s.strip(" ")`. -/
def stripBlank (s : String) : String := String.ofList (stripChars (· = ' ') s.toList)

/-- `s.split(",")`. -/
def splitComma (s : String) : List String := (s.toList.splitOn ',').map String.ofList

/-- `check_key_exists`, sorchaConfigs.py:1301-1325; also returns the value. -/
def need (v : Option String) (key : String) : Except Err String :=
  match v with
  | none => .error (.missing key)
  | some x => .ok x

/-- `check_key_doesnt_exist`, sorchaConfigs.py:1328-1351. -/
def forbid (v : Option String) (key : String) : Except Err Unit :=
  match v with
  | none => .ok ()
  | some _ => .error (.unwanted key)

/-- `check_value_in_list`, sorchaConfigs.py:1436-1463. -/
def oneOf (v : String) (allowed : List String) (key : String) : Except Err Unit :=
  if allowed.contains v then .ok () else .error (.notAllowed key)

/-- `cast_as_int`, sorchaConfigs.py:1354-1378. -/
def castInt (py : Py) (v key : String) : Except Err Int :=
  match py.toInt v with
  | none => .error (.notInt key)
  | some i => .ok i

/-- `cast_as_float`, sorchaConfigs.py:1381-1405. -/
def castFloat (py : Py) (v key : String) : Except Err Fl :=
  match py.toFloat v with
  | none => .error (.notFloat key)
  | some x => .ok x

/-- `cast_as_bool`, sorchaConfigs.py:1408-1433. -/
def castBool (v key : String) : Except Err Bool :=
  if ["true", "1", "yes", "y", "True"].contains (strip v) then .ok true
  else if ["false", "0", "no", "n", "False"].contains (strip v) then .ok false
  else .error (.notBool key)

/-- `cast_as_bool_or_set_default`, sorchaConfigs.py:1466-1500. -/
def castBoolOr (v : Option String) (key : String) (dflt : Bool) : Except Err Bool :=
  match v with
  | none => .ok dflt
  | some x => castBool x key

/-- `sys.exit` if the condition holds. -/
def stopIf (c : Bool) (e : Err) : Except Err Unit := if c then .error e else .ok ()

/-- An optional float: `if v is not None: v = cast_as_float(v)`. -/
def castFloat? (py : Py) (v : Option String) (key : String) : Except Err (Option Fl) :=
  match v with
  | none => .ok none
  | some x => (castFloat py x key).map some

/-- An optional int. -/
def castInt? (py : Py) (v : Option String) (key : String) : Except Err (Option Int) :=
  match v with
  | none => .ok none
  | some x => (castInt py x key).map some

/-- An attribute used as a flag. It may still be the string of the file, which counts as true unless empty. -/
inductive Flag
  | unset
  | bool (b : Bool)
  | text (s : String)
deriving DecidableEq, Repr

/-- `if flag:` -/
def Flag.on : Flag → Bool
  | .unset => false
  | .bool b => b
  | .text s => s ≠ ""

/-- The raw attribute of a key. -/
def Flag.ofRaw : Option String → Flag
  | none => .unset
  | some s => .text s

/-! ## Sections -/

/-- `inputConfigs`. -/
structure Input where
  ephemeridesType : String
  ephFormat : String
  chunk : Int
  auxFormat : String
  query : String
deriving DecidableEq, Repr

/-- `inputConfigs._validate_input_configs`, sorchaConfigs.py:35-58. -/
def input (py : Py) (s : Sect) : Except Err Input := do
  let t ← need (get s "ephemerides_type") "ephemerides_type"
  let f ← need (get s "eph_format") "eph_format"
  let c ← need (get s "size_serial_chunk") "size_serial_chunk"
  let a ← need (get s "aux_format") "aux_format"
  let q ← need (get s "pointing_sql_query") "pointing_sql_query"
  oneOf t ["ar", "external"] "ephemerides_type"
  oneOf f ["csv", "whitespace", "hdf5"] "eph_format"
  oneOf a ["comma", "whitespace", "csv"] "aux_format"
  let n ← castInt py c "size_serial_chunk"
  pure ⟨t, f, n, a, q⟩

/-- The attributes of `simulationConfigs` used when the ephemerides are generated. -/
structure SimAR where
  fov : Fl
  buffer : Fl
  picket : Int
  obsCode : String
  order : Int
  nSub : Int
deriving DecidableEq, Repr

/-- `simulationConfigs._validate_simulation_configs`, sorchaConfigs.py:90-127. `eph` is `_ephemerides_type`: `none` if the section is missing from the
file. The result is `none` for external ephemerides. -/
def simulation (py : Py) (eph : Option String) (s : Sect) : Except Err (Option SimAR) := do
  let t ← need eph "_ephemerides_type"
  oneOf t ["ar", "external"] "_ephemerides_type"
  if t = "ar" then do
    let a ← need (get s "ar_ang_fov") "ar_ang_fov"
    let b ← need (get s "ar_fov_buffer") "ar_fov_buffer"
    let p ← need (get s "ar_picket") "ar_picket"
    let o ← need (get s "ar_obs_code") "ar_obs_code"
    let h ← need (get s "ar_healpix_order") "ar_healpix_order"
    let a ← castFloat py a "ar_ang_fov"
    let b ← castFloat py b "ar_fov_buffer"
    let p ← castInt py p "ar_picket"
    let h ← castInt py h "ar_healpix_order"
    let n ← castInt? py (get s "ar_n_sub_intervals") "ar_n_sub_intervals"
    pure (some ⟨a, b, p, o, h, n.getD 101⟩)
  else do
    forbid (get s "ar_ang_fov") "ar_ang_fov"
    forbid (get s "ar_fov_buffer") "ar_fov_buffer"
    forbid (get s "ar_picket") "ar_picket"
    forbid (get s "ar_obs_code") "ar_obs_code"
    forbid (get s "ar_healpix_order") "ar_healpix_order"
    pure none

/-- `filtersConfigs._validate_filters_configs`, sorchaConfigs.py:149-217: the list of observing filters. -/
def filters (survey : Option String) (s : Sect) : Except Err (List String) := do
  let o ← need (get s "observing_filters") "observing_filters"
  let v ← need survey "survey_name"
  let fs := (splitComma o).map strip
  stopIf (["rubin_sim", "RUBIN_SIM", "LSST", "lsst"].contains v && !fs.all (["u", "g", "r", "i", "z", "y"].contains ·)) .badFilters
  stopIf (["DES", "des"].contains v && !fs.all (["g", "r", "i", "z", "Y"].contains ·)) .badFilters
  pure fs

/-- `saturationConfigs`: the flag and the limits (`None` if not given). -/
structure Saturation where
  on : Flag
  limits : Option (List Fl)
deriving DecidableEq, Repr

/-- All the pieces as floats. -/
def allFloats (py : Py) : List String → Option (List Fl)
  | [] => some []
  | e :: es =>
    match py.toFloat e, allFloats py es with
    | some x, some xs => some (x :: xs)
    | _, _ => none

/-- `saturationConfigs._validate_saturation_configs`, sorchaConfigs.py:235-270. `obs` is `_observing_filters`, `none` if the section is missing
from the file. The branch for a float (259-260) is not reached from a file. -/
def saturation (py : Py) (obs : Option (List String)) (s : Sect) : Except Err Saturation :=
  match get s "bright_limit" with
  | none =>
    let on := Flag.ofRaw (get s "bright_limit_on")
    if on.on && obs.isNone then .error (.missing "_observing_filters") else .ok ⟨on, none⟩
  | some b =>
    match obs with
    | none => .error (.missing "_observing_filters")
    | some fs =>
      match allFloats py ((splitComma b).map strip) with
      | none => .error .badSaturation
      | some [x] => .ok ⟨.bool true, some (List.replicate fs.length x)⟩
      | some xs => if xs.length = fs.length then .ok ⟨.bool true, some xs⟩ else .error .badSaturation

/-- `phasecurvesConfigs._validate_phasecurve_configs`, sorchaConfigs.py:284-299. -/
def phasecurves (s : Sect) : Except Err String := do
  let f ← need (get s "phase_function") "phase_function"
  oneOf f ["HG", "HG1G2", "HG12", "linear", "none"] "phase_function"
  pure f

/-- What the later code reads of `fovConfigs`. -/
inductive Fov
  | footprint (path : Option String) (edge : Option Fl)
  | visits (query : String)
  | circle (fill radius : Option Fl)
  | none
deriving DecidableEq, Repr

/-- The file of the footprint, sorchaConfigs.py:367-375. -/
def fovPath (py : Py) (survey : String) (path : Option String) : Except Err Unit :=
  match path with
  | some p => stopIf (!py.isFile p) (.noFile "footprint_path")
  | none => stopIf (!["lsst", "rubin_sim", "des"].contains (py.lower survey)) .noFootprint

/-- `_camera_footprint`, sorchaConfigs.py:355-384. -/
def fovFootprint (py : Py) (survey : String) (s : Sect) : Except Err Fov := do
  fovPath py survey (get s "footprint_path")
  let e ← castFloat? py (get s "footprint_edge_threshold") "footprint_edge_threshold"
  forbid (get s "visits_query") "visits_query"
  forbid (get s "fill_factor") "fill_factor"
  forbid (get s "circle_radius") "circle_radius"
  pure (.footprint (get s "footprint_path") e)

/-- `_camera_visits_footprint`, sorchaConfigs.py:386-406. -/
def fovVisits (py : Py) (survey : String) (s : Sect) : Except Err Fov := do
  oneOf (py.lower survey) ["des"] "survey_name"
  let q ← need (get s "visits_query") "visits_query"
  forbid (get s "footprint_edge_threshold") "footprint_edge_threshold"
  forbid (get s "fill_factor") "fill_factor"
  forbid (get s "circle_radius") "circle_radius"
  pure (.visits q)

/-- `_camera_circle`, sorchaConfigs.py:408-441. -/
def fovCircle (py : Py) (s : Sect) : Except Err Fov := do
  let f ← castFloat? py (get s "fill_factor") "fill_factor"
  stopIf (f.any fun x => x.lt (.fin 0) || Fl.lt (.fin 1) x) (.bounds "fill_factor")
  let r ← castFloat? py (get s "circle_radius") "circle_radius"
  stopIf (r.any fun x => x.lt (.fin 0)) (.bounds "circle_radius")
  stopIf (f.isNone && r.isNone) (.missing "fill_factor")
  forbid (get s "footprint_edge_threshold") "footprint_edge_threshold"
  pure (.circle f r)

/-- `fovConfigs._validate_fov_configs`, sorchaConfigs.py:331-353. -/
def fov (py : Py) (survey : String) (s : Sect) : Except Err Fov := do
  let m ← need (get s "camera_model") "camera_model"
  oneOf m ["circle", "footprint", "visits_footprint", "none"] "camera_model"
  if m = "footprint" then fovFootprint py survey s
  else if m = "visits_footprint" then fovVisits py survey s
  else if m = "circle" then fovCircle py s
  else pure .none

/-- `fadingfunctionConfigs`: off, the DES variant with its transient efficiency, or on with width and peak efficiency. -/
inductive Fading
  | off
  | des (transient : Fl)
  | on (width peak : Fl)
deriving DecidableEq, Repr

/-- `_validate_fadingfunction_configs_DES`, sorchaConfigs.py:469-493. -/
def fadingDes (py : Py) (s : Sect) : Except Err Fading := do
  let f ← need (get s "fading_function_on") "fadingfunction"
  let on ← castBool f "fading_function_on"
  let r ← (if on then (castFloat? py (get s "des_transient_efficency") "des_transient_efficency").map
      (fun t => Fading.des (t.getD (.fin 1))) else pure Fading.off)
  forbid (get s "fading_function_peak_efficiency") "fading_function_peak_efficiency"
  forbid (get s "fading_function_width") "fading_function_width"
  pure r

/-- `_validate_fadingfunction_configs`, sorchaConfigs.py:495-541. -/
def fadingOther (py : Py) (s : Sect) : Except Err Fading :=
  match get s "fading_function_width", get s "fading_function_peak_efficiency" with
  | some w, some p => do
    let w ← castFloat py w "fading_function_width"
    let p ← castFloat py p "fading_function_peak_efficiency"
    stopIf (w.le (.fin 0) || Fl.lt (.fin (1 / 2)) w) (.bounds "fading_function_width")
    stopIf (p.lt (.fin 0) || Fl.lt (.fin 1) p) (.bounds "fading_function_peak_efficiency")
    pure (.on w p)
  | none, none => .ok .off
  | _, _ => .error .some

/-- `fadingfunctionConfigs.__post_init__`, sorchaConfigs.py:462-467. -/
def fading (py : Py) (survey : String) (s : Sect) : Except Err Fading :=
  if ["DES", "des"].contains survey then fadingDes py s else fadingOther py s

/-- The seven settings of the linking filter. -/
structure Ssp where
  efficiency : Fl
  nObs : Int
  sep : Fl
  maxTime : Fl
  nTracklets : Int
  window : Int
  nightStart : Fl
deriving DecidableEq, Repr

/-- `linkingfilterConfigs`: the linking settings if it is on, and the DES switches. -/
structure Linking where
  ssp : Option Ssp
  dropUnlinked : Bool
  desDiscovery : Flag
  distanceOn : Flag
  distance : Option (Fl × Fl)     -- upper, lower
  motionOn : Flag
  motion : Option (Fl × Fl)       -- upper, lower
deriving DecidableEq, Repr

/-- The seven variables, in the order of `sspvariables`, sorchaConfigs.py:615-623. -/
def sspVars (s : Sect) : List (Option String) :=
  [get s "ssp_separation_threshold", get s "ssp_number_observations", get s "ssp_number_tracklets", get s "ssp_track_window",
    get s "ssp_detection_efficiency", get s "ssp_maximum_time", get s "ssp_night_start_utc"]

/-- The casts and checks of sorchaConfigs.py:628-671. -/
def ssp (py : Py) (s : Sect) : Except Err Ssp := do
  let e ← castFloat py ((get s "ssp_detection_efficiency").getD "") "ssp_detection_efficiency"
  let n ← castInt py ((get s "ssp_number_observations").getD "") "ssp_number_observations"
  let d ← castFloat py ((get s "ssp_separation_threshold").getD "") "ssp_separation_threshold"
  let m ← castFloat py ((get s "ssp_maximum_time").getD "") "ssp_maximum_time"
  let k ← castInt py ((get s "ssp_number_tracklets").getD "") "ssp_number_tracklets"
  let w ← castInt py ((get s "ssp_track_window").getD "") "ssp_track_window"
  let u ← castFloat py ((get s "ssp_night_start_utc").getD "") "ssp_night_start_utc"
  stopIf (n < 1) (.bounds "ssp_number_observations")
  stopIf (n > 1 && d.eq (.fin 0)) (.bounds "ssp_separation_threshold")
  stopIf (d.lt (.fin 0)) (.bounds "ssp_separation_threshold")
  stopIf (k < 1) (.bounds "ssp_number_tracklets")
  stopIf (w ≤ 0) (.bounds "ssp_track_window")
  stopIf (Fl.lt (.fin 1) e || e.lt (.fin 0)) (.bounds "ssp_detection_efficiency")
  stopIf (m.lt (.fin 0)) (.bounds "ssp_maximum_time")
  stopIf (Fl.lt (.fin 24) u || u.lt (.fin 0)) (.bounds "ssp_night_start_utc")
  pure ⟨e, n, d, m, k, w, u⟩

/-- The pair of limits of a cut, sorchaConfigs.py:688-693 (distance) and 694-699 (motion): both must be given if one is. -/
def cut (py : Py) (hi lo : Option String) (hiKey loKey : String) : Except Err (Option (Fl × Fl)) :=
  if hi.isSome || lo.isSome then do
    let h ← need hi hiKey
    let l ← need lo loKey
    let h ← castFloat py h hiKey
    let l ← castFloat py l loKey
    pure (some (h, l))
  else .ok none

/-- `linkingfilterConfigs._validate_linkingfilter_configs`, sorchaConfigs.py:602-703. -/
def linking (py : Py) (survey : String) (s : Sect) : Except Err Linking := do
  let l ← (if (sspVars s).all (·.isSome) && py.lower survey ≠ "des" then (ssp py s).map some
    else if (sspVars s).all (·.isNone) then .ok none
    else .error .some)
  let drop ← castBoolOr (get s "drop_unlinked") "drop_unlinked" true
  let disc ← (if (Flag.ofRaw (get s "des_discovery_on")).on && py.lower survey = "des" then
      (castBoolOr (get s "des_discovery_on") "des_discovery_on" false).map Flag.bool
    else .ok (Flag.ofRaw (get s "des_discovery_on")))
  let d ← cut py (get s "distance_cut_upper") (get s "distance_cut_lower") "distance_cut_upper" "distance_cut_lower"
  let dOn := if d.isSome then Flag.bool true else Flag.ofRaw (get s "distance_cut_on")
  let m ← cut py (get s "motion_cut_upper") (get s "motion_cut_lower") "motion_cut_upper" "motion_cut_lower"
  let mOn := if m.isSome then Flag.bool true else Flag.ofRaw (get s "motion_cut_on")
  stopIf ((dOn.on || mOn.on) && py.lower survey ≠ "des") .desOnly
  pure ⟨l, drop, disc, dOn, d, mOn, m⟩

/-- `output_columns`: a name for a set of columns, or a list. -/
inductive Columns
  | named (s : String)
  | listed (l : List String)
deriving DecidableEq, Repr

/-- `outputConfigs`. -/
structure Output where
  format : String
  columns : Columns
  posDecimals : Option Int
  magDecimals : Option Int
deriving DecidableEq, Repr

/-- `outputConfigs._validate_output_configs` and `_validate_decimals`, sorchaConfigs.py:726-772. -/
def output (py : Py) (s : Sect) : Except Err Output := do
  let f ← need (get s "output_format") "output_format"
  let c ← need (get s "output_columns") "output_columns"
  oneOf f ["csv", "sqlite3", "hdf5"] "output_format"
  let cols ← (if c.toList.contains ',' then .ok (.listed ((splitComma c).map stripBlank))
    else (oneOf c ["basic", "all"] "output_columns").map fun _ => Columns.named c)
  let p ← castInt? py (get s "position_decimals") "position_decimals"
  let m ← castInt? py (get s "magnitude_decimals") "magnitude_decimals"
  stopIf (p.any (· < 0)) (.bounds "position_decimals")
  stopIf (m.any (· < 0)) (.bounds "magnitude_decimals")
  pure ⟨f, cols, p, m⟩

/-- `lightcurveConfigs._validate_lightcurve_configs` (sorchaConfigs.py:786-805) and `activityConfigs._validate_activity_configs` (:819-838);
`methods` are the registered models. -/
def model (methods : List String) (key : String) (s : Sect) : Except Err (Option String) :=
  match get s key with
  | none => .ok none
  | some m => if m = "none" then .ok none else if methods.contains m then .ok (some m) else .error (.notAllowed key)

/-- `expertConfigs`. -/
structure Expert where
  snrLimit : Option Fl
  magLimit : Option Fl
  defaultSnrCut : Bool
  bruteForce : Bool
  randomization : Flag
  vignetting : Flag
  trailing : Flag
deriving DecidableEq, Repr

/-- The surveys of sorchaConfigs.py:925-934. -/
inductive Survey
  | rubin
  | des
  | other
deriving DecidableEq, Repr

/-- `survey_name in [...]`. -/
def surveyOf (survey : String) : Survey :=
  if ["rubin_sim", "RUBIN_SIM", "LSST", "lsst"].contains survey then .rubin
  else if ["DES", "des"].contains survey then .des
  else .other

/-- The three observational effects, sorchaConfigs.py:925-957. For DES `logging.ERROR(...)` is a call of an integer, hence a `TypeError`. A survey that is not
known keeps the strings of the file. -/
def effects (survey : String) (camera : Option String) (s : Sect) : Except Err (Flag × Flag × Flag) :=
  match surveyOf survey with
  | .des => do
    let r ← castBoolOr (get s "randomization_on") "randomization_on" false
    let v ← castBoolOr (get s "vignetting_on") "vignetting_on" false
    let t ← castBoolOr (get s "trailing_losses_on") "trailing_losses_on" false
    stopIf (r || v || t) .typeError
    pure (.bool r, .bool v, .bool t)
  | .rubin => do
    let r ← castBoolOr (get s "randomization_on") "randomization_on" true
    let v ← castBoolOr (get s "vignetting_on") "vignetting_on" true
    let t ← castBoolOr (get s "trailing_losses_on") "trailing_losses_on" true
    stopIf (camera = some "visits_footprint" && v) .typeError
    pure (.bool r, .bool v, .bool t)
  | .other =>
    if camera = some "visits_footprint" then do
      let v ← castBoolOr (get s "vignetting_on") "vignetting_on" false
      stopIf v .typeError
      pure (Flag.ofRaw (get s "randomization_on"), .bool v, Flag.ofRaw (get s "trailing_losses_on"))
    else .ok (Flag.ofRaw (get s "randomization_on"), Flag.ofRaw (get s "vignetting_on"), Flag.ofRaw (get s "trailing_losses_on"))

/-- `expertConfigs._validate_expert_configs`, sorchaConfigs.py:882-957. -/
def expert (py : Py) (survey : String) (camera : Option String) (s : Sect) : Except Err Expert := do
  let sn ← castFloat? py (get s "snr_limit") "snr_limit"
  stopIf (sn.any fun x => x.lt (.fin 0)) (.bounds "snr_limit")
  let mg ← castFloat? py (get s "mag_limit") "mag_limit"
  stopIf (mg.any fun x => x.lt (.fin 0)) (.bounds "mag_limit")
  stopIf (sn.isSome && mg.isSome) .both
  let dc ← castBoolOr (get s "default_snr_cut") "default_snr_cut" true
  let bf ← castBoolOr (get s "brute_force") "brute_force" true
  let (r, v, t) ← effects survey camera s
  pure ⟨sn, mg, dc, bf, r, v, t⟩

/-! ## The whole file: `_read_configs_from_object`, sorchaConfigs.py:1231-1296 -/

/-- The configuration file: its sections. -/
abbrev File := List (String × Sect)

/-- `config_object.has_section`, `config_object[section]`. -/
def sect (f : File) (name : String) : Option Sect := (f.find? (·.1 = name)).map (·.2)

/-- The fields of the dataclasses. -/
def fieldsInput : List String := ["ephemerides_type", "eph_format", "size_serial_chunk", "aux_format", "pointing_sql_query"]
def fieldsSimulation : List String :=
  ["ar_ang_fov", "ar_fov_buffer", "ar_picket", "ar_obs_code", "ar_healpix_order", "ar_n_sub_intervals", "_ephemerides_type"]
def fieldsFilters : List String := ["observing_filters", "survey_name", "mainfilter", "othercolours"]
def fieldsSaturation : List String := ["bright_limit_on", "bright_limit", "_observing_filters"]
def fieldsPhasecurves : List String := ["phase_function"]
def fieldsFov : List String :=
  ["camera_model", "footprint_path", "visits_query", "fill_factor", "circle_radius", "footprint_edge_threshold", "survey_name"]
def fieldsFading : List String :=
  ["fading_function_on", "fading_function_width", "fading_function_peak_efficiency", "des_transient_efficency", "survey_name"]
def fieldsLinking : List String :=
  ["ssp_linking_on", "drop_unlinked", "ssp_detection_efficiency", "ssp_number_observations", "ssp_separation_threshold", "ssp_maximum_time",
    "ssp_number_tracklets", "ssp_track_window", "ssp_night_start_utc", "des_discovery_on", "survey_name", "distance_cut_on",
    "distance_cut_upper", "distance_cut_lower", "motion_cut_on", "motion_cut_upper", "motion_cut_lower"]
def fieldsOutput : List String := ["output_format", "output_columns", "position_decimals", "magnitude_decimals"]
def fieldsLightcurve : List String := ["lc_model"]
def fieldsActivity : List String := ["comet_activity"]
def fieldsExpert : List String :=
  ["snr_limit", "snr_limit_on", "mag_limit", "mag_limit_on", "trailing_losses_on", "default_snr_cut", "randomization_on", "vignetting_on",
    "brute_force", "survey_name", "camera_model"]

/-- The configuration the run uses (the AUXILIARY section is in `Inputs.Model`). -/
structure Cfg where
  input : Input
  simulation : Option SimAR
  filters : List String
  saturation : Saturation
  phase : String
  fov : Fov
  fading : Fading
  linking : Linking
  output : Output
  lightcurve : Option String
  activity : Option String
  expert : Expert
deriving DecidableEq, Repr

/-- `_read_configs_from_object`: the sections in the order of `section_list`. Values computed for one section are passed to a later one only if the
latter is in the file (lines 1276-1284). `survey` is the command line's `-s`. -/
def readConfig (py : Py) (lcMethods caMethods : List String) (survey : String) (f : File) : Except Err Cfg := do
  construct fieldsInput [] ((sect f "INPUT").getD [])
  let inp ← input py ((sect f "INPUT").getD [])
  construct fieldsSimulation (if (sect f "SIMULATION").isSome then ["_ephemerides_type"] else []) ((sect f "SIMULATION").getD [])
  let sim ← simulation py (if (sect f "SIMULATION").isSome then some inp.ephemeridesType else none) ((sect f "SIMULATION").getD [])
  construct fieldsFilters ["survey_name"] ((sect f "FILTERS").getD [])
  let fs ← filters (some survey) ((sect f "FILTERS").getD [])
  construct fieldsSaturation (if (sect f "SATURATION").isSome then ["_observing_filters"] else []) ((sect f "SATURATION").getD [])
  let sat ← saturation py (if (sect f "SATURATION").isSome then some fs else none) ((sect f "SATURATION").getD [])
  construct fieldsPhasecurves [] ((sect f "PHASECURVES").getD [])
  let ph ← phasecurves ((sect f "PHASECURVES").getD [])
  construct fieldsFov ["survey_name"] ((sect f "FOV").getD [])
  let fv ← fov py survey ((sect f "FOV").getD [])
  construct fieldsFading ["survey_name"] ((sect f "FADINGFUNCTION").getD [])
  let fd ← fading py survey ((sect f "FADINGFUNCTION").getD [])
  construct fieldsLinking ["survey_name"] ((sect f "LINKINGFILTER").getD [])
  let lk ← linking py survey ((sect f "LINKINGFILTER").getD [])
  construct fieldsOutput [] ((sect f "OUTPUT").getD [])
  let ou ← output py ((sect f "OUTPUT").getD [])
  construct fieldsLightcurve [] ((sect f "LIGHTCURVE").getD [])
  let lc ← model lcMethods "lc_model" ((sect f "LIGHTCURVE").getD [])
  construct fieldsActivity [] ((sect f "ACTIVITY").getD [])
  let ac ← model caMethods "comet_activity" ((sect f "ACTIVITY").getD [])
  construct fieldsExpert (if (sect f "EXPERT").isSome then ["survey_name", "camera_model"] else ["survey_name"]) ((sect f "EXPERT").getD [])
  let ex ← expert py survey (if (sect f "EXPERT").isSome then get ((sect f "FOV").getD []) "camera_model" else none) ((sect f "EXPERT").getD [])
  pure ⟨inp, sim, fs, sat, ph, fv, fd, lk, ou, lc, ac, ex⟩

end Sorcha.Config
