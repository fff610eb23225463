import Verif.Config.Model

/-!
# What a valid configuration is

For each section, which keys and values are accepted and what they mean, written as a table of requirements, not as a procedure.
-/

namespace Sorcha.Config.Spec

open Sorcha.Config

/-- The key is not in the section. -/
def Absent (s : Sect) (k : String) : Prop := ∀ v, (k, v) ∉ s

/-- The key is in the section with a value that reads as the float `x`. -/
def Num (py : Py) (s : Sect) (k : String) (x : Fl) : Prop := ∃ v, (k, v) ∈ s ∧ py.toFloat v = some x

/-- The key is in the section with a value that reads as the integer `i`. -/
def Whole (py : Py) (s : Sect) (k : String) (i : Int) : Prop := ∃ v, (k, v) ∈ s ∧ py.toInt v = some i

/-- An optional float. -/
def NumOpt (py : Py) (s : Sect) (k : String) : Option Fl → Prop
  | none => Absent s k
  | some x => Num py s k x

/-- An optional integer. -/
def WholeOpt (py : Py) (s : Sect) (k : String) : Option Int → Prop
  | none => Absent s k
  | some x => Whole py s k x

/-- A float that is a number with the property, or NaN (which passes all the checks). -/
def NumberOrNan (P : ℚ → Prop) (x : Fl) : Prop := x = .nan ∨ ∃ q, x = .fin q ∧ P q

/-- A float that is a non-negative number, `+∞` or NaN. -/
def NonNegOrNan (x : Fl) : Prop := x = .nan ∨ x = .pinf ∨ ∃ q, x = .fin q ∧ 0 ≤ q

/-- White space in Python: the characters for which `str.isspace` holds. -/
def Space (c : Char) : Prop :=
  c.toNat ∈ [9, 10, 11, 12, 13, 28, 29, 30, 31, 32, 133, 160, 5760, 8192, 8193, 8194, 8195, 8196, 8197, 8198, 8199, 8200, 8201, 8202, 8232,
    8233, 8239, 8287, 12288]

/-- `t` is `s` without the surrounding characters that satisfy `P`. -/
def Stripped (P : Char → Prop) (s t : String) : Prop :=
  ∃ pre post, s.toList = pre ++ t.toList ++ post ∧ (∀ c ∈ pre, P c) ∧ (∀ c ∈ post, P c) ∧
    (∀ c, t.toList.head? = some c → ¬P c) ∧ (∀ c, t.toList.getLast? = some c → ¬P c)

/-- The words for true. -/
inductive TrueWord : String → Prop
  | w1 : TrueWord "true" | w2 : TrueWord "True" | w3 : TrueWord "1" | w4 : TrueWord "yes" | w5 : TrueWord "y"

/-- The words for false. -/
inductive FalseWord : String → Prop
  | w1 : FalseWord "false" | w2 : FalseWord "False" | w3 : FalseWord "0" | w4 : FalseWord "no" | w5 : FalseWord "n"

/-- The string reads as the truth value. -/
def Reads (s : String) : Bool → Prop
  | true => ∃ t, Stripped Space s t ∧ TrueWord t
  | false => ∃ t, Stripped Space s t ∧ FalseWord t

/-- A switch with a default. -/
def Switch (s : Sect) (k : String) (dflt b : Bool) : Prop :=
  (Absent s k ∧ b = dflt) ∨ ∃ v, (k, v) ∈ s ∧ Reads v b

/-- `l` are the pieces of `s` between commas. -/
def Pieces (s : String) (l : List String) : Prop :=
  l ≠ [] ∧ (∀ p ∈ l, ',' ∉ p.toList) ∧ s.toList = [','].intercalate (l.map String.toList)

/-- `l` are the pieces of `s` between commas, without surrounding white space. -/
def Items (s : String) (l : List String) : Prop :=
  ∃ ps, Pieces s ps ∧ List.Forall₂ (Stripped Space) ps l

/-- INPUT. -/
structure InputOk (py : Py) (s : Sect) (c : Input) : Prop where
  eph : ("ephemerides_type", c.ephemeridesType) ∈ s ∧ (c.ephemeridesType = "ar" ∨ c.ephemeridesType = "external")
  fmt : ("eph_format", c.ephFormat) ∈ s ∧ (c.ephFormat = "csv" ∨ c.ephFormat = "whitespace" ∨ c.ephFormat = "hdf5")
  aux : ("aux_format", c.auxFormat) ∈ s ∧ (c.auxFormat = "csv" ∨ c.auxFormat = "whitespace" ∨ c.auxFormat = "comma")
  query : ("pointing_sql_query", c.query) ∈ s
  chunk : Whole py s "size_serial_chunk" c.chunk

/-- SIMULATION: all the settings if the ephemerides are generated, none if they are read. -/
inductive SimulationOk (py : Py) (s : Sect) : String → Option SimAR → Prop
  | ar (c : SimAR) (hf : Num py s "ar_ang_fov" c.fov) (hb : Num py s "ar_fov_buffer" c.buffer) (hp : Whole py s "ar_picket" c.picket)
      (ho : ("ar_obs_code", c.obsCode) ∈ s) (hh : Whole py s "ar_healpix_order" c.order)
      (hn : Whole py s "ar_n_sub_intervals" c.nSub ∨ Absent s "ar_n_sub_intervals" ∧ c.nSub = 101) : SimulationOk py s "ar" (some c)
  | external (h : ∀ k ∈ ["ar_ang_fov", "ar_fov_buffer", "ar_picket", "ar_obs_code", "ar_healpix_order"], Absent s k) :
      SimulationOk py s "external" none

/-- The names of the Rubin survey. -/
def IsRubin (survey : String) : Prop := survey = "LSST" ∨ survey = "lsst" ∨ survey = "rubin_sim" ∨ survey = "RUBIN_SIM"

/-- The names of the DES survey. -/
def IsDes (survey : String) : Prop := survey = "DES" ∨ survey = "des"

/-- FILTERS: a list of the survey's filters. -/
def FiltersOk (survey : String) (s : Sect) (fs : List String) : Prop :=
  (∃ v, ("observing_filters", v) ∈ s ∧ Items v fs) ∧
    (IsRubin survey → ∀ f ∈ fs, f = "u" ∨ f = "g" ∨ f = "r" ∨ f = "i" ∨ f = "z" ∨ f = "y") ∧
    (IsDes survey → ∀ f ∈ fs, f = "g" ∨ f = "r" ∨ f = "i" ∨ f = "z" ∨ f = "Y")

/-- SATURATION with a limit given: a number for each filter, or one number for all. -/
def LimitsOk (py : Py) (fs : List String) (v : String) (xs : List Fl) : Prop :=
  ∃ items ys, Items v items ∧ List.Forall₂ (fun e x => py.toFloat e = some x) items ys ∧
    ((ys.length = fs.length ∧ xs = ys) ∨ ∃ x, ys = [x] ∧ xs.length = fs.length ∧ ∀ y ∈ xs, y = x)

/-- FOV. -/
inductive FovOk (py : Py) (survey : String) (s : Sect) : Fov → Prop
  | footprint (p : Option String) (e : Option Fl) (hm : ("camera_model", "footprint") ∈ s)
      (hp : (∃ f, p = some f ∧ ("footprint_path", f) ∈ s ∧ py.isFile f = true) ∨
        (p = none ∧ Absent s "footprint_path" ∧
          (py.lower survey = "lsst" ∨ py.lower survey = "rubin_sim" ∨ py.lower survey = "des")))
      (he : NumOpt py s "footprint_edge_threshold" e) (hv : Absent s "visits_query") (hf : Absent s "fill_factor")
      (hr : Absent s "circle_radius") : FovOk py survey s (.footprint p e)
  | visits (q : String) (hm : ("camera_model", "visits_footprint") ∈ s) (hd : py.lower survey = "des") (hq : ("visits_query", q) ∈ s)
      (he : Absent s "footprint_edge_threshold") (hf : Absent s "fill_factor") (hr : Absent s "circle_radius") : FovOk py survey s (.visits q)
  | circle (f r : Option Fl) (hm : ("camera_model", "circle") ∈ s) (hf : NumOpt py s "fill_factor" f) (hr : NumOpt py s "circle_radius" r)
      (bf : ∀ x, f = some x → NumberOrNan (fun q => 0 ≤ q ∧ q ≤ 1) x) (br : ∀ x, r = some x → NonNegOrNan x)
      (one : f ≠ none ∨ r ≠ none) (he : Absent s "footprint_edge_threshold") : FovOk py survey s (.circle f r)
  | none (hm : ("camera_model", "none") ∈ s) : FovOk py survey s .none

/-- FADINGFUNCTION. -/
inductive FadingOk (py : Py) (survey : String) (s : Sect) : Fading → Prop
  | off (hs : ¬IsDes survey) (hw : Absent s "fading_function_width") (hp : Absent s "fading_function_peak_efficiency") :
      FadingOk py survey s .off
  | on (w p : Fl) (hs : ¬IsDes survey) (hw : Num py s "fading_function_width" w) (hp : Num py s "fading_function_peak_efficiency" p)
      (bw : NumberOrNan (fun q => 0 < q ∧ q ≤ 1 / 2) w) (bp : NumberOrNan (fun q => 0 ≤ q ∧ q ≤ 1) p) : FadingOk py survey s (.on w p)
  | desOff (v : String) (hs : IsDes survey) (hv : ("fading_function_on", v) ∈ s) (hb : Reads v false)
      (hw : Absent s "fading_function_width") (hp : Absent s "fading_function_peak_efficiency") : FadingOk py survey s .off
  | desOn (v : String) (t : Fl) (hs : IsDes survey) (hv : ("fading_function_on", v) ∈ s) (hb : Reads v true)
      (ht : Num py s "des_transient_efficency" t ∨ Absent s "des_transient_efficency" ∧ t = .fin 1)
      (hw : Absent s "fading_function_width") (hp : Absent s "fading_function_peak_efficiency") : FadingOk py survey s (.des t)

/-- LINKINGFILTER: the seven settings. -/
structure SspOk (py : Py) (s : Sect) (c : Ssp) : Prop where
  eff : Num py s "ssp_detection_efficiency" c.efficiency
  effB : NumberOrNan (fun q => 0 ≤ q ∧ q ≤ 1) c.efficiency
  nObs : Whole py s "ssp_number_observations" c.nObs
  nObsB : 1 ≤ c.nObs
  sep : Num py s "ssp_separation_threshold" c.sep
  sepB : NonNegOrNan c.sep
  sepPos : 1 < c.nObs → c.sep ≠ .fin 0
  max : Num py s "ssp_maximum_time" c.maxTime
  maxB : NonNegOrNan c.maxTime
  tracklets : Whole py s "ssp_number_tracklets" c.nTracklets
  trackletsB : 1 ≤ c.nTracklets
  window : Whole py s "ssp_track_window" c.window
  windowB : 0 < c.window
  night : Num py s "ssp_night_start_utc" c.nightStart
  nightB : NumberOrNan (fun q => 0 ≤ q ∧ q ≤ 24) c.nightStart

/-- The keys of the linking filter. -/
def SspKey (k : String) : Prop :=
  k = "ssp_detection_efficiency" ∨ k = "ssp_number_observations" ∨ k = "ssp_separation_threshold" ∨ k = "ssp_maximum_time" ∨
    k = "ssp_number_tracklets" ∨ k = "ssp_track_window" ∨ k = "ssp_night_start_utc"

/-- The attribute keeps what the file says: nothing, or the text. -/
def Raw (s : Sect) (k : String) : Flag → Prop
  | .unset => Absent s k
  | .text v => (k, v) ∈ s
  | .bool _ => False

/-- A pair of limits: both given, which turns the cut on, or none, which leaves the switch as the file has it. -/
def PairOk (py : Py) (s : Sect) (hi lo onKey : String) (on : Flag) : Option (Fl × Fl) → Prop
  | none => Absent s hi ∧ Absent s lo ∧ Raw s onKey on
  | some (h, l) => Num py s hi h ∧ Num py s lo l ∧ on = .bool true

/-- LINKINGFILTER. -/
structure LinkingOk (py : Py) (survey : String) (s : Sect) (c : Linking) : Prop where
  ssp : (∃ k, c.ssp = some k ∧ SspOk py s k ∧ py.lower survey ≠ "des") ∨ (c.ssp = none ∧ ∀ k, SspKey k → Absent s k)
  drop : Switch s "drop_unlinked" true c.dropUnlinked
  discovery : (py.lower survey = "des" ∧ ∃ v b, ("des_discovery_on", v) ∈ s ∧ v ≠ "" ∧ Reads v b ∧ c.desDiscovery = .bool b) ∨
    ((py.lower survey = "des" → ∀ v, ("des_discovery_on", v) ∈ s → v = "") ∧ Raw s "des_discovery_on" c.desDiscovery)
  distance : PairOk py s "distance_cut_upper" "distance_cut_lower" "distance_cut_on" c.distanceOn c.distance
  motion : PairOk py s "motion_cut_upper" "motion_cut_lower" "motion_cut_on" c.motionOn c.motion
  desOnly : py.lower survey ≠ "des" → (c.distanceOn = .unset ∨ c.distanceOn = .text "") ∧ (c.motionOn = .unset ∨ c.motionOn = .text "")

/-- OUTPUT. -/
structure OutputOk (py : Py) (s : Sect) (c : Output) : Prop where
  fmt : ("output_format", c.format) ∈ s ∧ (c.format = "csv" ∨ c.format = "sqlite3" ∨ c.format = "hdf5")
  cols : ∃ v, ("output_columns", v) ∈ s ∧
    ((c.columns = .named v ∧ (v = "basic" ∨ v = "all")) ∨
      ∃ l ps, c.columns = .listed l ∧ Pieces v ps ∧ 2 ≤ ps.length ∧ List.Forall₂ (Stripped (· = ' ')) ps l)
  pos : WholeOpt py s "position_decimals" c.posDecimals
  posB : ∀ i, c.posDecimals = some i → 0 ≤ i
  mag : WholeOpt py s "magnitude_decimals" c.magDecimals
  magB : ∀ i, c.magDecimals = some i → 0 ≤ i

/-- EXPERT: the limits and switches that do not depend on the survey. -/
structure LimitOk (py : Py) (s : Sect) (c : Expert) : Prop where
  snr : NumOpt py s "snr_limit" c.snrLimit
  snrB : ∀ x, c.snrLimit = some x → NonNegOrNan x
  mag : NumOpt py s "mag_limit" c.magLimit
  magB : ∀ x, c.magLimit = some x → NonNegOrNan x
  notBoth : c.snrLimit = none ∨ c.magLimit = none
  cut : Switch s "default_snr_cut" true c.defaultSnrCut
  brute : Switch s "brute_force" true c.bruteForce

/-- EXPERT for Rubin: three switches, on unless turned off. -/
def RubinOk (s : Sect) (c : Expert) : Prop :=
  ∃ r v t, c.randomization = .bool r ∧ c.vignetting = .bool v ∧ c.trailing = .bool t ∧
    Switch s "randomization_on" true r ∧ Switch s "vignetting_on" true v ∧ Switch s "trailing_losses_on" true t

/-- EXPERT for DES: the three effects are off and cannot be turned on. -/
def DesOk (s : Sect) (c : Expert) : Prop :=
  c.randomization = .bool false ∧ c.vignetting = .bool false ∧ c.trailing = .bool false ∧
    Switch s "randomization_on" false false ∧ Switch s "vignetting_on" false false ∧ Switch s "trailing_losses_on" false false

/-- EXPERT for a survey that is neither, without the visit-specific footprint: the texts of the file are kept. -/
def OtherOk (s : Sect) (c : Expert) : Prop :=
  Raw s "randomization_on" c.randomization ∧ Raw s "vignetting_on" c.vignetting ∧ Raw s "trailing_losses_on" c.trailing

/-- SATURATION. `obs` are the filters, if the file has the section. -/
inductive SaturationOk (py : Py) (s : Sect) : Option (List String) → Saturation → Prop
  | limits (fs : List String) (v : String) (xs : List Fl) (hv : ("bright_limit", v) ∈ s) (h : LimitsOk py fs v xs) :
      SaturationOk py s (some fs) ⟨.bool true, some xs⟩
  | noLimits (obs : Option (List String)) (on : Flag) (hv : Absent s "bright_limit") (hr : Raw s "bright_limit_on" on)
      (ho : on = .unset ∨ on = .text "" ∨ obs ≠ none) : SaturationOk py s obs ⟨on, none⟩

/-- LIGHTCURVE, ACTIVITY: a registered model, or none. -/
inductive ModelOk (methods : List String) (key : String) (s : Sect) : Option String → Prop
  | off (h : Absent s key ∨ (key, "none") ∈ s) : ModelOk methods key s none
  | on (m : String) (h : (key, m) ∈ s) (hn : m ≠ "none") (hm : m ∈ methods) : ModelOk methods key s (some m)

/-- The section of a file, empty if it is missing. -/
def SectionIs (f : File) (name : String) (s : Sect) : Prop := (name, s) ∈ f ∨ (∀ t, (name, t) ∉ f) ∧ s = []

/-- The section has no other keys. -/
def Only (s : Sect) (keys : List String) : Prop := ∀ k v, (k, v) ∈ s → k ∈ keys

/-- A file as `configparser` accepts it: no section and no key of a section occurs twice. -/
def WellFormed (f : File) : Prop := (f.map Prod.fst).Nodup ∧ ∀ n s, (n, s) ∈ f → (s.map Prod.fst).Nodup

/-- All the settings are valid, each in its section, and no section has unknown keys. The survey is Rubin's or DES. -/
structure FileOk (py : Py) (lcMethods caMethods : List String) (survey : String) (f : File) (c : Cfg) : Prop where
  input : ∃ s, SectionIs f "INPUT" s ∧ InputOk py s c.input ∧
    Only s ["ephemerides_type", "eph_format", "size_serial_chunk", "aux_format", "pointing_sql_query"]
  simulation : ∃ s, ("SIMULATION", s) ∈ f ∧ SimulationOk py s c.input.ephemeridesType c.simulation ∧
    Only s ["ar_ang_fov", "ar_fov_buffer", "ar_picket", "ar_obs_code", "ar_healpix_order", "ar_n_sub_intervals"]
  filters : ∃ s, SectionIs f "FILTERS" s ∧ FiltersOk survey s c.filters ∧ Only s ["observing_filters", "mainfilter", "othercolours"]
  saturation : (∃ s, ("SATURATION", s) ∈ f ∧ SaturationOk py s (some c.filters) c.saturation ∧ Only s ["bright_limit_on", "bright_limit"]) ∨
    ((∀ t, ("SATURATION", t) ∉ f) ∧ c.saturation = ⟨.unset, none⟩)
  phase : ∃ s, SectionIs f "PHASECURVES" s ∧ ("phase_function", c.phase) ∈ s ∧
    (c.phase = "HG" ∨ c.phase = "HG1G2" ∨ c.phase = "HG12" ∨ c.phase = "linear" ∨ c.phase = "none") ∧ Only s ["phase_function"]
  fov : ∃ s, SectionIs f "FOV" s ∧ FovOk py survey s c.fov ∧
    Only s ["camera_model", "footprint_path", "visits_query", "fill_factor", "circle_radius", "footprint_edge_threshold"]
  fading : ∃ s, SectionIs f "FADINGFUNCTION" s ∧ FadingOk py survey s c.fading ∧
    Only s ["fading_function_on", "fading_function_width", "fading_function_peak_efficiency", "des_transient_efficency"]
  linking : ∃ s, SectionIs f "LINKINGFILTER" s ∧ LinkingOk py survey s c.linking ∧
    Only s ["ssp_linking_on", "drop_unlinked", "ssp_detection_efficiency", "ssp_number_observations", "ssp_separation_threshold",
      "ssp_maximum_time", "ssp_number_tracklets", "ssp_track_window", "ssp_night_start_utc", "des_discovery_on", "distance_cut_on",
      "distance_cut_upper", "distance_cut_lower", "motion_cut_on", "motion_cut_upper", "motion_cut_lower"]
  output : ∃ s, SectionIs f "OUTPUT" s ∧ OutputOk py s c.output ∧
    Only s ["output_format", "output_columns", "position_decimals", "magnitude_decimals"]
  lightcurve : ∃ s, SectionIs f "LIGHTCURVE" s ∧ ModelOk lcMethods "lc_model" s c.lightcurve ∧ Only s ["lc_model"]
  activity : ∃ s, SectionIs f "ACTIVITY" s ∧ ModelOk caMethods "comet_activity" s c.activity ∧ Only s ["comet_activity"]
  expert : ∃ s, SectionIs f "EXPERT" s ∧ LimitOk py s c.expert ∧
    ((IsRubin survey ∧ RubinOk s c.expert) ∨ (IsDes survey ∧ DesOk s c.expert)) ∧
    Only s ["snr_limit", "snr_limit_on", "mag_limit", "mag_limit_on", "trailing_losses_on", "default_snr_cut", "randomization_on",
      "vignetting_on", "brute_force"]

end Sorcha.Config.Spec
