import Verif.Ini.Props
import Verif.Ini.Data
import Verif.Ini.TemplateSpec
import Verif.Config.Props

/-!
# C74: the configuration files that come with the package
-/

namespace Sorcha.Ini.Props

open Spec Sorcha.Ini
open Sorcha.Config (isSpace stripChars Cfg)

/-! ## Reading them does not depend on how `str.lower` treats other scripts -/

/-- Only ASCII, or a comment. -/
def plainLine (l : Line) : Bool :=
  l.all (fun c => c.toNat < 128) || (match stripChars isSpace l with
    | [] => true
    | c :: _ => c = '#' || c = ';')

theorem mem_strip (l : Line) (c : Char) (h : c ∈ stripChars isSpace l) : c ∈ l := by
  unfold stripChars at h
  rw [List.mem_reverse] at h
  have := (List.dropWhile_sublist _).subset h
  rw [List.mem_reverse] at this
  exact (List.dropWhile_sublist _).subset this

theorem option_key_mem (v k x : Line) (h : option v = some (k, x)) : ∀ c ∈ k, c ∈ v := by
  unfold option at h
  split at h
  · cases h
  · cases h
    intro c hc
    rw [List.mem_reverse] at hc
    have := (List.dropWhile_sublist _).subset hc
    rw [List.mem_reverse] at this
    exact (List.takeWhile_sublist _).subset this

theorem heading_congr (l1 l2 : String → String) (h : ∀ s, Ascii s → l1 s = l2 s) (st : St) (v : Line) (hv : ∀ c ∈ v, c.toNat < 128) :
    heading l1 st v = heading l2 st v := by
  unfold heading
  split
  · rfl
  · split
    · rfl
    · split
      · rfl
      · rename_i k x hk
        have e : l1 (String.ofList k) = l2 (String.ofList k) := by
          apply h
          intro c hc
          rw [String.toList_ofList] at hc
          exact hv c (option_key_mem v k x hk c hc)
        rw [e]

theorem step_congr (l1 l2 : String → String) (h : ∀ s, Ascii s → l1 s = l2 s) (st : St) (l : Line) (hl : plainLine l = true) :
    step l1 st l = step l2 st l := by
  unfold step
  unfold plainLine at hl
  split
  · rfl
  · rename_i c v hs
    split
    · rfl
    · rename_i hc
      split
      · rfl
      · refine heading_congr l1 l2 h _ _ ?_
        rw [hs] at hl
        rw [Bool.or_eq_true] at hl
        rcases hl with hl | hl
        · intro d hd
          have := mem_strip l d (by rw [hs]; exact hd)
          simpa using List.all_eq_true.1 hl d this
        · exact absurd hl hc

theorem parse_congr (l1 l2 : String → String) (h : ∀ s, Ascii s → l1 s = l2 s) (lines : List Line) :
    lines.all plainLine = true → ∀ st, parse l1 st lines = parse l2 st lines := by
  induction lines with
  | nil => intro _ st; rfl
  | cons l ls ih =>
    intro hl st
    rw [List.all_cons, Bool.and_eq_true] at hl
    rw [parse, parse, step_congr l1 l2 h st l hl.1]
    split
    · rfl
    · exact ih hl.2 _

theorem interpGo_plain (lower : String → String) (look : String → Option Line) (sub : Line → Except Err Line) (v : Line) (h : '%' ∉ v) :
    interpGo lower look sub 0 v = .ok v := by
  refine interpGo_meaning lower look sub ?_
  induction v with
  | nil => exact .nil
  | cons c r ih => exact .char (fun e => h (by simp [e])) (ih fun hm => h (by simp [hm]))

theorem dictGo_plain (lower : String → String) (raw os : List (String × Line)) (h : ∀ o ∈ os, '%' ∉ o.2) :
    dictGo lower raw os = .ok (os.map fun o => (o.1, String.ofList o.2)) := by
  induction os with
  | nil => rfl
  | cons a as ih =>
    obtain ⟨k, v⟩ := a
    simp only [dictGo, interp, bind, Except.bind]
    rw [interpGo_plain lower _ _ v (h (k, v) (by simp)), ih fun o ho => h o (by simp [ho])]
    rfl

/-- No value has a per cent sign. -/
def noPercent (secs : List (String × List Opt)) : Bool := sectionList.all fun n => (rawDict secs n).all fun o => !o.2.contains '%'

theorem dicts_congr (l1 l2 : String → String) (secs : List (String × List Opt)) (ns : List String)
    (h : ∀ n ∈ ns, ∀ o ∈ rawDict secs n, '%' ∉ o.2) : dicts l1 secs ns = dicts l2 secs ns := by
  induction ns with
  | nil => rfl
  | cons a as ih =>
    rw [dicts, dicts, ih fun n hn => h n (by simp [hn])]
    unfold dict
    rw [dictGo_plain l1 _ _ (h a (by simp)), dictGo_plain l2 _ _ (h a (by simp))]

theorem load_congr (l1 l2 : String → String) (h : ∀ s, Ascii s → l1 s = l2 s) (lines : List Line) (h1 : lines.all plainLine = true) (f : Config.File)
    (h2 : (match parse l2 St.init lines with
      | .error _ => false
      | .ok st => noPercent st.secs && decide (dicts l2 st.secs sectionList = .ok f)) = true) :
    load l1 lines = .ok f := by
  unfold load
  rw [parse_congr l1 l2 h lines h1]
  split
  · rename_i e he
    rw [he] at h2
    exact absurd h2 (by simp)
  · rename_i st hst
    rw [hst] at h2
    simp only [Bool.and_eq_true, decide_eq_true_eq] at h2
    obtain ⟨h3, h4⟩ := h2
    rw [dicts_congr l1 l2 st.secs sectionList ?_, h4]
    intro n hn o ho
    unfold noPercent at h3
    have := List.all_eq_true.1 (List.all_eq_true.1 h3 n hn) o ho
    simpa using this

/-! ## What they say -/

/-- The query for the pointings of a Rubin cadence simulation. -/
def rubinQuery : String :=
  "SELECT observationId, observationStartMJD as observationStartMJD_TAI, visitTime, visitExposureTime, filter, seeingFwhmGeom as seeingFwhmGeom_arcsec, seeingFwhmEff as seeingFwhmEff_arcsec, fiveSigmaDepth as fieldFiveSigmaDepth_mag , fieldRA as fieldRA_deg, fieldDec as fieldDec_deg, rotSkyPos as fieldRotSkyPos_deg FROM observations order by observationId"

/-- The query for the pointings of DES. -/
def desQuery : String :=
  "SELECT observationId, observationMidpointMJD as observationMidpointMJD_TAI , visitExposureTime, filter, fiveSigmaDepth as fieldFiveSigmaDepth_mag , fieldRA as fieldRA_deg, fieldDec as fieldDec_deg, c, k FROM observations order by observationId"

/-- The query for the detectors of DES. -/
def desVisitsQuery : String :=
  "SELECT llcra, llcdec, lrcra, lrcdec, urcra, urcdec, ulcra, ulcdec, ra as ra_centre, dec as dec_centre, detectorID, magLim as limMag_perChip  FROM observations WHERE visitId = ?"

/-- The settings in src/sorcha/data/survey_setups/Rubin_circular_approximation.ini. -/
def rubinCircularSettings : Config.File :=
  [("INPUT", [("ephemerides_type", "ar"), ("eph_format", "csv"), ("size_serial_chunk", "20000"), ("aux_format", "csv"), ("pointing_sql_query", rubinQuery)]),
   ("SIMULATION", [("ar_ang_fov", "2.06"), ("ar_fov_buffer", "0.2"), ("ar_picket", "1"), ("ar_obs_code", "X05"), ("ar_healpix_order", "6")]),
   ("FILTERS", [("observing_filters", "r,g,i,z,u,y")]),
   ("SATURATION", [("bright_limit", "16.0")]),
   ("PHASECURVES", [("phase_function", "HG")]),
   ("FOV", [("camera_model", "circle"), ("fill_factor", "0.9"), ("circle_radius", "1.75")]),
   ("FADINGFUNCTION", [("fading_function_width", "0.1"), ("fading_function_peak_efficiency", "1.")]),
   ("LINKINGFILTER", [("ssp_detection_efficiency", "0.95"), ("ssp_number_observations", "2"), ("ssp_separation_threshold", "0.5"), ("ssp_maximum_time", "0.0625"), ("ssp_number_tracklets", "3"), ("ssp_track_window", "15"), ("ssp_night_start_utc", "16.0")]),
   ("OUTPUT", [("output_format", "sqlite3"), ("output_columns", "basic")]),
   ("LIGHTCURVE", [("lc_model", "none")]),
   ("ACTIVITY", [("comet_activity", "none")])]

/-- The settings in src/sorcha/data/survey_setups/Rubin_full_footprint.ini. -/
def rubinFootprintSettings : Config.File :=
  [("INPUT", [("ephemerides_type", "ar"), ("eph_format", "csv"), ("size_serial_chunk", "20000"), ("aux_format", "csv"), ("pointing_sql_query", rubinQuery)]),
   ("SIMULATION", [("ar_ang_fov", "2.06"), ("ar_fov_buffer", "0.2"), ("ar_picket", "1"), ("ar_obs_code", "X05"), ("ar_healpix_order", "6")]),
   ("FILTERS", [("observing_filters", "r,g,i,z,u,y")]),
   ("SATURATION", [("bright_limit", "16.0")]),
   ("PHASECURVES", [("phase_function", "HG")]),
   ("FOV", [("camera_model", "footprint"), ("footprint_edge_threshold", "2.")]),
   ("FADINGFUNCTION", [("fading_function_width", "0.1"), ("fading_function_peak_efficiency", "1.")]),
   ("LINKINGFILTER", [("ssp_detection_efficiency", "0.95"), ("ssp_number_observations", "2"), ("ssp_separation_threshold", "0.5"), ("ssp_maximum_time", "0.0625"), ("ssp_number_tracklets", "3"), ("ssp_track_window", "15"), ("ssp_night_start_utc", "16.0")]),
   ("OUTPUT", [("output_format", "sqlite3"), ("output_columns", "basic")]),
   ("LIGHTCURVE", [("lc_model", "none")]),
   ("ACTIVITY", [("comet_activity", "none")])]

/-- The settings in src/sorcha/data/survey_setups/Rubin_known_object_prediction.ini. -/
def rubinKnownSettings : Config.File :=
  [("INPUT", [("ephemerides_type", "ar"), ("eph_format", "csv"), ("size_serial_chunk", "20000"), ("aux_format", "csv"), ("pointing_sql_query", rubinQuery)]),
   ("SIMULATION", [("ar_ang_fov", "2.06"), ("ar_fov_buffer", "0.2"), ("ar_picket", "1"), ("ar_obs_code", "X05"), ("ar_healpix_order", "6")]),
   ("FILTERS", [("observing_filters", "r,g,i,z,u,y")]),
   ("PHASECURVES", [("phase_function", "HG")]),
   ("FOV", [("camera_model", "footprint"), ("footprint_edge_threshold", "2.")]),
   ("OUTPUT", [("output_format", "sqlite3"), ("output_columns", "basic")]),
   ("LIGHTCURVE", [("lc_model", "none")]),
   ("ACTIVITY", [("comet_activity", "none")]),
   ("EXPERT", [("randomization_on", "False"), ("vignetting_on", "False"), ("trailing_losses_on", "False")])]

/-- The settings in src/sorcha/data/survey_setups/DES_config_file.ini. -/
def desSettings : Config.File :=
  [("INPUT", [("ephemerides_type", "ar"), ("eph_format", "csv"), ("size_serial_chunk", "20000"), ("aux_format", "csv"), ("pointing_sql_query", desQuery)]),
   ("SIMULATION", [("ar_ang_fov", "1.3"), ("ar_fov_buffer", "0.2"), ("ar_picket", "1"), ("ar_obs_code", "W84"), ("ar_healpix_order", "6")]),
   ("FILTERS", [("observing_filters", "r,g,i,z")]),
   ("SATURATION", [("bright_limit", "16.0")]),
   ("PHASECURVES", [("phase_function", "none")]),
   ("FOV", [("camera_model", "visits_footprint"), ("visits_query", desVisitsQuery)]),
   ("FADINGFUNCTION", [("fading_function_on", "True"), ("self.des_transient_efficency", "0.95529")]),
   ("LINKINGFILTER", [("des_discovery_on", "True")]),
   ("OUTPUT", [("output_format", "csv"), ("output_columns", "all")]),
   ("LIGHTCURVE", [("lc_model", "none")]),
   ("ACTIVITY", [("comet_activity", "none")])]

/-- The settings in src/sorcha/data/demo/sorcha_config_demo.ini. -/
def demoSettings : Config.File :=
  [("INPUT", [("ephemerides_type", "ar"), ("eph_format", "csv"), ("size_serial_chunk", "5000"), ("aux_format", "whitespace"), ("pointing_sql_query", rubinQuery)]),
   ("SIMULATION", [("ar_ang_fov", "2.06"), ("ar_fov_buffer", "0.2"), ("ar_picket", "1"), ("ar_obs_code", "X05"), ("ar_healpix_order", "6")]),
   ("FILTERS", [("observing_filters", "r,g,i,z,u,y")]),
   ("SATURATION", [("bright_limit", "16.0")]),
   ("PHASECURVES", [("phase_function", "HG")]),
   ("FOV", [("camera_model", "footprint"), ("footprint_edge_threshold", "2.")]),
   ("FADINGFUNCTION", [("fading_function_width", "0.1"), ("fading_function_peak_efficiency", "1.")]),
   ("LINKINGFILTER", [("ssp_detection_efficiency", "0.95"), ("ssp_number_observations", "2"), ("ssp_separation_threshold", "0.5"), ("ssp_maximum_time", "0.0625"), ("ssp_number_tracklets", "3"), ("ssp_track_window", "15"), ("ssp_night_start_utc", "16.0")]),
   ("OUTPUT", [("output_format", "csv"), ("output_columns", "basic")]),
   ("LIGHTCURVE", [("lc_model", "none")]),
   ("ACTIVITY", [("comet_activity", "none")])]


/-- The lines are plain and say `f`. -/
def hasSettings (lines : List Line) (f : Config.File) : Bool :=
  lines.all plainLine && (match parse lowerAscii St.init lines with
    | .error _ => false
    | .ok st => noPercent st.secs && decide (dicts lowerAscii st.secs sectionList = .ok f))

theorem load_template (py : Config.Py) (rnd : ℚ → ℚ) (hpy : Python py rnd) (lines : List Line) (f : Config.File)
    (h : hasSettings lines f = true) : load py.lower lines = .ok f := by
  unfold hasSettings at h
  rw [Bool.and_eq_true] at h
  exact load_congr py.lower lowerAscii hpy.lower lines h.1 f h.2

theorem load_circular (py : Config.Py) (rnd : ℚ → ℚ) (hpy : Python py rnd) : load py.lower Data.rubinCircular = .ok rubinCircularSettings := by
  have h : hasSettings Data.rubinCircular rubinCircularSettings = true := by decide +kernel
  exact load_template py rnd hpy _ _ h

theorem load_footprint (py : Config.Py) (rnd : ℚ → ℚ) (hpy : Python py rnd) : load py.lower Data.rubinFootprint = .ok rubinFootprintSettings := by
  have h : hasSettings Data.rubinFootprint rubinFootprintSettings = true := by decide +kernel
  exact load_template py rnd hpy _ _ h

theorem load_known (py : Config.Py) (rnd : ℚ → ℚ) (hpy : Python py rnd) : load py.lower Data.rubinKnown = .ok rubinKnownSettings := by
  have h : hasSettings Data.rubinKnown rubinKnownSettings = true := by decide +kernel
  exact load_template py rnd hpy _ _ h

theorem load_des (py : Config.Py) (rnd : ℚ → ℚ) (hpy : Python py rnd) : load py.lower Data.des = .ok desSettings := by
  have h : hasSettings Data.des desSettings = true := by decide +kernel
  exact load_template py rnd hpy _ _ h

theorem load_demo (py : Config.Py) (rnd : ℚ → ℚ) (hpy : Python py rnd) : load py.lower Data.demo = .ok demoSettings := by
  have h : hasSettings Data.demo demoSettings = true := by decide +kernel
  exact load_template py rnd hpy _ _ h

end Sorcha.Ini.Props
