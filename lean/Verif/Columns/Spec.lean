import Verif.Columns.Model

/-!
# Vocabulary of the statements about columns

Which columns the documentation asks for, and which names Sorcha uses itself.
-/

namespace Sorcha.Columns

/-- The columns an ephemeris must have. -/
def EphemerisNames : List String :=
  ["ObjID", "FieldID", "fieldMJD_TAI", "Range_LTC_km", "RangeRate_LTC_km_s", "RA_deg", "RARateCosDec_deg_day", "Dec_deg", "DecRate_deg_day", "Obj_Sun_x_LTC_km",
    "Obj_Sun_y_LTC_km", "Obj_Sun_z_LTC_km", "Obj_Sun_vx_LTC_km_s", "Obj_Sun_vy_LTC_km_s", "Obj_Sun_vz_LTC_km_s", "Obs_Sun_x_km", "Obs_Sun_y_km", "Obs_Sun_z_km",
    "Obs_Sun_vx_km_s", "Obs_Sun_vy_km_s", "Obs_Sun_vz_km_s", "phase_deg"]

/-- The columns the pointing query of a Rubin run must give, as in the example configurations. -/
def RubinQuery : List String :=
  ["observationId", "observationStartMJD_TAI", "visitTime", "visitExposureTime", "filter", "seeingFwhmGeom_arcsec", "seeingFwhmEff_arcsec", "fieldFiveSigmaDepth_mag",
    "fieldRA_deg", "fieldDec_deg", "fieldRotSkyPos_deg"]

/-- The columns the pointing query of a DES run must give; `c` and `k` are for the fading function. -/
def DesQuery : List String :=
  ["observationId", "observationMidpointMJD_TAI", "visitExposureTime", "filter", "fieldFiveSigmaDepth_mag", "fieldRA_deg", "fieldDec_deg", "c", "k"]

/-- Columns of the visits table that are only used to generate ephemerides. -/
def VisitsOnly : List String :=
  ["fieldJD_TDB", "pixels_begin", "pixels_end", "visit_vector_x", "visit_vector_y", "visit_vector_z", "pixels_x", "pixels_y", "pixels_z", "r_obs_x", "r_obs_y", "r_obs_z",
    "v_obs_x", "v_obs_y", "v_obs_z", "r_sun_x", "r_sun_y", "r_sun_z", "v_sun_x", "v_sun_y", "v_sun_z"]

/-- Names Sorcha makes or uses for columns of its own. -/
def Computed : List String :=
  ["fieldJD_TDB", "optFilter", "observationId_", "observationStartMJD_TAI", "observationMidpointMJD_TAI", "H_original", "H_filter", "trailedSourceMagTrue", "Delta_m",
    "PSFMagTrue", "fiveSigmaDepth_mag", "astrometricSigma_deg", "SNRTrailedSourceMag", "trailedSourceMagSigma", "SNRPSFMag", "PSFMagSigma", "RATrue_deg", "DecTrue_deg",
    "trailedSourceMag", "PSFMag", "detectorID", "limMag_perChip", "object_separation", "detection_probability", "object_linked", "date_linked_MJD", "Obj_Sun_LTC_km"]

/-- The parameters of the phase functions. -/
inductive PhaseNeeds : String → List String → Prop
  | HG1G2 : PhaseNeeds "HG1G2" ["G1", "G2"]
  | HG : PhaseNeeds "HG" ["GS"]
  | HG12 : PhaseNeeds "HG12" ["G12"]
  | linear : PhaseNeeds "linear" ["S"]
  | none : PhaseNeeds "none" []

/-- The auxiliary files that are read. -/
def auxFiles (c : Config.Cfg) (f : Files) : List Cols :=
  [f.orbits, f.params] ++ if c.activity.isSome ∨ c.lightcurve.isSome then [f.complex] else []

/-- A column of one of the auxiliary files or of the answer of the pointing database. -/
def Given (c : Config.Cfg) (f : Files) (x : String) : Prop := (∃ a ∈ auxFiles c f, x ∈ a) ∨ x ∈ f.pointing

/-- The phase parameters are given for each filter, and not (all of them) for all filters at once. -/
def PerFilter (c : Config.Cfg) (f : Files) : Prop := ∃ ps, PhaseNeeds c.phase ps ∧ ∃ p ∈ ps, ¬ Given c f p

/-- Input as the documentation asks for it. -/
structure Documented (query : List String) (c : Config.Cfg) (r : Run) (f : Files) : Prop where
  /-- an external ephemeris has the listed columns, besides them at most the Julian date and the two magnitudes of other generators -/
  ephemeris : ∀ e, f.ephemeris = some e → (∀ x ∈ EphemerisNames, x ∈ e) ∧ ∀ x ∈ e, x ∈ EphemerisNames ∨ x ∈ ["fieldJD_TDB", "V", "V(H=0)"]
  ids : ∀ a ∈ auxFiles c f, "ObjID" ∈ a
  query : ∀ x ∈ query, x ∈ f.pointing
  /-- H in the main filter, and the colours of the other filters -/
  main : "H_" ++ r.main ∈ f.params
  colour : ∀ b ∈ c.filters, b ≠ r.main → b ++ "-" ++ r.main ∈ f.params
  /-- the phase function is one of the five; its parameters are given for all filters at once, or for each of several filters and then observations are left -/
  phase : ∃ ps, PhaseNeeds c.phase ps ∧
    ((∀ p ∈ ps, p ∈ f.params) ∨ 1 < c.filters.length ∧ r.present ≠ [] ∧ ∀ p ∈ ps, ∀ b ∈ c.filters, p ++ b ∈ f.params)
  /-- filters are named by one character, the filter of H is one of them, and only visits in these filters are matched -/
  letters : (∀ b ∈ c.filters, ∃ ch, b = String.ofList [ch]) ∧ r.main ∈ c.filters ∧ ∀ b ∈ r.present, b ∈ c.filters
  /-- what the light curve and activity models read is in the ephemeris, in an auxiliary file and neither a colour nor a phase parameter of one filter, or computed before -/
  addons : ∀ a, r.lightcurve = some a ∨ r.activity = some a → ∀ x ∈ a.reads,
    x ∈ EphemerisNames ∨ (∃ t ∈ auxFiles c f, x ∈ t ∧ x.toList[1]? ≠ some '-' ∧ ∀ ps, PhaseNeeds c.phase ps → ∀ p ∈ ps, ∀ b ∈ c.filters, x ≠ p ++ b) ∨
      x ∈ ["optFilter", "H_filter", "trailedSourceMagTrue"]

/-- Names do not collide: the auxiliary files have no column in common but `ObjID`; they and the columns of the query have no name of the ephemeris or of Sorcha's own,
and none in common; the light curve and activity models add no column of Sorcha's own. -/
structure NoClash (c : Config.Cfg) (r : Run) (f : Files) : Prop where
  files : (auxFiles c f).Pairwise fun a b => ∀ x ∈ a, x ∈ b → x = "ObjID"
  own : ∀ a ∈ auxFiles c f, ∀ x ∈ a, x = "ObjID" ∨ x ∉ EphemerisNames ∧ x ∉ Computed
  visits : ∀ x ∈ f.pointing, x ≠ "q" ∧ x ∉ EphemerisNames ∧ (x ∈ Computed → x ∈ ["fieldJD_TDB", "observationStartMJD_TAI", "observationMidpointMJD_TAI"])
  apart : ∀ a ∈ auxFiles c f, ∀ x ∈ a, x ∈ f.pointing → x ∈ VisitsOnly
  added : ∀ a, r.lightcurve = some a ∨ r.activity = some a → ∀ x ∈ a.adds, x ∉ Computed

/-- A colour with respect to the filter of H, such as `g-r`. -/
def Colour (main x : String) : Prop := ∃ ch, x.toList = ch :: '-' :: main.toList

/-- With more than one filter, colours and phase parameters given for each filter are removed. -/
def Removed (c : Config.Cfg) (r : Run) (f : Files) (x : String) : Prop :=
  1 < c.filters.length ∧ (Colour r.main x ∨ PerFilter c f ∧ ∃ ps, PhaseNeeds c.phase ps ∧ ∃ p ∈ ps, ∃ b ∈ c.filters, x = p ++ b)

/-- The columns every run has after the magnitudes have been computed. -/
inductive Common (c : Config.Cfg) (r : Run) (f : Files) : String → Prop
  | ephemeris (x) : x ∈ EphemerisNames → Common c r f x
  | date : f.ephemeris = none → Common c r f "fieldJD_TDB"
  | perihelion : f.ephemeris = none → c.expert.bruteForce = false → Common c r f "q"
  | aux (a x) : a ∈ auxFiles c f → x ∈ a → ¬ Removed c r f x → Common c r f x
  | visit (x) : x ∈ f.pointing → x ∉ VisitsOnly → x ∉ ["observationId", "filter", "observationStartMJD_TAI", "observationMidpointMJD_TAI"] → ¬ Removed c r f x →
      Common c r f x
  | phase (ps p) : 1 < c.filters.length → PerFilter c f → PhaseNeeds c.phase ps → p ∈ ps → Common c r f p
  | lightcurve (a) : r.lightcurve = some a → Common c r f "Delta_m"
  | added (a x) : r.lightcurve = some a ∨ r.activity = some a → x ∈ a.adds → Common c r f x
  | computed (x) : x ∈ ["optFilter", "H_filter", "trailedSourceMagTrue", "PSFMagTrue", "fiveSigmaDepth_mag", "RATrue_deg", "DecTrue_deg", "trailedSourceMag", "PSFMag"] →
      Common c r f x
  | detector : (∀ q radius, c.fov ≠ .circle q radius) → c.fov ≠ .none → Common c r f "detectorID"
  | perChip (q) : c.fov = .visits q → Common c r f "limMag_perChip"

/-- The columns of a Rubin run. -/
def RubinColumn (c : Config.Cfg) (r : Run) (f : Files) (x : String) : Prop :=
  Common c r f x ∨ x ∈ ["astrometricSigma_deg", "SNRTrailedSourceMag", "trailedSourceMagSigma", "SNRPSFMag", "PSFMagSigma"] ∨
    c.linking.ssp.isSome ∧ x ∈ ["object_linked", "date_linked_MJD"]

end Sorcha.Columns
