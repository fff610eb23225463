import Verif.Ini.Model

/-!
# The configuration files that come with the package, line by line

Generated from the files; the text is unchanged.
-/

namespace Sorcha.Ini.Data

/-- The characters of a text (the same as `String.toList`, but written out when the file is compiled). -/
macro "chars! " s:str : term => do
  let cs := (s.getString.toList.map fun c => Lean.Syntax.mkCharLit c).toArray
  `(([$cs,*] : List Char))

/-- src/sorcha/data/survey_setups/Rubin_circular_approximation.ini:1-20 -/
def rubinCircular0 : List Line := [
  chars! "# Sorcha Configuration File",
  chars! "# This configuration file will set up Sorcha to simulate what the LSST would discover.",
  chars! "# This version simulates objects lost to chip gaps between LSSTCam's detectors by ",
  chars! "# simulating a circular detector and approximating the chip gaps, removing all objects ",
  chars! "# outside of a 1.75deg radius and 10% of objects within. ",
  chars! "# This is slightly faster than using the full footprint.",
  chars! "",
  chars! "",
  chars! "[INPUT]",
  chars! "",
  chars! "# The simulation used for the ephemeris input. ",
  chars! "# ar=ASSIST+REBOUND interal ephemeris generation ",
  chars! "# external=providing an external input file from the command line",
  chars! "# Options: \"ar\", \"external\"",
  chars! "ephemerides_type = ar",
  chars! "",
  chars! "# Format for ephemeris simulation input file if a file is specified at the command line. ",
  chars! "# This is also the format to which ephemeris files will be written out, if specified.",
  chars! "# Options: csv, whitespace, hdf5",
  chars! "eph_format = csv"]

/-- src/sorcha/data/survey_setups/Rubin_circular_approximation.ini:21-40 -/
def rubinCircular1 : List Line := [
  chars! "",
  chars! "# Sorcha chunk size: how many objects should be processed at once?",
  chars! "size_serial_chunk = 20000",
  chars! "",
  chars! "# Format for the orbit, physical parameters, and complex physical parameters input files.",
  chars! "# Options: csv or whitespace",
  chars! "aux_format = csv",
  chars! "",
  chars! "# SQL query for extracting data from the pointing database.",
  chars! "pointing_sql_query = SELECT observationId, observationStartMJD as observationStartMJD_TAI, visitTime, visitExposureTime, filter, seeingFwhmGeom as seeingFwhmGeom_arcsec, seeingFwhmEff as seeingFwhmEff_arcsec, fiveSigmaDepth as fieldFiveSigmaDepth_mag , fieldRA as fieldRA_deg, fieldDec as fieldDec_deg, rotSkyPos as fieldRotSkyPos_deg FROM observations order by observationId",
  chars! "",
  chars! "",
  chars! "[SIMULATION]",
  chars! "# Configuration for running the ASSIST+REBOUND ephemerides generator.",
  chars! "",
  chars! "# the field of view of our search field, in degrees",
  chars! "ar_ang_fov = 2.06",
  chars! "",
  chars! "# the buffer zone around the field of view we want to include, in degrees",
  chars! "ar_fov_buffer = 0.2"]

/-- src/sorcha/data/survey_setups/Rubin_circular_approximation.ini:41-60 -/
def rubinCircular2 : List Line := [
  chars! "",
  chars! "# the \"picket\" is our imprecise discretization of time that allows us to move progress",
  chars! "# our simulations forward without getting too granular when we don't have to.",
  chars! "# the unit is number of days.",
  chars! "ar_picket = 1",
  chars! "",
  chars! "# the obscode is the MPC observatory code for the provided telescope.",
  chars! "ar_obs_code = X05",
  chars! "",
  chars! "# the order of healpix which we will use for the healpy portions of the code.",
  chars! "# the nside is equivalent to 2**ar_healpix_order",
  chars! "ar_healpix_order = 6",
  chars! "",
  chars! "",
  chars! "[FILTERS]",
  chars! "",
  chars! "# Filters of the observations you are interested in, comma-separated.",
  chars! "# Your physical parameters file must have H calculated in one of these filters",
  chars! "# and colour offset columns defined relative to that filter.",
  chars! "observing_filters = r,g,i,z,u,y"]

/-- src/sorcha/data/survey_setups/Rubin_circular_approximation.ini:61-80 -/
def rubinCircular3 : List Line := [
  chars! "",
  chars! "",
  chars! "[SATURATION]",
  chars! "",
  chars! "# Upper magnitude limit on sources that will overfill the detector pixels/have",
  chars! "# counts above the non-linearity regime of the pixels where one can’t do ",
  chars! "# photometry. Objects brighter than this limit (in magnitude) will be cut. ",
  chars! "# Comment out for no saturation limit.",
  chars! "# Two formats are accepted:",
  chars! "# Single float: applies same saturation limit to observations in all filters.",
  chars! "# Comma-separated list of floats: applies saturation limit per filter, in order as",
  chars! "# given in observing_filters keyword.",
  chars! "bright_limit = 16.0",
  chars! "",
  chars! "",
  chars! "[PHASECURVES]",
  chars! "",
  chars! "# The phase function used to calculate apparent magnitude. The physical parameters input",
  chars! "# file must contain the columns needed to calculate the phase function.",
  chars! "# Options: HG, HG1G2, HG12, linear, none."]

/-- src/sorcha/data/survey_setups/Rubin_circular_approximation.ini:81-100 -/
def rubinCircular4 : List Line := [
  chars! "phase_function = HG",
  chars! "",
  chars! "",
  chars! "[FOV]",
  chars! "",
  chars! "# Choose between circular or actual camera footprint, including chip gaps.",
  chars! "# Options: circle, footprint.",
  chars! "camera_model = circle",
  chars! "",
  chars! "# Fraction of detector surface area which contains CCD -- simulates chip gaps",
  chars! "# for OIF output. Comment out if using camera footprint.",
  chars! "fill_factor = 0.9",
  chars! "",
  chars! "# Radius of the circle for a circular footprint (in degrees). Float.",
  chars! "# Comment out or do not include if using footprint camera model.",
  chars! "circle_radius = 1.75",
  chars! "",
  chars! "",
  chars! "[FADINGFUNCTION]",
  chars! ""]

/-- src/sorcha/data/survey_setups/Rubin_circular_approximation.ini:101-120 -/
def rubinCircular5 : List Line := [
  chars! "# Uses the fading function as outlined in",
  chars! "# Chesley and Vereš (2017) to remove observations.",
  chars! "",
  chars! "# Width parameter for fading function. Should be greater than zero and less than 0.5.",
  chars! "# Suggested value is 0.1 after Chesley and Vereš (2017).",
  chars! "fading_function_width = 0.1",
  chars! "",
  chars! "# Peak efficiency for the fading function, called the 'fill factor' in Chesley and Veres (2017).",
  chars! "# Suggested value is 1. Do not change this unless you are sure of what you are doing.",
  chars! "fading_function_peak_efficiency = 1.",
  chars! "",
  chars! "",
  chars! "[LINKINGFILTER]",
  chars! "",
  chars! "# SSP detection efficiency. Which fraction of the objects will",
  chars! "# the automated Rubin Solar System Processing (SSP) pipeline successfully link? Float.",
  chars! "SSP_detection_efficiency = 0.95",
  chars! "",
  chars! "",
  chars! "# Length of tracklets. How many observations of an object during one night are"]

/-- src/sorcha/data/survey_setups/Rubin_circular_approximation.ini:121-140 -/
def rubinCircular6 : List Line := [
  chars! "# required to produce a valid tracklet?",
  chars! "SSP_number_observations = 2",
  chars! "",
  chars! "# Minimum separation (in arcsec) between two observations of an object required ",
  chars! "# for the linking software to distinguish them as separate and therefore as a valid tracklet.",
  chars! "SSP_separation_threshold = 0.5",
  chars! "",
  chars! "# Maximum time separation (in days) between subsequent observations in a tracklet. ",
  chars! "# Default is 0.0625 days (90mins).",
  chars! "SSP_maximum_time = 0.0625",
  chars! "",
  chars! "# Number of tracklets for detection. How many tracklets are required to classify",
  chars! "# an object as detected? ",
  chars! "SSP_number_tracklets = 3",
  chars! "",
  chars! "# The number of tracklets defined above must occur in <= this number of days to ",
  chars! "# constitute a complete track/detection.",
  chars! "SSP_track_window = 15",
  chars! "",
  chars! "# The time in UTC at which it is noon at the observatory location (in standard time)."]

/-- src/sorcha/data/survey_setups/Rubin_circular_approximation.ini:141-160 -/
def rubinCircular7 : List Line := [
  chars! "# For the LSST, 12pm Chile Standard Time is 4pm UTC.",
  chars! "SSP_night_start_utc = 16.0",
  chars! "",
  chars! "",
  chars! "[OUTPUT]",
  chars! "",
  chars! "# Output format of the output file[s]",
  chars! "# Options: csv, sqlite3, hdf5",
  chars! "output_format = sqlite3",
  chars! "",
  chars! "# Controls which columns are in the output files.",
  chars! "# Options are \"basic\" and \"all\", which returns all columns.",
  chars! "output_columns = basic",
  chars! "",
  chars! "",
  chars! "[LIGHTCURVE]",
  chars! "",
  chars! "# The unique name of the lightcurve model to use. Defined in the ``name_id`` method ",
  chars! "# of the subclasses of AbstractLightCurve. If not none, the complex physical parameters ",
  chars! "# file must be specified at the command line."]

/-- src/sorcha/data/survey_setups/Rubin_circular_approximation.ini:161-169 -/
def rubinCircular8 : List Line := [
  chars! "lc_model = none",
  chars! "",
  chars! "",
  chars! "[ACTIVITY]",
  chars! "",
  chars! "# The unique name of the actvity model to use. Defined in the ``name_id`` method",
  chars! "#  of the subclasses of AbstractCometaryActivity.  If not none, a complex physical parameters ",
  chars! "# file must be specified at the command line.",
  chars! "comet_activity = none"]

/-- src/sorcha/data/survey_setups/Rubin_circular_approximation.ini -/
def rubinCircular : List Line := rubinCircular0 ++ rubinCircular1 ++ rubinCircular2 ++ rubinCircular3 ++ rubinCircular4 ++ rubinCircular5 ++ rubinCircular6 ++ rubinCircular7 ++ rubinCircular8

/-- src/sorcha/data/survey_setups/Rubin_full_footprint.ini:1-20 -/
def rubinFootprint0 : List Line := [
  chars! "# Sorcha Configuration File",
  chars! "# This configuration file will set up Sorcha to simulate what the LSST would discover.",
  chars! "# This version uses the full LSSTCam detector footprint to detect whether objects are lost to chip gaps.",
  chars! "# This is slightly slower than using a circular approximation, but more accurate.",
  chars! "",
  chars! "",
  chars! "[INPUT]",
  chars! "",
  chars! "# The simulation used for the ephemeris input. ",
  chars! "# ar=ASSIST+REBOUND interal ephemeris generation ",
  chars! "# external=providing an external input file from the command line",
  chars! "# Options: \"ar\", \"external\"",
  chars! "ephemerides_type = ar",
  chars! "",
  chars! "# Format for ephemeris simulation input file if a file is specified at the command line. ",
  chars! "# This is also the format to which ephemeris files will be written out, if specified.",
  chars! "# Options: csv, whitespace, hdf5",
  chars! "eph_format = csv",
  chars! "",
  chars! "# Sorcha chunk size: how many objects should be processed at once?"]

/-- src/sorcha/data/survey_setups/Rubin_full_footprint.ini:21-40 -/
def rubinFootprint1 : List Line := [
  chars! "size_serial_chunk = 20000",
  chars! "",
  chars! "# Format for the orbit, physical parameters, and complex physical parameters input files.",
  chars! "# Options: csv or whitespace",
  chars! "aux_format = csv",
  chars! "",
  chars! "# SQL query for extracting data from the pointing database.",
  chars! "pointing_sql_query = SELECT observationId, observationStartMJD as observationStartMJD_TAI, visitTime, visitExposureTime, filter, seeingFwhmGeom as seeingFwhmGeom_arcsec, seeingFwhmEff as seeingFwhmEff_arcsec, fiveSigmaDepth as fieldFiveSigmaDepth_mag , fieldRA as fieldRA_deg, fieldDec as fieldDec_deg, rotSkyPos as fieldRotSkyPos_deg FROM observations order by observationId",
  chars! "",
  chars! "",
  chars! "[SIMULATION]",
  chars! "# Configuration for running the ASSIST+REBOUND ephemerides generator.",
  chars! "",
  chars! "# the field of view of our search field, in degrees",
  chars! "ar_ang_fov = 2.06",
  chars! "",
  chars! "# the buffer zone around the field of view we want to include, in degrees",
  chars! "ar_fov_buffer = 0.2",
  chars! "",
  chars! "# the \"picket\" is our imprecise discretization of time that allows us to move progress"]

/-- src/sorcha/data/survey_setups/Rubin_full_footprint.ini:41-60 -/
def rubinFootprint2 : List Line := [
  chars! "# our simulations forward without getting too granular when we don't have to.",
  chars! "# the unit is number of days.",
  chars! "ar_picket = 1",
  chars! "",
  chars! "# the obscode is the MPC observatory code for the provided telescope.",
  chars! "ar_obs_code = X05",
  chars! "",
  chars! "# the order of healpix which we will use for the healpy portions of the code.",
  chars! "# the nside is equivalent to 2**ar_healpix_order",
  chars! "ar_healpix_order = 6",
  chars! "",
  chars! "",
  chars! "[FILTERS]",
  chars! "",
  chars! "# Filters of the observations you are interested in, comma-separated.",
  chars! "# Your physical parameters file must have H calculated in one of these filters",
  chars! "# and colour offset columns defined relative to that filter.",
  chars! "observing_filters = r,g,i,z,u,y",
  chars! "",
  chars! ""]

/-- src/sorcha/data/survey_setups/Rubin_full_footprint.ini:61-80 -/
def rubinFootprint3 : List Line := [
  chars! "[SATURATION]",
  chars! "",
  chars! "# Upper magnitude limit on sources that will overfill the detector pixels/have",
  chars! "# counts above the non-linearity regime of the pixels where one can’t do ",
  chars! "# photometry. Objects brighter than this limit (in magnitude) will be cut. ",
  chars! "# Comment out for no saturation limit.",
  chars! "# Two formats are accepted:",
  chars! "# Single float: applies same saturation limit to observations in all filters.",
  chars! "# Comma-separated list of floats: applies saturation limit per filter, in order as",
  chars! "# given in observing_filters keyword.",
  chars! "bright_limit = 16.0",
  chars! "",
  chars! "",
  chars! "[PHASECURVES]",
  chars! "",
  chars! "# The phase function used to calculate apparent magnitude. The physical parameters input",
  chars! "# file must contain the columns needed to calculate the phase function.",
  chars! "# Options: HG, HG1G2, HG12, linear, none.",
  chars! "phase_function = HG",
  chars! ""]

/-- src/sorcha/data/survey_setups/Rubin_full_footprint.ini:81-100 -/
def rubinFootprint4 : List Line := [
  chars! "",
  chars! "[FOV]",
  chars! "",
  chars! "# Choose between circular or actual camera footprint, including chip gaps.",
  chars! "# Options: circle, footprint.",
  chars! "camera_model = footprint",
  chars! "",
  chars! "# The distance from the edge of a detector (in arcseconds on the focal plane)",
  chars! "# at which we will not correctly extract an object. By default this is 10px or 2 arcseconds.",
  chars! "# Comment out or do not include if not using footprint camera model.",
  chars! "footprint_edge_threshold = 2.",
  chars! "",
  chars! "# Path to camera footprint file. Uncomment to provide a path to the desired camera ",
  chars! "# detector configuration file if not using the default built-in LSSTCam detector ",
  chars! "# configuration for the actual camera footprint.",
  chars! "# footprint_path= ./data/detectors_corners.csv",
  chars! "",
  chars! "",
  chars! "[FADINGFUNCTION]",
  chars! ""]

/-- src/sorcha/data/survey_setups/Rubin_full_footprint.ini:101-120 -/
def rubinFootprint5 : List Line := [
  chars! "# Uses the fading function as outlined in",
  chars! "# Chesley and Vereš (2017) to remove observations.",
  chars! "",
  chars! "# Width parameter for fading function. Should be greater than zero and less than 0.5.",
  chars! "# Suggested value is 0.1 after Chesley and Vereš (2017).",
  chars! "fading_function_width = 0.1",
  chars! "",
  chars! "# Peak efficiency for the fading function, called the 'fill factor' in Chesley and Veres (2017).",
  chars! "# Suggested value is 1. Do not change this unless you are sure of what you are doing.",
  chars! "fading_function_peak_efficiency = 1.",
  chars! "",
  chars! "",
  chars! "[LINKINGFILTER]",
  chars! "",
  chars! "# SSP detection efficiency. Which fraction of the objects will",
  chars! "# the automated Rubin Solar System Processing (SSP) pipeline successfully link? Float.",
  chars! "SSP_detection_efficiency = 0.95",
  chars! "",
  chars! "# Length of tracklets. How many observations of an object during one night are",
  chars! "# required to produce a valid tracklet?"]

/-- src/sorcha/data/survey_setups/Rubin_full_footprint.ini:121-140 -/
def rubinFootprint6 : List Line := [
  chars! "SSP_number_observations = 2",
  chars! "",
  chars! "# Minimum separation (in arcsec) between two observations of an object required ",
  chars! "# for the linking software to distinguish them as separate and therefore as a valid tracklet.",
  chars! "SSP_separation_threshold = 0.5",
  chars! "",
  chars! "# Maximum time separation (in days) between subsequent observations in a tracklet. ",
  chars! "# Default is 0.0625 days (90mins).",
  chars! "SSP_maximum_time = 0.0625",
  chars! "",
  chars! "# Number of tracklets for detection. How many tracklets are required to classify",
  chars! "# an object as detected? ",
  chars! "SSP_number_tracklets = 3",
  chars! "",
  chars! "# The number of tracklets defined above must occur in <= this number of days to ",
  chars! "# constitute a complete track/detection.",
  chars! "SSP_track_window = 15",
  chars! "",
  chars! "# The time in UTC at which it is noon at the observatory location (in standard time).",
  chars! "# For the LSST, 12pm Chile Standard Time is 4pm UTC."]

/-- src/sorcha/data/survey_setups/Rubin_full_footprint.ini:141-160 -/
def rubinFootprint7 : List Line := [
  chars! "SSP_night_start_utc = 16.0",
  chars! "",
  chars! "",
  chars! "[OUTPUT]",
  chars! "",
  chars! "# Output format of the output file[s]",
  chars! "# Options: csv, sqlite3, hdf5",
  chars! "output_format = sqlite3",
  chars! "",
  chars! "# Controls which columns are in the output files.",
  chars! "# Options are \"basic\" and \"all\", which returns all columns.",
  chars! "output_columns = basic",
  chars! "",
  chars! "",
  chars! "[LIGHTCURVE]",
  chars! "",
  chars! "# The unique name of the lightcurve model to use. Defined in the ``name_id`` method ",
  chars! "# of the subclasses of AbstractLightCurve. If not none, the complex physical parameters ",
  chars! "# file must be specified at the command line.lc_model = none",
  chars! "lc_model = none"]

/-- src/sorcha/data/survey_setups/Rubin_full_footprint.ini:161-170 -/
def rubinFootprint8 : List Line := [
  chars! "",
  chars! "",
  chars! "[ACTIVITY]",
  chars! "",
  chars! "# The unique name of the actvity model to use. Defined in the ``name_id`` method",
  chars! "#  of the subclasses of AbstractCometaryActivity.  If not none, a complex physical parameters ",
  chars! "# file must be specified at the command line.",
  chars! "comet_activity = none",
  chars! "",
  chars! ""]

/-- src/sorcha/data/survey_setups/Rubin_full_footprint.ini -/
def rubinFootprint : List Line := rubinFootprint0 ++ rubinFootprint1 ++ rubinFootprint2 ++ rubinFootprint3 ++ rubinFootprint4 ++ rubinFootprint5 ++ rubinFootprint6 ++ rubinFootprint7 ++ rubinFootprint8

/-- src/sorcha/data/survey_setups/Rubin_known_object_prediction.ini:1-20 -/
def rubinKnown0 : List Line := [
  chars! "# Sorcha Configuration File",
  chars! "# This configuration file is appropriate for running Sorcha using the full camera footprint ",
  chars! "# but with randomization, fading function, vignetting, SSP linking, saturation limit and ",
  chars! "# trailing losses off. This will output all detections which lie on the CCD with unadulterated ",
  chars! "# apparent magnitudes. This could thus be used to predict when and where known objects will appear ",
  chars! "# in Rubin observations. ",
  chars! "# WARNING: This configuration file turns off most of Sorcha's features,",
  chars! "# We do not recommend you use this unless you know what you are doing.",
  chars! "",
  chars! "",
  chars! "[INPUT]",
  chars! "",
  chars! "# The simulation used for the ephemeris input.",
  chars! "# ar=ASSIST+REBOUND interal ephemeris generation",
  chars! "# external=providing an external input file from the command line",
  chars! "# Options: \"ar\", \"external\"",
  chars! "ephemerides_type = ar",
  chars! "",
  chars! "# Format for ephemeris simulation input file if a file is specified at the command line. ",
  chars! "# This is also the format to which ephemeris files will be written out, if specified."]

/-- src/sorcha/data/survey_setups/Rubin_known_object_prediction.ini:21-40 -/
def rubinKnown1 : List Line := [
  chars! "# Options: csv, whitespace, hdf5",
  chars! "eph_format = csv",
  chars! "",
  chars! "# Sorcha chunk size: how many objects should be processed at once?",
  chars! "size_serial_chunk = 20000",
  chars! "",
  chars! "# Format for the orbit, physical parameters, and complex physical parameters input files.",
  chars! "# Options: csv or whitespace",
  chars! "aux_format = csv",
  chars! "",
  chars! "# SQL query for extracting data from the pointing database.",
  chars! "pointing_sql_query = SELECT observationId, observationStartMJD as observationStartMJD_TAI, visitTime, visitExposureTime, filter, seeingFwhmGeom as seeingFwhmGeom_arcsec, seeingFwhmEff as seeingFwhmEff_arcsec, fiveSigmaDepth as fieldFiveSigmaDepth_mag , fieldRA as fieldRA_deg, fieldDec as fieldDec_deg, rotSkyPos as fieldRotSkyPos_deg FROM observations order by observationId",
  chars! "",
  chars! "",
  chars! "[SIMULATION]",
  chars! "# Configs for running the ASSIST+REBOUND ephemerides generator.",
  chars! "",
  chars! "# the field of view of our search field, in degrees",
  chars! "ar_ang_fov = 2.06",
  chars! ""]

/-- src/sorcha/data/survey_setups/Rubin_known_object_prediction.ini:41-60 -/
def rubinKnown2 : List Line := [
  chars! "# the buffer zone around the field of view we want to include, in degrees",
  chars! "ar_fov_buffer = 0.2",
  chars! "",
  chars! "# the \"picket\" is our imprecise discretization of time that allows us to move progress",
  chars! "# our simulations forward without getting too granular when we don't have to.",
  chars! "# the unit is number of days.",
  chars! "ar_picket = 1",
  chars! "",
  chars! "# the obscode is the MPC observatory code for the provided telescope.",
  chars! "ar_obs_code = X05",
  chars! "",
  chars! "# the order of healpix which we will use for the healpy portions of the code.",
  chars! "# the nside is equivalent to 2**ar_healpix_order",
  chars! "ar_healpix_order = 6",
  chars! "",
  chars! "",
  chars! "[FILTERS]",
  chars! "",
  chars! "# Filters of the observations you are interested in, comma-separated.",
  chars! "# Your physical parameters file must have H calculated in one of these filters"]

/-- src/sorcha/data/survey_setups/Rubin_known_object_prediction.ini:61-80 -/
def rubinKnown3 : List Line := [
  chars! "# and colour offset columns defined relative to that filter.",
  chars! "observing_filters = r,g,i,z,u,y",
  chars! "",
  chars! "",
  chars! "[PHASECURVES]",
  chars! "",
  chars! "# The phase function used to calculate apparent magnitude. The physical parameters input",
  chars! "# file must contain the columns needed to calculate the phase function.",
  chars! "# Options: HG, HG1G2, HG12, linear, none.",
  chars! "phase_function = HG",
  chars! "",
  chars! "",
  chars! "[FOV]",
  chars! "",
  chars! "# Choose between circular or actual camera footprint, including chip gaps.",
  chars! "# Options: circle, footprint.",
  chars! "camera_model = footprint",
  chars! "",
  chars! "# Path to camera footprint file. Uncomment to provide a path to the desired camera ",
  chars! "# detector configuration file if not using the default built-in LSSTCam detector "]

/-- src/sorcha/data/survey_setups/Rubin_known_object_prediction.ini:81-100 -/
def rubinKnown4 : List Line := [
  chars! "# configuration for the actual camera footprint.",
  chars! "# footprint_path= ./data/detectors_corners.csv",
  chars! "",
  chars! "# The distance from the edge of a detector (in arcseconds on the focal plane)",
  chars! "# at which we will not correctly extract an object. By default this is 10px or 2 arcseconds.",
  chars! "# Comment out or do not include if not using footprint camera model.",
  chars! "footprint_edge_threshold = 2.",
  chars! "",
  chars! "",
  chars! "[OUTPUT]",
  chars! "",
  chars! "# Output format of the output file[s]",
  chars! "# Options: csv, sqlite3, hdf5",
  chars! "output_format = sqlite3",
  chars! "",
  chars! "# Controls which columns are in the output files.",
  chars! "# Options are \"basic\" and \"all\", which returns all columns.",
  chars! "output_columns = basic",
  chars! "",
  chars! ""]

/-- src/sorcha/data/survey_setups/Rubin_known_object_prediction.ini:101-120 -/
def rubinKnown5 : List Line := [
  chars! "[LIGHTCURVE]",
  chars! "",
  chars! "# The unique name of the lightcurve model to use. Defined in the ``name_id`` method ",
  chars! "# of the subclasses of AbstractLightCurve. If not none, the complex physical parameters ",
  chars! "# file must be specified at the command line.lc_model = none",
  chars! "lc_model = none",
  chars! "",
  chars! "",
  chars! "[ACTIVITY]",
  chars! "",
  chars! "# The unique name of the actvity model to use. Defined in the ``name_id`` method",
  chars! "#  of the subclasses of AbstractCometaryActivity.  If not none, a complex physical parameters ",
  chars! "# file must be specified at the command line.",
  chars! "comet_activity = none",
  chars! "",
  chars! "",
  chars! "[EXPERT]",
  chars! "# Turning off all randomization, vignetting and trailing losses.",
  chars! "randomization_on = False",
  chars! "vignetting_on = False"]

/-- src/sorcha/data/survey_setups/Rubin_known_object_prediction.ini:121-121 -/
def rubinKnown6 : List Line := [
  chars! "trailing_losses_on = False"]

/-- src/sorcha/data/survey_setups/Rubin_known_object_prediction.ini -/
def rubinKnown : List Line := rubinKnown0 ++ rubinKnown1 ++ rubinKnown2 ++ rubinKnown3 ++ rubinKnown4 ++ rubinKnown5 ++ rubinKnown6

/-- src/sorcha/data/survey_setups/DES_config_file.ini:1-20 -/
def des0 : List Line := [
  chars! "# Sorcha Configuration File",
  chars! "# This configuration file will set up Sorcha to simulate what the DES would discover.",
  chars! "# The current DES sim has uncertainties, randomisation, vignetting and ",
  chars! "# trailing losses turned off by default.",
  chars! "# This has only been tuned for TNO discoverery. ",
  chars! "",
  chars! "[INPUT]",
  chars! "",
  chars! "# The simulation used for the ephemeris input. ",
  chars! "# ar=ASSIST+REBOUND interal ephemeris generation ",
  chars! "# external=providing an external input file from the command line",
  chars! "# Options: \"ar\", \"external\"",
  chars! "ephemerides_type = ar",
  chars! "",
  chars! "# Format for ephemeris simulation input file if a file is specified at the command line. ",
  chars! "# This is also the format to which ephemeris files will be written out, if specified.",
  chars! "# Options: csv, whitespace, hdf5",
  chars! "eph_format = csv",
  chars! "",
  chars! "# Sorcha chunk size: how many objects should be processed at once?"]

/-- src/sorcha/data/survey_setups/DES_config_file.ini:21-40 -/
def des1 : List Line := [
  chars! "size_serial_chunk = 20000",
  chars! "",
  chars! "# Format for the orbit, physical parameters, and complex physical parameters input files.",
  chars! "# Options: csv or whitespace",
  chars! "aux_format = csv",
  chars! "",
  chars! "# SQL query for extracting data from the pointing database.",
  chars! "pointing_sql_query = SELECT observationId, observationMidpointMJD as observationMidpointMJD_TAI , visitExposureTime, filter, fiveSigmaDepth as fieldFiveSigmaDepth_mag , fieldRA as fieldRA_deg, fieldDec as fieldDec_deg, c, k FROM observations order by observationId",
  chars! "",
  chars! "",
  chars! "[SIMULATION]",
  chars! "# Configuration for running the ASSIST+REBOUND ephemerides generator.",
  chars! "",
  chars! "# the field of view of our search field, in degrees",
  chars! "ar_ang_fov = 1.3",
  chars! "",
  chars! "# the buffer zone around the field of view we want to include, in degrees",
  chars! "ar_fov_buffer = 0.2",
  chars! "",
  chars! "# the \"picket\" is our imprecise discretization of time that allows us to move progress"]

/-- src/sorcha/data/survey_setups/DES_config_file.ini:41-60 -/
def des2 : List Line := [
  chars! "# our simulations forward without getting too granular when we don't have to.",
  chars! "# the unit is number of days.",
  chars! "ar_picket = 1",
  chars! "",
  chars! "# the obscode is the MPC observatory code for the provided telescope.",
  chars! "ar_obs_code = W84",
  chars! "",
  chars! "# the order of healpix which we will use for the healpy portions of the code.",
  chars! "# the nside is equivalent to 2**ar_healpix_order",
  chars! "ar_healpix_order = 6",
  chars! "",
  chars! "",
  chars! "[FILTERS]",
  chars! "",
  chars! "# Filters of the observations you are interested in, comma-separated.",
  chars! "# Your physical parameters file must have H calculated in one of these filters",
  chars! "# and colour offset columns defined relative to that filter.",
  chars! "observing_filters = r,g,i,z",
  chars! "",
  chars! ""]

/-- src/sorcha/data/survey_setups/DES_config_file.ini:61-80 -/
def des3 : List Line := [
  chars! "[SATURATION]",
  chars! "",
  chars! "# Upper magnitude limit on sources that will overfill the detector pixels/have",
  chars! "# counts above the non-linearity regime of the pixels where one can’t do ",
  chars! "# photometry. Objects brighter than this limit (in magnitude) will be cut. ",
  chars! "# Comment out for no saturation limit.",
  chars! "# Two formats are accepted:",
  chars! "# Single float: applies same saturation limit to observations in all filters.",
  chars! "# Comma-separated list of floats: applies saturation limit per filter, in order as",
  chars! "# given in observing_filters keyword.",
  chars! "bright_limit = 16.0",
  chars! "",
  chars! "",
  chars! "[PHASECURVES]",
  chars! "",
  chars! "# The phase function used to calculate apparent magnitude. The physical parameters input",
  chars! "# file must contain the columns needed to calculate the phase function.",
  chars! "# Options: HG, HG1G2, HG12, linear, none.",
  chars! "phase_function = none",
  chars! ""]

/-- src/sorcha/data/survey_setups/DES_config_file.ini:81-100 -/
def des4 : List Line := [
  chars! "[FOV]",
  chars! "",
  chars! "# Choose between circular, full camera footprint or the camera footprint per observation.",
  chars! "# Options: circle, footprint, visits_footprint.",
  chars! "camera_model = visits_footprint",
  chars! "",
  chars! "",
  chars! "# the query needed for the visits footprint file. must include the ccd corners and centres, the detectors Id and the limiting mag. There will be a notebook that creates this in the future.",
  chars! "visits_query = SELECT llcra, llcdec, lrcra, lrcdec, urcra, urcdec, ulcra, ulcdec, ra as ra_centre, dec as dec_centre, detectorID, magLim as limMag_perChip  FROM observations WHERE visitId = ?",
  chars! "",
  chars! "",
  chars! "",
  chars! "[FADINGFUNCTION]",
  chars! "",
  chars! "# Uses probability calculation from Bernardinelli et al (2022)",
  chars! "# For DES, calculation is done per observation.",
  chars! "# pointing sqlite database must include constants c and k. (can be seen in pointing_sql_query in the INPUT section.)",
  chars! "fading_function_on = True",
  chars! "",
  chars! "# overall transient efficiency for moving object detection. 0.95529 in Bernardinelli et al (2022)."]

/-- src/sorcha/data/survey_setups/DES_config_file.ini:101-120 -/
def des5 : List Line := [
  chars! "# if not specifed will default to 1 and be neglible ",
  chars! "self.des_transient_efficency = 0.95529",
  chars! "",
  chars! "",
  chars! "[LINKINGFILTER]",
  chars! "# For DES a single detection was considered a tracklet detection and ",
  chars! "# a minimum of 7 unique nights of detection are needed to classify an object over the entire survey time.",
  chars! "# a Discovery Filter is used for more specific requirements for discovering objects with DES. see Bernardinelli et al (2022)",
  chars! "des_discovery_on = True",
  chars! "",
  chars! "",
  chars! "# distance (au) and motion (deg/day) cuts for detecting objects in DES:",
  chars! "# Bernardinelli et al (2022) used 29 < d < 2500 au, for the detection of TNOs with DES",
  chars! "; distance_cut_upper = 2500",
  chars! "; distance_cut_lower = 29",
  chars! "",
  chars! "; motion_cut_upper = ",
  chars! "; motion_cut_lower = ",
  chars! "",
  chars! "[OUTPUT]"]

/-- src/sorcha/data/survey_setups/DES_config_file.ini:121-140 -/
def des6 : List Line := [
  chars! "",
  chars! "# Output format of the output file[s]",
  chars! "# Options: csv, sqlite3, hdf5",
  chars! "output_format = csv",
  chars! "",
  chars! "# Controls which columns are in the output files.",
  chars! "# Options are \"basic\" and \"all\", which returns all columns.",
  chars! "; output_columns =ObjID, fieldMJD_TAI, fieldRA_deg, fieldDec_deg, RA_deg, Dec_deg,  optFilter, trailedSourceMag,  fiveSigmaDepth_mag, phase_deg, Range_LTC_km, RangeRate_LTC_km_s, Obj_Sun_LTC_km",
  chars! "output_columns = all",
  chars! "# currently removed trailedSourceMagSigma, astrometricSigma_deg,",
  chars! "",
  chars! "[LIGHTCURVE]",
  chars! "",
  chars! "# The unique name of the lightcurve model to use. Defined in the ``name_id`` method ",
  chars! "# of the subclasses of AbstractLightCurve. If not none, the complex physical parameters ",
  chars! "# file must be specified at the command line.",
  chars! "lc_model = none",
  chars! "",
  chars! "",
  chars! "[ACTIVITY]"]

/-- src/sorcha/data/survey_setups/DES_config_file.ini:141-148 -/
def des7 : List Line := [
  chars! "",
  chars! "# The unique name of the actvity model to use. Defined in the ``name_id`` method",
  chars! "#  of the subclasses of AbstractCometaryActivity.  If not none, a complex physical parameters ",
  chars! "# file must be specified at the command line.",
  chars! "comet_activity = none",
  chars! "",
  chars! "",
  chars! ""]

/-- src/sorcha/data/survey_setups/DES_config_file.ini -/
def des : List Line := des0 ++ des1 ++ des2 ++ des3 ++ des4 ++ des5 ++ des6 ++ des7

/-- src/sorcha/data/demo/sorcha_config_demo.ini:1-20 -/
def demo0 : List Line := [
  chars! "# Sorcha Configuration File ",
  chars! "# This configuration file is made for use with the demo files that come packaged",
  chars! "# with Sorcha. We do not necessarily recommend you use this for your own science. ",
  chars! "# Instead, run sorcha init on the command line to copy suitable example config files into",
  chars! "# a directory of your choice.",
  chars! "",
  chars! "[INPUT]",
  chars! "",
  chars! "# The simulation used for the ephemeris input.",
  chars! "# ar=ASSIST+REBOUND interal ephemeris generation",
  chars! "# external=providing an external input file from the command line",
  chars! "# Options: \"ar\", \"external\"",
  chars! "ephemerides_type = ar",
  chars! "",
  chars! "# Format for ephemeris simulation input file if a file is specified at the command line. ",
  chars! "# This is also the format to which ephemeris files will be written out, if specified.",
  chars! "# Options: csv, whitespace, hdf5",
  chars! "eph_format = csv",
  chars! "",
  chars! "# Sorcha chunk size: how many objects should be processed at once?"]

/-- src/sorcha/data/demo/sorcha_config_demo.ini:21-40 -/
def demo1 : List Line := [
  chars! "size_serial_chunk = 5000",
  chars! "",
  chars! "# Format for the orbit, physical parameters, and complex physical parameters input files.",
  chars! "# Options: csv or whitespace",
  chars! "aux_format = whitespace",
  chars! "",
  chars! "# SQL query for extracting data from the pointing database.",
  chars! "pointing_sql_query = SELECT observationId, observationStartMJD as observationStartMJD_TAI, visitTime, visitExposureTime, filter, seeingFwhmGeom as seeingFwhmGeom_arcsec, seeingFwhmEff as seeingFwhmEff_arcsec, fiveSigmaDepth as fieldFiveSigmaDepth_mag , fieldRA as fieldRA_deg, fieldDec as fieldDec_deg, rotSkyPos as fieldRotSkyPos_deg FROM observations order by observationId",
  chars! "",
  chars! "",
  chars! "[SIMULATION]",
  chars! "# Configs for running the ASSIST+REBOUND ephemerides generator.",
  chars! "",
  chars! "# the field of view of our search field, in degrees",
  chars! "ar_ang_fov = 2.06",
  chars! "",
  chars! "# the buffer zone around the field of view we want to include, in degrees",
  chars! "ar_fov_buffer = 0.2",
  chars! "",
  chars! "# the \"picket\" is our imprecise discretization of time that allows us to move progress"]

/-- src/sorcha/data/demo/sorcha_config_demo.ini:41-60 -/
def demo2 : List Line := [
  chars! "# our simulations forward without getting too granular when we don't have to.",
  chars! "# the unit is number of days.",
  chars! "ar_picket = 1",
  chars! "",
  chars! "# the obscode is the MPC observatory code for the provided telescope.",
  chars! "ar_obs_code = X05",
  chars! "",
  chars! "# the order of healpix which we will use for the healpy portions of the code.",
  chars! "# the nside is equivalent to 2**ar_healpix_order",
  chars! "ar_healpix_order = 6",
  chars! "",
  chars! "",
  chars! "[FILTERS]",
  chars! "",
  chars! "# Filters of the observations you are interested in, comma-separated.",
  chars! "# Your physical parameters file must have H calculated in one of these filters",
  chars! "# and colour offset columns defined relative to that filter.",
  chars! "observing_filters = r,g,i,z,u,y",
  chars! "",
  chars! ""]

/-- src/sorcha/data/demo/sorcha_config_demo.ini:61-80 -/
def demo3 : List Line := [
  chars! "[SATURATION]",
  chars! "",
  chars! "# Upper magnitude limit on sources that will overfill the detector pixels/have",
  chars! "# counts above the non-linearity regime of the pixels where one can’t do ",
  chars! "# photometry. Objects brighter than this limit (in magnitude) will be cut. ",
  chars! "# Comment out for no saturation limit.",
  chars! "# Two formats are accepted:",
  chars! "# Single float: applies same saturation limit to observations in all filters.",
  chars! "# Comma-separated list of floats: applies saturation limit per filter, in order as",
  chars! "# given in observing_filters keyword.",
  chars! "bright_limit = 16.0",
  chars! "",
  chars! "",
  chars! "[PHASECURVES]",
  chars! "",
  chars! "# The phase function used to calculate apparent magnitude. The physical parameters input",
  chars! "# file must contain the columns needed to calculate the phase function.",
  chars! "# Options: HG, HG1G2, HG12, linear, none.",
  chars! "phase_function = HG",
  chars! ""]

/-- src/sorcha/data/demo/sorcha_config_demo.ini:81-100 -/
def demo4 : List Line := [
  chars! "",
  chars! "[FOV]",
  chars! "",
  chars! "# Choose between circular or actual camera footprint, including chip gaps.",
  chars! "# Options: circle, footprint.",
  chars! "camera_model = footprint",
  chars! "",
  chars! "# Path to camera footprint file. Uncomment to provide a path to the desired camera ",
  chars! "# detector configuration file if not using the default built-in LSSTCam detector ",
  chars! "# configuration for the actual camera footprint.",
  chars! "# footprint_path= ./data/detectors_corners.csv",
  chars! "",
  chars! "# Fraction of detector surface area which contains CCD -- simulates chip gaps",
  chars! "# for OIF output. Comment out if using camera footprint.",
  chars! "# Default: 0.9.",
  chars! "# fill_factor = 0.9",
  chars! "",
  chars! "# Radius of the circle for a circular footprint (in degrees). Float.",
  chars! "# Comment out or do not include if using footprint camera model.",
  chars! "# circle_radius = 1.75"]

/-- src/sorcha/data/demo/sorcha_config_demo.ini:101-120 -/
def demo5 : List Line := [
  chars! "",
  chars! "# The distance from the edge of a detector (in arcseconds on the focal plane)",
  chars! "# at which we will not correctly extract an object. By default this is 10px or 2 arcseconds.",
  chars! "# Comment out or do not include if not using footprint camera model.",
  chars! "footprint_edge_threshold = 2.",
  chars! "",
  chars! "",
  chars! "[FADINGFUNCTION]",
  chars! "",
  chars! "# Uses the fading function as outlined in",
  chars! "# Chesley and Vereš (2017) to remove observations.",
  chars! "",
  chars! "# Width parameter for fading function. Should be greater than zero and less than 0.5.",
  chars! "# Suggested value is 0.1 after Chesley and Vereš (2017).",
  chars! "fading_function_width = 0.1",
  chars! "",
  chars! "# Peak efficiency for the fading function, called the 'fill factor' in Chesley and Veres (2017).",
  chars! "# Suggested value is 1. Do not change this unless you are sure of what you are doing.",
  chars! "fading_function_peak_efficiency = 1.",
  chars! ""]

/-- src/sorcha/data/demo/sorcha_config_demo.ini:121-140 -/
def demo6 : List Line := [
  chars! "",
  chars! "[LINKINGFILTER]",
  chars! "# Remove this section if you do not wish to run the SSP linking filter.",
  chars! "",
  chars! "# SSP detection efficiency. Which fraction of the observations of an object will",
  chars! "# the automated solar system processing pipeline successfully link? Float.",
  chars! "SSP_detection_efficiency = 0.95",
  chars! "",
  chars! "# Length of tracklets. How many observations of an object during one night are",
  chars! "# required to produce a valid tracklet?",
  chars! "SSP_number_observations = 2",
  chars! "",
  chars! "# Minimum separation (in arcsec) between two observations of an object required ",
  chars! "# for the linking software to distinguish them as separate and therefore as a valid tracklet.",
  chars! "SSP_separation_threshold = 0.5",
  chars! "",
  chars! "# Maximum time separation (in days) between subsequent observations in a tracklet. ",
  chars! "# Default is 0.0625 days (90mins).",
  chars! "SSP_maximum_time = 0.0625",
  chars! ""]

/-- src/sorcha/data/demo/sorcha_config_demo.ini:141-160 -/
def demo7 : List Line := [
  chars! "# Number of tracklets for detection. How many tracklets are required to classify",
  chars! "# an object as detected?  ",
  chars! "SSP_number_tracklets = 3",
  chars! "",
  chars! "# The number of tracklets defined above must occur in <= this number of days to ",
  chars! "# constitute a complete track/detection.",
  chars! "SSP_track_window = 15",
  chars! "",
  chars! "# The time in UTC at which it is noon at the observatory location (in standard time).",
  chars! "# For the LSST, 12pm Chile Standard Time is 4pm UTC.",
  chars! "SSP_night_start_utc = 16.0",
  chars! "",
  chars! "",
  chars! "[OUTPUT]",
  chars! "",
  chars! "# Output format of the output file[s]",
  chars! "# Options: csv, sqlite3, hdf5",
  chars! "output_format = csv",
  chars! "",
  chars! "# Controls which columns are in the output files."]

/-- src/sorcha/data/demo/sorcha_config_demo.ini:161-178 -/
def demo8 : List Line := [
  chars! "# Options are \"basic\" and \"all\", which returns all columns.",
  chars! "output_columns = basic",
  chars! "",
  chars! "",
  chars! "[LIGHTCURVE]",
  chars! "",
  chars! "# The unique name of the lightcurve model to use. Defined in the ``name_id`` method ",
  chars! "# of the subclasses of AbstractLightCurve. If not none, the complex physical parameters ",
  chars! "# file must be specified at the command line.lc_model = none",
  chars! "lc_model = none",
  chars! "",
  chars! "",
  chars! "[ACTIVITY]",
  chars! "",
  chars! "# The unique name of the actvity model to use. Defined in the ``name_id`` method",
  chars! "#  of the subclasses of AbstractCometaryActivity.  If not none, a complex physical parameters ",
  chars! "# file must be specified at the command line.",
  chars! "comet_activity = none"]

/-- src/sorcha/data/demo/sorcha_config_demo.ini -/
def demo : List Line := demo0 ++ demo1 ++ demo2 ++ demo3 ++ demo4 ++ demo5 ++ demo6 ++ demo7 ++ demo8

end Sorcha.Ini.Data
