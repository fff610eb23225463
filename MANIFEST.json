{
 "claims": [
  {
   "property": "C01",
   "status": "proved",
   "theorems": [
    "Sorcha.Linking.C01_hasTracklet_iff",
    "Sorcha.Linking.FloatProps.C01_float",
    "Sorcha.Linking.FloatProps.C01_float_window"
   ],
   "note": "haversine separation is a parameter C01_float*: floating point times"
  },
  {
   "property": "C02",
   "status": "proved",
   "theorems": [
    "Sorcha.Linking.C02_offered_sound",
    "Sorcha.Linking.C02_offered_complete",
    "Sorcha.Linking.C02_offered_generic",
    "Sorcha.Linking.C02_zero_weights_fails"
   ],
   "note": "completeness needs positive random weights; with zero weights (probability 2^-53) the code misses the opportunity, shown by witness"
  },
  {
   "property": "C03",
   "status": "proved",
   "theorems": [
    "Sorcha.Linking.C03_date_sound",
    "Sorcha.Linking.C03_C07_efficiency_one",
    "Sorcha.Linking.FloatProps.C03_float_night"
   ],
   "note": "earliest at efficiency 1 under positive weights and draws in [0,1) C03_float_night: floating point times"
  },
  {
   "property": "C04",
   "status": "proved",
   "theorems": [
    "Sorcha.Linking.C04_linkObject_total",
    "Sorcha.Linking.C04_asterisk"
   ],
   "note": ""
  },
  {
   "property": "C05",
   "status": "proved",
   "theorems": [
    "Sorcha.Linking.C05_filter_output",
    "Sorcha.Linking.C05_works",
    "Sorcha.Linking.C05_encoding_fails"
   ],
   "note": ""
  },
  {
   "property": "C06",
   "status": "proved",
   "theorems": [
    "Sorcha.Linking.C06_order_irrelevant",
    "Sorcha.Linking.C06_own_rows_only",
    "Sorcha.Linking.C06_chunks"
   ],
   "note": "order independence needs distinct observation times (numpy argsort is not stable)"
  },
  {
   "property": "C07",
   "status": "proved",
   "theorems": [
    "Sorcha.Linking.C07_efficiency_zero",
    "Sorcha.Linking.C03_C07_efficiency_one",
    "Sorcha.Linking.C07_linked_iff_set"
   ],
   "note": ""
  },
  {
   "property": "C08",
   "status": "proved",
   "theorems": [
    "Sorcha.Linking.C08_monotone"
   ],
   "note": "distinct times"
  },
  {
   "property": "C09",
   "status": "proved",
   "theorems": [
    "Sorcha.Filters.C09_magnitude",
    "Sorcha.Filters.C09_snr",
    "Sorcha.Filters.C09_bright_single",
    "Sorcha.Filters.C09_bright_perFilter",
    "Sorcha.Filters.C09_bright_rejects",
    "Sorcha.Filters.C09_distance",
    "Sorcha.Filters.C09_motion",
    "Sorcha.Filters.C09_motion_negative_fails"
   ],
   "note": "negative limits, which validation accepts, are squared: witness C09_motion_negative_fails; finite numbers are exact rationals"
  },
  {
   "property": "C10",
   "status": "proved",
   "theorems": [
    "Sorcha.Filters.C10_cuts",
    "Sorcha.Filters.C10_order_and_repetition",
    "Sorcha.Filters.C10_distance_idempotent",
    "Sorcha.Filters.C10_distance_not_commuting"
   ],
   "note": ""
  },
  {
   "property": "C11",
   "status": "proved",
   "theorems": [
    "Sorcha.Pipeline.Props.C11_sound",
    "Sorcha.Pipeline.Props.C11_once",
    "Sorcha.Pipeline.Props.C11_linked",
    "Sorcha.Pipeline.Props.C11_linked_all",
    "Sorcha.Pipeline.Props.C11_exact",
    "Sorcha.Pipeline.Props.C11_rounds",
    "Sorcha.Pipeline.Props.C11_rounds_all",
    "Sorcha.Pipeline.Props.C11_files",
    "Sorcha.Pipeline.Props.C11_noise"
   ],
   "note": "what is computed per observation (magnitudes, uncertainties) is the parameter measure, noise the parameter noise; the stages are the models of the other properties"
  },
  {
   "property": "C12",
   "status": "proved",
   "theorems": [
    "Sorcha.Readers.Props.C12_generated",
    "Sorcha.Readers.Props.C12_partition",
    "Sorcha.Readers.Props.C12_whole",
    "Sorcha.Readers.Props.C12_bad_size",
    "Sorcha.Readers.Props.C12_blank_line_fails"
   ],
   "note": "assumes files without blank lines and unique IDs; C12_blank_line_fails is the counterexample otherwise; with an external ephemeris see C15_blocks"
  },
  {
   "property": "C13",
   "status": "proved",
   "theorems": [
    "Sorcha.Readers.Props.C13_rows",
    "Sorcha.Readers.Props.C13_objects",
    "Sorcha.Readers.Props.C13_histories",
    "Sorcha.Readers.Props.C13_hdf5",
    "Sorcha.Readers.Props.C13_hdf5_labels_fails",
    "Sorcha.Readers.Props.C13_numeric_ids_fails",
    "Sorcha.Readers.Props.C13_blank_above_header_fails"
   ],
   "note": "pandas read_csv is modelled (skiprows, nrows, blank lines, inference of numbers, truth values and missing values); counterexamples for blank lines, IDs altered by integer inference and repeated HDF5 labels"
  },
  {
   "property": "C14",
   "status": "proved",
   "theorems": [
    "Sorcha.Readers.Props.C14_check",
    "Sorcha.Readers.Props.C14_stops"
   ],
   "note": ""
  },
  {
   "property": "C15",
   "status": "proved",
   "theorems": [
    "Sorcha.Readers.Props.C15_blocks",
    "Sorcha.Readers.Props.C15_whole",
    "Sorcha.Readers.Props.C15_duplicate_ids_fails",
    "Sorcha.Readers.Props.C15_aux_presence_check_fails"
   ],
   "note": "pandas join on a unique key is modelled as a left join; counterexample for duplicate IDs"
  },
  {
   "property": "C16",
   "status": "proved",
   "theorems": [
    "Sorcha.Pipeline.Props.C16_blocks",
    "Sorcha.Pipeline.Props.C16_external",
    "Sorcha.Pipeline.Props.C16_generated",
    "Sorcha.Driver.Props.C16_generator"
   ],
   "note": "linker weights in general position (probability one); C16_generator discharges the hypothesis of C16_generated for the model of create_ephemeris"
  },
  {
   "property": "C17",
   "status": "proved",
   "theorems": [
    "Sorcha.Rng.C17_one_draw_per_row",
    "Sorcha.Rng.C17_chunks_irrelevant",
    "Sorcha.Rng.C17_extremes",
    "Sorcha.Rng.C17_efficiency"
   ],
   "note": "numpy generator is a parameter"
  },
  {
   "property": "C18",
   "status": "proved",
   "theorems": [
    "Sorcha.Rng.C18_stream",
    "Sorcha.Rng.C18_isolation"
   ],
   "note": "numpy generator and md5 are parameters"
  },
  {
   "property": "C19",
   "status": "proved",
   "theorems": [
    "Sorcha.Output.Props.C19_csv",
    "Sorcha.Output.Props.C19_aligned",
    "Sorcha.Output.Props.C19_prefix",
    "Sorcha.Output.Props.C19_empty_file_fails",
    "Sorcha.Output.Props.C19_sqlite",
    "Sorcha.Output.Props.C19_hdf5_fails",
    "Sorcha.Output.Props.C19_hdf5_columns_fails",
    "Sorcha.Output.Props.C19_hdf5"
   ],
   "note": "HDF5 output is proved only when no later text is longer than the first chunk's; otherwise the counterexample"
  },
  {
   "property": "C20",
   "status": "proved",
   "theorems": [
    "Sorcha.Output.Props.C20_total",
    "Sorcha.Output.Props.C20_one_row",
    "Sorcha.Output.Props.C20_values",
    "Sorcha.Output.Props.C20_median",
    "Sorcha.Output.Props.C20_float"
   ],
   "note": "infinite magnitudes are not modelled; C20_float takes the two operations of an even median as each rounded to the nearest double, without overflow"
  },
  {
   "property": "C21",
   "status": "proved",
   "theorems": [
    "Sorcha.Output.Props.C21_output",
    "Sorcha.Output.Props.C21_list_abort",
    "Sorcha.Output.Props.C21_basic_abort",
    "Sorcha.Output.Props.C21_rounding",
    "Sorcha.Output.Props.C21_float",
    "Sorcha.Output.Props.C21_float_order",
    "Sorcha.Output.Props.C21_float_again",
    "Sorcha.Output.Props.C21_nearest_fails"
   ],
   "note": "rounding is proved for exact numbers and, in C21_float*, for numbers whose product and quotient are rounded with relative error 2^-53 (no overflow or underflow)"
  },
  {
   "property": "C22",
   "status": "proved",
   "theorems": [
    "Sorcha.Cli.Props.C22_no_force",
    "Sorcha.Cli.Props.C22_only_own",
    "Sorcha.Cli.Props.C22_force_single",
    "Sorcha.Cli.Props.C22_force_removes",
    "Sorcha.Cli.Props.C22_force_fails",
    "Sorcha.Cli.Props.C22_abort_fails"
   ],
   "note": "holds without -f and, with -f, when at most one file has the stem; only the first match is removed (witness C22_force_fails for every sound glob), and a command that stops may already have removed files (C22_abort_fails); glob is a parameter returning exactly the matching files in any order"
  },
  {
   "property": "C23",
   "status": "proved",
   "theorems": [
    "Sorcha.Photom.Props.C23_formula",
    "Sorcha.Photom.Props.C23_zero",
    "Sorcha.Photom.Props.C23_order",
    "Sorcha.Photom.Props.C23_monotone",
    "Sorcha.Photom.Props.C23_unknown",
    "Sorcha.Photom.Props.C23_crossing",
    "Sorcha.Photom.Float.Props.C23_float"
   ],
   "note": "real arithmetic; C23_float: floating point numbers without overflow, square root and logarithm as parameters"
  },
  {
   "property": "C24",
   "status": "proved",
   "theorems": [
    "Sorcha.Photom.Props.C24_fading",
    "Sorcha.Photom.Props.C24_zero",
    "Sorcha.Photom.Props.C24_probability",
    "Sorcha.Photom.Props.C24_des",
    "Sorcha.Photom.Props.C24_des_negative_sharpness_fails",
    "Sorcha.Photom.Float.Props.C24_float",
    "Sorcha.Photom.Float.Props.C24_float_half",
    "Sorcha.Photom.Float.Props.C24_float_order",
    "Sorcha.Photom.Float.Props.C24_float_bright",
    "Sorcha.Photom.Float.Props.C24_zero_draw_fails",
    "Sorcha.Photom.Float.Props.C24_float_des"
   ],
   "note": "real arithmetic; C24_float*: floating point numbers without overflow, exponential as a parameter that is close to exp; a negative DES slope reverses the curve (witness)"
  },
  {
   "property": "C25",
   "status": "proved",
   "theorems": [
    "Sorcha.Photom.Props.C25_formula",
    "Sorcha.Photom.Props.C25_snr",
    "Sorcha.Photom.Props.C25_photometric",
    "Sorcha.Photom.Props.C25_astrometric",
    "Sorcha.Photom.Props.C25_pipeline",
    "Sorcha.Photom.Float.Props.C25_float"
   ],
   "note": "real arithmetic C25_float: floating point numbers without overflow, functions of the library as monotone parameters"
  },
  {
   "property": "C26",
   "status": "proved",
   "theorems": [
    "Sorcha.Photom.Props.C26_vignetting",
    "Sorcha.Photom.Props.C26_table",
    "Sorcha.Photom.Props.C26_depth"
   ],
   "note": "real arithmetic; np.interp is modelled"
  },
  {
   "property": "C27",
   "status": "proved",
   "theorems": [
    "Sorcha.Photom.Props.C27_flux",
    "Sorcha.Photom.Props.C27_unit",
    "Sorcha.Photom.Props.C27_ranges",
    "Sorcha.Photom.Props.C27_vector",
    "Sorcha.Photom.Props.C27_angles",
    "Sorcha.Photom.Props.C27_poles",
    "Sorcha.Photom.Props.C27_noise"
   ],
   "note": "real arithmetic"
  },
  {
   "property": "C28",
   "status": "proved",
   "theorems": [
    "Sorcha.Photom.Props.C28_separation",
    "Sorcha.Photom.Props.C28_metric"
   ],
   "note": "real arithmetic"
  },
  {
   "property": "C29",
   "status": "proved",
   "theorems": [
    "Sorcha.Mags.Props.C29_sound",
    "Sorcha.Mags.Props.C29_observer",
    "Sorcha.Mags.Props.C29_kept",
    "Sorcha.Mags.Props.C29_lightcurve",
    "Sorcha.Mags.Props.C29_unused_filter_fails"
   ],
   "note": "perihelion is taken from the table (its estimate: C79); an observing filter without visits stops the run (witness); activity models are arbitrary and not covered"
  },
  {
   "property": "C30",
   "status": "proved",
   "theorems": [
    "Sorcha.Mags.Props.C30_colours",
    "Sorcha.Mags.Props.C30_abort",
    "Sorcha.Mags.Props.C30_unknown",
    "Sorcha.Mags.Props.C30_magnitude",
    "Sorcha.Mags.Props.C30_addons",
    "Sorcha.Mags.Props.C30_distance",
    "Sorcha.Mags.Props.C30_single_filter_phase_fails"
   ],
   "note": "the phase functions of sbpy are parameters; per-filter phase parameters with one observing filter stop the run (witness)"
  },
  {
   "property": "C31",
   "status": "proved",
   "theorems": [
    "Sorcha.Geom.Props.C31_inside",
    "Sorcha.Geom.Props.C31_tolerance",
    "Sorcha.Geom.Props.C31_edge",
    "Sorcha.Geom.Props.C31_rows",
    "Sorcha.Geom.Props.C31_camera",
    "Sorcha.Geom.Props.C31_projection",
    "Sorcha.Geom.Props.C31_corners",
    "Sorcha.Geom.Props.C31_antipode_fails"
   ],
   "note": "real arithmetic; detectors in convex position; the point opposite the field centre projects like the centre (witness)"
  },
  {
   "property": "C32",
   "status": "proved",
   "theorems": [
    "Sorcha.Geom.Props.C32_distance"
   ],
   "note": "real arithmetic"
  },
  {
   "property": "C33",
   "status": "proved",
   "theorems": [
    "Sorcha.Rng.C33_circle",
    "Sorcha.Rng.C33_fill_factor",
    "Sorcha.Rng.C33_fill_factor_one",
    "Sorcha.Rng.C33_applyCircle",
    "Sorcha.Rng.C33_zero_fill_factor_fails",
    "Sorcha.Rng.C33_zero_radius_fails",
    "Sorcha.Rng.C33_stale_index_fails"
   ],
   "note": "on-sky separation is a parameter; zero radius / fill factor disable the filter (witness theorems)"
  },
  {
   "property": "C34",
   "status": "proved",
   "theorems": [
    "Sorcha.Ephem.Props.C34_inverse",
    "Sorcha.Ephem.Props.C34_isometry",
    "Sorcha.Ephem.Props.C34_sense"
   ],
   "note": "real arithmetic"
  },
  {
   "property": "C35",
   "status": "proved",
   "theorems": [
    "Sorcha.Ephem.PicketProps.C35_nodes",
    "Sorcha.Ephem.PicketProps.C35_quadratic"
   ],
   "note": "real arithmetic"
  },
  {
   "property": "C36",
   "status": "proved",
   "theorems": [
    "Sorcha.Ephem.PicketProps.C36_consistent",
    "Sorcha.Ephem.PicketProps.C36_brackets",
    "Sorcha.Ephem.PicketProps.C36_second_update",
    "Sorcha.Ephem.PicketProps.C36_backward_fails",
    "Sorcha.Ephem.PicketFloat.C36_float",
    "Sorcha.Ephem.PicketFloat.C36_float_brackets"
   ],
   "note": "chronological visits, or any order after the second update; a visit out of order is looked up in the wrong table (witness) C36_float*: Julian dates as floating point numbers, multiples of 2^-31 below 2^22"
  },
  {
   "property": "C37",
   "status": "proved",
   "theorems": [
    "Sorcha.Des.Props.C37_sound",
    "Sorcha.Des.Props.C37_exact",
    "Sorcha.Des.Props.C37_search",
    "Sorcha.Des.Props.C37_first",
    "Sorcha.Des.Props.C37_all_or_none",
    "Sorcha.Des.Props.C37_sorted",
    "Sorcha.Des.Props.C37_own",
    "Sorcha.Des.Props.C37_nights",
    "Sorcha.Des.Props.C37_arc",
    "Sorcha.Des.Props.C37_triplet_fails",
    "Sorcha.Des.Props.C37_more_data_fails"
   ],
   "note": "exact rational times; the search misses triplets after an isolated night (witness)"
  },
  {
   "property": "C38",
   "status": "proved",
   "theorems": [
    "Sorcha.Config.Props.C38_file",
    "Sorcha.Config.Props.C38_input",
    "Sorcha.Config.Props.C38_simulation",
    "Sorcha.Config.Props.C38_filters",
    "Sorcha.Config.Props.C38_saturation",
    "Sorcha.Config.Props.C38_saturation_safe",
    "Sorcha.Config.Props.C38_phase",
    "Sorcha.Config.Props.C38_fov",
    "Sorcha.Config.Props.C38_fading",
    "Sorcha.Config.Props.C38_linking",
    "Sorcha.Config.Props.C38_linking_safe",
    "Sorcha.Config.Props.C38_output",
    "Sorcha.Config.Props.C38_model",
    "Sorcha.Config.Props.C38_expert",
    "Sorcha.Config.Props.C38_visits",
    "Sorcha.Config.Props.C38_nan_fails",
    "Sorcha.Config.Props.C38_chunk_fails",
    "Sorcha.Config.Props.C38_fading_switch_fails",
    "Sorcha.Config.Props.C38_external_fails",
    "Sorcha.Config.Props.C38_des_message_fails",
    "Sorcha.Config.Props.C38_unknown_survey_fails"
   ],
   "note": "float(), int(), str.lower() and the file system are parameters; the _fails theorems show values that are accepted although they should not be"
  },
  {
   "property": "C39",
   "status": "proved",
   "theorems": [
    "Sorcha.Inputs.Props.C39_block",
    "Sorcha.Inputs.Props.C39_columns",
    "Sorcha.Inputs.Props.C39_file",
    "Sorcha.Inputs.Props.C39_rows",
    "Sorcha.Inputs.Props.C39_consistent_fails",
    "Sorcha.Inputs.Props.C39_degenerate_fails"
   ],
   "note": "numeric columns; warnings are not modelled; consistency holds per block only (witness)"
  },
  {
   "property": "C40",
   "status": "proved",
   "theorems": [
    "Sorcha.Pointing.Props.C40_read",
    "Sorcha.Pointing.Props.C40_read_ok",
    "Sorcha.Pointing.Props.C40_match",
    "Sorcha.Pointing.Props.C40_mismatch",
    "Sorcha.Pointing.Props.C40_unique",
    "Sorcha.Pointing.Props.C40_append",
    "Sorcha.Pointing.Props.C40_own_ephemeris",
    "Sorcha.Pointing.Props.C40_tolerance_fails",
    "Sorcha.Pointing.Props.C40_repeated_fields_fails"
   ],
   "note": "exact rational times; sqlite and the query are a parameter (its answer); the time check has a relative tolerance of 1e-5, about half a day (witness)"
  },
  {
   "property": "C41",
   "status": "proved",
   "theorems": [
    "Sorcha.Inputs.Props.C41_accept",
    "Sorcha.Inputs.Props.C41_column",
    "Sorcha.Inputs.Props.C41_complete",
    "Sorcha.Inputs.Props.C41_good",
    "Sorcha.Inputs.Props.C41_order_fails",
    "Sorcha.Inputs.Props.C41_substring_fails",
    "Sorcha.Inputs.Props.C41_last_fails"
   ],
   "note": "witnesses: main filter not listed first, H_ inside an earlier name, no line break"
  },
  {
   "property": "C42",
   "status": "proved",
   "theorems": [
    "Sorcha.Cli.Props.C42_rows",
    "Sorcha.Cli.Props.C42_mixed",
    "Sorcha.Cli.Props.C42_output_first_fails",
    "Sorcha.Cli.Props.C42_stale_columns_fails",
    "Sorcha.Cli.Props.C42_column_order_fails"
   ],
   "note": "holds when the databases agree on their columns and the new database is not the first one found; otherwise witnesses: the command stops, or stores values under wrong names"
  },
  {
   "property": "C43",
   "status": "proved",
   "theorems": [
    "Sorcha.Cli.Props.C43_last_line",
    "Sorcha.Cli.Props.C43_unfinished",
    "Sorcha.Cli.Props.C43_killed",
    "Sorcha.Cli.Props.C43_all",
    "Sorcha.Cli.Props.C43_empty_fails"
   ],
   "note": "every crash point; an empty log stops the whole check (witness)"
  },
  {
   "property": "C44",
   "status": "proved",
   "theorems": [
    "Sorcha.Cli.Props.C44_pieces",
    "Sorcha.Cli.Props.C44_lossless",
    "Sorcha.Cli.Props.C44_file_name",
    "Sorcha.Cli.Props.C44_meta_kernel",
    "Sorcha.Cli.Props.C44_file_name_fails"
   ],
   "note": "directory names without a quote; the kernel names need the directory's name not to occur again (witness)"
  },
  {
   "property": "C45",
   "status": "proved",
   "theorems": [
    "Sorcha.Ephem.ParseProps.C45_position",
    "Sorcha.Ephem.ParseProps.C45_zero_fails",
    "Sorcha.Ephem.ParseProps.C45_motion"
   ],
   "note": "a value of exactly 0 (Greenwich's longitude) is taken as missing (witness); SPICE is a parameter; the velocity is exact up to sin(wd)/(wd) for a uniform rotation"
  },
  {
   "property": "C46",
   "status": "proved",
   "theorems": [
    "Sorcha.Ephem.OrbitProps.C46_principal_value"
   ],
   "note": "real arithmetic"
  },
  {
   "property": "C47",
   "status": "proved",
   "theorems": [
    "Sorcha.Ephem.ElementsProps.C47_conic",
    "Sorcha.Ephem.ElementsProps.C47_round_trip",
    "Sorcha.Ephem.ElementsProps.C47_aphelion_fails",
    "Sorcha.Ephem.ElementsProps.C47_node_fails"
   ],
   "note": "real arithmetic; at aphelion and for a node on the y axis the code returns wrong elements (witnesses)"
  },
  {
   "property": "C48",
   "status": "proved",
   "theorems": [
    "Sorcha.Ephem.Props.C48_basis",
    "Sorcha.Ephem.Props.C48_rates",
    "Sorcha.Ephem.Props.C48_light_time",
    "Sorcha.Ephem.Props.C48_range_rate",
    "Sorcha.Ephem.Props.C48_phase",
    "Sorcha.Ephem.Props.C48_states"
   ],
   "note": "real arithmetic"
  },
  {
   "property": "C49",
   "status": "proved",
   "theorems": [
    "Sorcha.Ephem.OrbitProps.C49_accuracy_nonneg",
    "Sorcha.Ephem.OrbitProps.C49_accuracy_neg",
    "Sorcha.Ephem.OrbitProps.C49_doubling",
    "Sorcha.Ephem.OrbitProps.C49_meaning"
   ],
   "note": "real arithmetic: truncation error only, no rounding error"
  },
  {
   "property": "C50",
   "status": "proved",
   "theorems": [
    "Sorcha.Config.Props.C50_bool",
    "Sorcha.Config.Props.C50_default",
    "Sorcha.Config.Props.C50_text_fails"
   ],
   "note": "witness: bright_limit_on is not validated"
  },
  {
   "property": "C82",
   "status": "proved",
   "theorems": [
    "Sorcha.Ids.Props.C82_ordinary",
    "Sorcha.Ids.Props.C82_exact",
    "Sorcha.Ids.Props.C82_text",
    "Sorcha.Ids.Props.C82_numbers",
    "Sorcha.Ids.Props.C82_truths",
    "Sorcha.Ids.Props.C82_words_fails",
    "Sorcha.Ids.Props.C82_zeros_fails",
    "Sorcha.Ids.Props.C82_fraction_fails"
   ],
   "note": "the rules of pandas 2.x for missing values, whole numbers and truth values are modelled; reading and printing floating-point numbers is a parameter with stated assumptions; whole numbers of more than 18 digits are outside the model; a column is taken in one piece"
  },
  {
   "property": "C83",
   "status": "proved",
   "theorems": [
    "Sorcha.Csv.Props.C83_read_back",
    "Sorcha.Csv.Props.C83_ephemerides",
    "Sorcha.Csv.Props.C83_cut",
    "Sorcha.Csv.Props.C83_history",
    "Sorcha.Csv.Props.C83_interrupted",
    "Sorcha.Csv.Props.C83_number_fails",
    "Sorcha.Csv.Props.C83_blanks_fails"
   ],
   "note": "the writer of Python's csv module and the tokenizer of pandas are modelled after their sources; how a cell becomes a text is a parameter, what type is inferred for a column of texts is C82; characters instead of bytes, no NUL; lines that are too short are filled up with missing values by pandas, which is left out"
  },
  {
   "property": "C84",
   "status": "proved",
   "theorems": [
    "Sorcha.Csv.Props.C84_rows",
    "Sorcha.Csv.Props.C84_ids",
    "Sorcha.Csv.Props.C84_objects",
    "Sorcha.Csv.Props.C84_lines",
    "Sorcha.Csv.Props.C84_written",
    "Sorcha.Csv.Props.C84_quote_fails",
    "Sorcha.Csv.Props.C84_first_fails",
    "Sorcha.Csv.Props.C84_empty_line_fails"
   ],
   "note": "pandas' tokenizers (commas and blanks) with their skipping of lines are modelled after their source (C parser); types of columns other than the IDs are not inferred; characters instead of bytes"
  },
  {
   "property": "C85",
   "status": "proved",
   "theorems": [
    "Sorcha.Whole.Props.C85_external",
    "Sorcha.Whole.Props.C85_generated",
    "Sorcha.Whole.Props.C85_chunks",
    "Sorcha.Whole.Props.C85_generated_chunks",
    "Sorcha.Whole.Props.C85_stopped",
    "Sorcha.Whole.Props.C85_generated_stopped",
    "Sorcha.Whole.Props.C85_others",
    "Sorcha.Whole.Props.C85_external_sqlite",
    "Sorcha.Whole.Props.C85_generated_sqlite",
    "Sorcha.Whole.Props.C85_chunks_sqlite",
    "Sorcha.Whole.Props.C85_generated_chunks_sqlite",
    "Sorcha.Whole.Props.C85_stopped_sqlite",
    "Sorcha.Whole.Props.C85_generated_stopped_sqlite"
   ],
   "note": "composes the models of the arguments, the checks of the command line, the configuration file, the readers on texts, the rounds, the writers and the files; Rubin runs; the values of the rows (photometry, astrometry, footprint: `env`), what the cells of the inputs say (`parse`), how a value is shown as text and the generated ephemerides of an object are parameters; that generated ephemerides are made for each object alone is a hypothesis; a run whose input is among the files -f deletes does not finish"
  },
  {
   "property": "C86",
   "status": "proved",
   "theorems": [
    "Sorcha.Whole.Props.C86_repeat",
    "Sorcha.Whole.Props.C86_stopped",
    "Sorcha.Whole.Props.C86_recovers"
   ],
   "note": "the model of C85 (text input; CSV or sqlite output; Rubin runs); what is computed for the rows depends on the files and the seed only (`SeesFiles`, and the functions of `World`)"
  },
  {
   "property": "C87",
   "status": "proved",
   "theorems": [
    "Sorcha.Whole.Props.C87_saved",
    "Sorcha.Whole.Props.C87_chunks"
   ],
   "note": "the model of C85; that the numbers are read back as computed is a hypothesis (`hread`): pandas reads floats with its fast parser, which may be off in the last digit"
  },
  {
   "property": "C88",
   "status": "proved",
   "theorems": [
    "Sorcha.Whole.Props.C88_external",
    "Sorcha.Whole.Props.C88_generated",
    "Sorcha.Whole.Props.C88_input_lost_fails"
   ],
   "note": "the model of C85; that the checks of the columns accept the tables (C71) and that the values of each row can be computed (`env`, `measure`) are hypotheses; pandas, numpy and the disk do not fail"
  },
  {
   "property": "C89",
   "status": "proved",
   "theorems": [
    "Sorcha.Whole.Props.C89_results",
    "Sorcha.Whole.Props.C89_results_sqlite",
    "Sorcha.Whole.Props.C89_stopped",
    "Sorcha.Whole.Props.C89_chunks",
    "Sorcha.Whole.Props.C89_finishes"
   ],
   "note": "the models of C85 and C61 put together; integrator, healpy, order of sets, angles and the values computed per row are parameters; hmake says that the ephemerides of the run are those of the model of create_ephemeris"
  },
  {
   "property": "C90",
   "status": "proved",
   "theorems": [
    "Sorcha.Cmd.Props.C90_init",
    "Sorcha.Cmd.Props.C90_bootstrap",
    "Sorcha.Cmd.Props.C90_cite",
    "Sorcha.Cmd.Props.C90_demo_prepare",
    "Sorcha.Cmd.Props.C90_demo_howto",
    "Sorcha.Cmd.Props.C90_create_sqlite",
    "Sorcha.Cmd.Props.C90_check_logs",
    "Sorcha.Cmd.Props.C90_init_keeps",
    "Sorcha.Cmd.Props.C90_init_files",
    "Sorcha.Cmd.Props.C90_demo_keeps",
    "Sorcha.Cmd.Props.C90_demo_files",
    "Sorcha.Cmd.Props.C90_cite_only",
    "Sorcha.Cmd.Props.C90_cite_file",
    "Sorcha.Cmd.Props.C90_logs_keeps",
    "Sorcha.Cmd.Props.C90_verbose",
    "Sorcha.Cmd.Props.C90_check_logs_f_fails",
    "Sorcha.Cmd.Props.C90_cite_overwrites_fails"
   ],
   "note": "argparse as in Python 3.11.10; os.path.abspath and the text of the citations are parameters; what init, demo and check-logs then do is that of C67 and C68"
  },
  {
   "property": "C91",
   "status": "proved",
   "theorems": [
    "Sorcha.Whole.Props.C91_results",
    "Sorcha.Whole.Props.C91_exact",
    "Sorcha.Whole.Props.C91_chunks",
    "Sorcha.Whole.Props.C91_stopped",
    "Sorcha.Whole.Props.C91_others",
    "Sorcha.Whole.Props.C91_basic_fails"
   ],
   "note": "the calculations of a DES run (photometry, geometry, footprint, transient efficiency) are parameters as in C60 and C63; the runs of C85 are the runs of this model for the other surveys (`desPlan_rubin`); HDF5 output is not described; the calculations are a function of the settings, the arguments and the files"
  },
  {
   "property": "C92",
   "status": "proved",
   "theorems": [
    "Sorcha.Csv.Props.C92_written",
    "Sorcha.Csv.Props.C92_read_back",
    "Sorcha.Csv.Props.C92_missing_fails",
    "Sorcha.Csv.Props.C92_tab_fails"
   ],
   "note": "the writer of Python's csv module (with a space as separator) and pandas' tokenizer for blanks are modelled after their sources; that pandas fills up short lines with missing values is left out; used in C87 for runs as a whole"
  },
  {
   "property": "C93",
   "status": "proved",
   "theorems": [
    "Sorcha.Whole.Props.C93_external",
    "Sorcha.Whole.Props.C93_generated",
    "Sorcha.Whole.Props.C93_des"
   ],
   "note": "the phase angle of a row is a parameter; the filters are those of the pointing database as pandas keeps them as categories; the numbers are shown as text by a parameter; infinite magnitudes are not described"
  },
  {
   "property": "C94",
   "status": "proved",
   "theorems": [
    "Sorcha.Whole.Props.C94_external",
    "Sorcha.Whole.Props.C94_generated",
    "Sorcha.Whole.Props.C94_combined",
    "Sorcha.Whole.Props.C94_create_sqlite",
    "Sorcha.Whole.Props.C94_kept"
   ],
   "note": "the calculations for each observation are parameters and the same for all runs; what `glob` finds below a directory, `abspath` and the conversions of pandas are parameters; random features draw in the order of the rows, so that runs with them are left aside"
  },
  {
   "property": "C95",
   "status": "proved",
   "theorems": [
    "Sorcha.Whole.Props.C95_rubin",
    "Sorcha.Whole.Props.C95_des",
    "Sorcha.Whole.Props.C95_campaign"
   ],
   "note": "the texts a run logs are parameters that do not contain the completion message; `os.walk` and the CSV text of the report are parameters; the disk of the logs is the one of C68"
  },
  {
   "property": "C96",
   "status": "proved",
   "theorems": [
    "Sorcha.Whole.Props.C96_names",
    "Sorcha.Whole.Props.C96_apart",
    "Sorcha.Whole.Props.C96_kept",
    "Sorcha.Whole.Props.C96_kept_des",
    "Sorcha.Whole.Props.C96_told",
    "Sorcha.Whole.Props.C96_told_des",
    "Sorcha.Whole.Props.C96_dotted_fails"
   ],
   "note": "runs one after another, not at the same time; the time and the process number are parameters of a run; the directory is written without a slash at its end; C96_dotted_fails shows that the condition on dots is needed"
  },
  {
   "property": "C97",
   "status": "proved",
   "theorems": [
    "Sorcha.Whole.Props.C97_last",
    "Sorcha.Whole.Props.C97_external",
    "Sorcha.Whole.Props.C97_generated",
    "Sorcha.Whole.Props.C97_told",
    "Sorcha.Whole.Props.C97_named",
    "Sorcha.Whole.Props.C97_all_well_fails"
   ],
   "note": "runs one after another, not at the same time; the calculations for each observation are parameters and the same for all runs; what `glob` finds below a directory, `os.walk` and the conversions of pandas are parameters"
  },
  {
   "property": "C98",
   "status": "proved",
   "theorems": [
    "Sorcha.Whole.Props.C98_external",
    "Sorcha.Whole.Props.C98_generated",
    "Sorcha.Whole.Props.C98_last",
    "Sorcha.Whole.Props.C98_again_external",
    "Sorcha.Whole.Props.C98_again_generated",
    "Sorcha.Whole.Props.C98_told",
    "Sorcha.Whole.Props.C98_named"
   ],
   "note": "runs one after another, not at the same time; the calculations for each observation are parameters and the same for all runs; sorting by time is a parameter that sorts; what `glob` finds below a directory, `os.walk` and the conversions of pandas are parameters"
  },
  {
   "property": "C99",
   "status": "proved",
   "theorems": [
    "Sorcha.Db.Props.C99_listing",
    "Sorcha.Db.Props.C99_histories",
    "Sorcha.Db.Props.C99_blocks",
    "Sorcha.Db.Props.C99_repeated",
    "Sorcha.Db.Props.C99_missing",
    "Sorcha.Db.Props.C99_repeated_fails",
    "Sorcha.Db.Props.C99_spelling_fails",
    "Sorcha.Db.Props.C99_untyped_fails",
    "Sorcha.Db.Props.C99_missing_id_fails",
    "Sorcha.Db.Props.C99_limits_fails",
    "Sorcha.Db.Props.C99_refused_once_fails"
   ],
   "note": "SQLite (orders it leaves open, numbers in texts, number of parameters) and the conversions of pandas are parameters with stated laws; IDs stored as fractions or blobs, and a database that changes between calls, are not modelled"
  },
  {
   "property": "C100",
   "status": "proved",
   "theorems": [
    "Sorcha.Geom.Props.C100_back",
    "Sorcha.Geom.Props.C100_last",
    "Sorcha.Geom.Props.C100_same",
    "Sorcha.Geom.Props.C100_tolerance",
    "Sorcha.Geom.Props.C100_new_fails",
    "Sorcha.Geom.Props.C100_rotate_fails"
   ],
   "note": "real numbers; a run itself uses detectors in radians only (C31)"
  },
  {
   "property": "C101",
   "status": "proved",
   "theorems": [
    "Sorcha.Whole.Props.C101_alone",
    "Sorcha.Whole.Props.C101_others",
    "Sorcha.Whole.Props.C101_same",
    "Sorcha.Whole.Props.C101_series",
    "Sorcha.Whole.Props.C101_series_des",
    "Sorcha.Whole.Props.C101_reads",
    "Sorcha.Whole.Props.C101_reads_des",
    "Sorcha.Whole.Props.C101_external",
    "Sorcha.Whole.Props.C101_generated",
    "Sorcha.Whole.Props.C101_external_des",
    "Sorcha.Whole.Props.C101_generated_des",
    "Sorcha.Whole.Props.C101_shared_fails"
   ],
   "note": "the checks of the command line are one step, the inputs are read in one step, and a table being written is seen by the others once it is complete or its process is over; each process has its own log (C96)"
  },
  {
   "property": "C102",
   "status": "proved",
   "theorems": [
    "Sorcha.Whole.Props.C102_alone",
    "Sorcha.Whole.Props.C102_others",
    "Sorcha.Whole.Props.C102_told",
    "Sorcha.Whole.Props.C102_told_des",
    "Sorcha.Whole.Props.C102_early_fails",
    "Sorcha.Whole.Props.C102_external",
    "Sorcha.Whole.Props.C102_generated",
    "Sorcha.Whole.Props.C102_external_des",
    "Sorcha.Whole.Props.C102_generated_des"
   ],
   "note": "as C101; a step and what it logs are one step, records are written out when they are logged; processes whose arguments are not understood have no logs"
  },
  {
   "property": "C103",
   "status": "proved",
   "theorems": [
    "Sorcha.Epoch.Props.C103_close",
    "Sorcha.Epoch.Props.C103_start",
    "Sorcha.Epoch.Props.C103_order",
    "Sorcha.Epoch.Props.C103_same_fails",
    "Sorcha.Epoch.Props.C103_half_fails"
   ],
   "note": "floating point numbers as rationals with a rounding after each operation; SPICE's str2et is a parameter that keeps order and is within 2 ms of terrestrial time"
  },
  {
   "property": "C104",
   "status": "proved",
   "theorems": [
    "Sorcha.Compare.Props.C104_iff",
    "Sorcha.Compare.Props.C104_columns",
    "Sorcha.Compare.Props.C104_self",
    "Sorcha.Compare.Props.C104_missing_fails",
    "Sorcha.Compare.Props.C104_swap_fails",
    "Sorcha.Compare.Props.C104_tolerance_fails",
    "Sorcha.Compare.Props.C104_name_fails"
   ],
   "note": "the tables are those pd.read_csv gives (a column holds numbers or texts); numbers are exact, the rounding of the tolerance is not modelled"
  },
  {
   "property": "C105",
   "status": "proved",
   "theorems": [
    "Sorcha.Turn.Props.C105_ephemeris",
    "Sorcha.Turn.Props.C105_below",
    "Sorcha.Turn.Props.C105_randomised",
    "Sorcha.Turn.Props.C105_full_turn_fails"
   ],
   "note": "doubles as rationals with 53 binary digits and any exponent; arctan2 and the conversion to degrees are exact in C54 and C51 and not repeated here"
  },
  {
   "property": "C106",
   "status": "proved",
   "theorems": [
    "Sorcha.Addons.Columns.Props.C106_columns",
    "Sorcha.Addons.Columns.Props.C106_lightcurve",
    "Sorcha.Addons.Columns.Props.C106_activity_fails"
   ],
   "note": "activity models cannot log exceptions (witness)"
  },
  {
   "property": "C51",
   "status": "proved",
   "theorems": [
    "Sorcha.Photom.RandProps.C51_randomised",
    "Sorcha.Photom.RandProps.C51_off",
    "Sorcha.Photom.RandProps.C51_blocks_fails"
   ],
   "note": "generator is a stream of normal numbers; noise depends on how observations are split into blocks (witness)"
  },
  {
   "property": "C52",
   "status": "proved",
   "theorems": [
    "Sorcha.Visits.Props.C52_sound",
    "Sorcha.Visits.Props.C52_complete",
    "Sorcha.Visits.Props.C52_unwrap",
    "Sorcha.Visits.Props.C52_preselection_fails",
    "Sorcha.Visits.Props.C52_other_objects_fails",
    "Sorcha.Visits.Props.C52_large_radius_fails",
    "Sorcha.Visits.Props.C52_high_declination_fails",
    "Sorcha.Visits.Props.C52_stale_index_fails"
   ],
   "note": "fresh index, search radius at most 90 degrees; shapely, the k-d tree and set order are parameters with their documented behaviour; the _fails theorems show that a row on a chip can be dropped (nearest reference points belong to a neighbour), depending on which other objects share the chunk, and near right ascension 0 at high declination"
  },
  {
   "property": "C53",
   "status": "proved",
   "theorems": [
    "Sorcha.Ephem.Props.C53_light_time"
   ],
   "note": "the integrator is a parameter"
  },
  {
   "property": "C54",
   "status": "proved",
   "theorems": [
    "Sorcha.Ephem.Props.C54_round_trip",
    "Sorcha.Ephem.Props.C54_inverse"
   ],
   "note": "real arithmetic"
  },
  {
   "property": "C55",
   "status": "proved",
   "theorems": [
    "Sorcha.Ephem.PicketProps.C55_candidates",
    "Sorcha.Ephem.PicketProps.C55_own_pixel_fails"
   ],
   "note": "healpy is a parameter; the pixel an object stays in is not among the recorded ones (witness)"
  },
  {
   "property": "C56",
   "status": "proved",
   "theorems": [
    "Sorcha.Ephem.OrbitProps.C56_derivatives",
    "Sorcha.Ephem.OrbitProps.C56_root",
    "Sorcha.Ephem.OrbitProps.C56_newton",
    "Sorcha.Ephem.OrbitProps.C56_perihelion",
    "Sorcha.Ephem.OrbitProps.C56_period",
    "Sorcha.Ephem.ElementsProps.C56_code"
   ],
   "note": "exact Stumpff functions and the exact root of Kepler's equation; C56_code bounds the effect of the truncated Stumpff functions; convergence of the root search is not proved"
  },
  {
   "property": "C57",
   "status": "proved",
   "theorems": [
    "Sorcha.Ephem.ParseProps.C57_cartesian",
    "Sorcha.Ephem.ParseProps.C57_keplerian",
    "Sorcha.Ephem.ParseProps.C57_cometary",
    "Sorcha.Ephem.ParseProps.C57_unknown",
    "Sorcha.Ephem.ParseProps.C57_own_row",
    "Sorcha.Ephem.ParseProps.C57_starts",
    "Sorcha.Ephem.ParseProps.C57_elements",
    "Sorcha.Ephem.ParseProps.C57_elements_given"
   ],
   "note": "real arithmetic; the conversion of elements solves Kepler's equation exactly; the Sun's ephemeris is a parameter"
  },
  {
   "property": "C58",
   "status": "proved",
   "theorems": [
    "Sorcha.Cli.Props.C58_start",
    "Sorcha.Cli.Props.C58_starts",
    "Sorcha.Cli.Props.C58_arguments",
    "Sorcha.Cli.Props.C58_message_fails"
   ],
   "note": "a missing complex-parameter file stops with an uncaught KeyError (witness)"
  },
  {
   "property": "C59",
   "status": "proved",
   "theorems": [
    "Sorcha.Inputs.Props.C59_address",
    "Sorcha.Inputs.Props.C59_reject",
    "Sorcha.Inputs.Props.C59_name_only_fails",
    "Sorcha.Inputs.Props.C59_same_name_fails"
   ],
   "note": "pooch is not modelled beyond the dictionary of addresses it is given"
  },
  {
   "property": "C60",
   "status": "proved",
   "theorems": [
    "Sorcha.Pipeline.Props.C60_returned",
    "Sorcha.Pipeline.Props.C60_empty_fails"
   ],
   "note": "pd.concat of no tables raises"
  },
  {
   "property": "C61",
   "status": "proved",
   "theorems": [
    "Sorcha.Driver.Props.C61_rows",
    "Sorcha.Driver.Props.C61_alone",
    "Sorcha.Driver.Props.C61_exact",
    "Sorcha.Driver.Props.C61_reference",
    "Sorcha.Driver.Props.C61_joined",
    "Sorcha.Driver.Props.C61_some_visits",
    "Sorcha.Driver.Props.C61_buffer_fails",
    "Sorcha.Driver.Props.C61_backward_fails",
    "Sorcha.Driver.Props.C61_ids_fails",
    "Sorcha.Driver.Props.C61_no_visits_fails"
   ],
   "note": "integrator, healpy, set order and angles are parameters; C61_exact needs visits in order of time and an integrator whose answers do not depend on earlier questions; witnesses for the buffer, for steps back in time, for IDs such as 007 and for no visits"
  },
  {
   "property": "C62",
   "status": "proved",
   "theorems": [
    "Sorcha.Driver.Props.C62_reuse"
   ],
   "note": "text file, no such file before the run, floats written and read back unchanged"
  },
  {
   "property": "C63",
   "status": "proved",
   "theorems": [
    "Sorcha.DesRun.Props.C63_stages",
    "Sorcha.DesRun.Props.C63_sound",
    "Sorcha.DesRun.Props.C63_once",
    "Sorcha.DesRun.Props.C63_rounds",
    "Sorcha.DesRun.Props.C63_blocks",
    "Sorcha.DesRun.Props.C63_external",
    "Sorcha.DesRun.Props.C63_generated",
    "Sorcha.DesRun.Props.C63_snr_fails",
    "Sorcha.DesRun.Props.C63_visits_external_fails",
    "Sorcha.DesRun.Props.C63_limits_fails"
   ],
   "note": "what is computed per observation is the parameter measure; healpy and the footprint's corners are parameters"
  },
  {
   "property": "C64",
   "status": "proved",
   "theorems": [
    "Sorcha.Columns.Props.C64_rubin",
    "Sorcha.Columns.Props.C64_des",
    "Sorcha.Columns.Props.C64_basic",
    "Sorcha.Columns.Props.C64_all",
    "Sorcha.Columns.Props.C64_listed",
    "Sorcha.Columns.Props.C64_stats",
    "Sorcha.Columns.Props.C64_index",
    "Sorcha.Columns.Props.C64_same",
    "Sorcha.Columns.Props.C64_des_same",
    "Sorcha.Columns.Props.C64_agree",
    "Sorcha.Columns.Props.C64_des_basic_fails",
    "Sorcha.Columns.Props.C64_des_snr_fails",
    "Sorcha.Columns.Props.C64_single_filter_fails",
    "Sorcha.Columns.Props.C64_empty_fails",
    "Sorcha.Columns.Props.C64_first_filter_fails",
    "Sorcha.Columns.Props.C64_collision_fails",
    "Sorcha.Columns.Props.C64_index_fails"
   ],
   "note": "names only, values left out; C64_agree ties the names to the model of the magnitudes with values; what models read in the faint object filter is left out"
  },
  {
   "property": "C65",
   "status": "proved",
   "theorems": [
    "Sorcha.History.Props.C65_history",
    "Sorcha.History.Props.C65_interrupted",
    "Sorcha.History.Props.C65_refused",
    "Sorcha.History.Props.C65_log",
    "Sorcha.History.Props.C65_rerun",
    "Sorcha.History.Props.C65_journal_fails",
    "Sorcha.History.Props.C65_same_name_fails"
   ],
   "note": "CSV and sqlite outputs; what an interrupted write leaves of each kind of file is part of the trusted base; the hypothesis of C65_rerun on the columns is C64's"
  },
  {
   "property": "C66",
   "status": "proved",
   "theorems": [
    "Sorcha.Ephem.SolveProps.C66_bracket",
    "Sorcha.Ephem.SolveProps.C66_ends",
    "Sorcha.Ephem.SolveProps.C66_accuracy",
    "Sorcha.Ephem.SolveProps.C66_state"
   ],
   "note": "exact arithmetic and exact Stumpff functions (C49 and C56_code bound the difference for a given anomaly)"
  },
  {
   "property": "C67",
   "status": "proved",
   "theorems": [
    "Sorcha.Setup.Props.C67_protects",
    "Sorcha.Setup.Props.C67_only_own",
    "Sorcha.Setup.Props.C67_accepts",
    "Sorcha.Setup.Props.C67_delivers",
    "Sorcha.Setup.Props.C67_stages",
    "Sorcha.Setup.Props.C67_recovers",
    "Sorcha.Setup.Props.C67_demo_command",
    "Sorcha.Setup.Props.C67_demo_run",
    "Sorcha.Setup.Props.C67_refused_fails",
    "Sorcha.Setup.Props.C67_resume_fails"
   ],
   "note": "copying a file is taken to write its beginning and then the rest; int() of the answer is a parameter"
  },
  {
   "property": "C68",
   "status": "proved",
   "theorems": [
    "Sorcha.Setup.Props.C68_protects",
    "Sorcha.Setup.Props.C68_only_report",
    "Sorcha.Setup.Props.C68_report",
    "Sorcha.Setup.Props.C68_works",
    "Sorcha.Setup.Props.C68_overwrite_fails",
    "Sorcha.Setup.Props.C68_delete_fails",
    "Sorcha.Setup.Props.C68_lost_fails"
   ],
   "note": "os.walk is a parameter that lists exactly the files below a directory; the text of the report is a parameter"
  },
  {
   "property": "C69",
   "status": "proved",
   "theorems": [
    "Sorcha.Setup.Props.C69_schedule",
    "Sorcha.Setup.Props.C69_progress",
    "Sorcha.Setup.Props.C69_idle",
    "Sorcha.Setup.Props.C69_keeps",
    "Sorcha.Setup.Props.C69_complete",
    "Sorcha.Setup.Props.C69_ends",
    "Sorcha.Setup.Props.C69_report",
    "Sorcha.Setup.Props.C69_others",
    "Sorcha.Setup.Props.C69_whole",
    "Sorcha.Setup.Props.C69_recovers",
    "Sorcha.Setup.Props.C69_force",
    "Sorcha.Setup.Props.C69_force_fails",
    "Sorcha.Setup.Props.C69_offline_fails",
    "Sorcha.Setup.Props.C69_silent_fails",
    "Sorcha.Setup.Props.C69_truncated_fails"
   ],
   "note": "pooch as documented: a file is moved to its place when complete; a network is what each download finally gives"
  },
  {
   "property": "C70",
   "status": "proved",
   "theorems": [
    "Sorcha.Setup.Props.C70_loads",
    "Sorcha.Setup.Props.C70_starts",
    "Sorcha.Setup.Props.C70_offline",
    "Sorcha.Setup.Props.C70_after_bootstrap",
    "Sorcha.Setup.Props.C70_same",
    "Sorcha.Setup.Props.C70_stale_fails"
   ],
   "note": "what SPICE and ASSIST do with the files is not modelled; one run at a time"
  },
  {
   "property": "C71",
   "status": "proved",
   "theorems": [
    "Sorcha.Tables.Props.C71_header",
    "Sorcha.Tables.Props.C71_format",
    "Sorcha.Tables.Props.C71_wrong_format",
    "Sorcha.Tables.Props.C71_names",
    "Sorcha.Tables.Props.C71_ephemeris",
    "Sorcha.Tables.Props.C71_ephemeris_refused",
    "Sorcha.Tables.Props.C71_order",
    "Sorcha.Tables.Props.C71_orbit_blanks_fails",
    "Sorcha.Tables.Props.C71_objid_blank_fails",
    "Sorcha.Tables.Props.C71_comment_fails"
   ],
   "note": "cutting rows into cells and renaming repeated or empty names is pandas; quotation marks are not interpreted"
  },
  {
   "property": "C72",
   "status": "proved",
   "theorems": [
    "Sorcha.Addons.Props.C72_import",
    "Sorcha.Addons.Props.C72_accepted",
    "Sorcha.Addons.Props.C72_none",
    "Sorcha.Addons.Props.C72_used",
    "Sorcha.Addons.Props.C72_each",
    "Sorcha.Addons.Props.C72_stable",
    "Sorcha.Addons.Props.C72_shadowed_fails",
    "Sorcha.Addons.Props.C72_derived_fails",
    "Sorcha.Addons.Props.C72_identity_fails"
   ],
   "note": "classes are not garbage collected; what a model computes is a parameter (C18, C43)"
  },
  {
   "property": "C73",
   "status": "proved",
   "theorems": [
    "Sorcha.Cameras.Props.C73_choice",
    "Sorcha.Cameras.Props.C73_lsst_detectors",
    "Sorcha.Cameras.Props.C73_lsst_once",
    "Sorcha.Cameras.Props.C73_lsst_seen",
    "Sorcha.Cameras.Props.C73_lsst_exact",
    "Sorcha.Cameras.Props.C73_lsst_radius",
    "Sorcha.Cameras.Props.C73_des_fails"
   ],
   "note": "real arithmetic on the decimal numbers of the files"
  },
  {
   "property": "C74",
   "status": "proved",
   "theorems": [
    "Sorcha.Ini.Props.C74_reads",
    "Sorcha.Ini.Props.C74_twice",
    "Sorcha.Ini.Props.C74_wellformed",
    "Sorcha.Ini.Props.C74_templates",
    "Sorcha.Ini.Props.C74_des_fails",
    "Sorcha.Ini.Props.C74_misspelt_fails",
    "Sorcha.Ini.Props.C74_silent_fails",
    "Sorcha.Ini.Props.C74_percent_fails",
    "Sorcha.Ini.Props.C74_default_fails"
   ],
   "note": "configparser is modelled from its source (Python 3.11); str.lower, float and int are parameters, for the supplied files with monotone rounding that is exact on small multiples of 1/16"
  },
  {
   "property": "C75",
   "status": "proved",
   "theorems": [
    "Sorcha.Shipped.Props.C75_footprint",
    "Sorcha.Shipped.Props.C75_circular",
    "Sorcha.Shipped.Props.C75_known",
    "Sorcha.Shipped.Props.C75_known_runs",
    "Sorcha.Shipped.Props.C75_once",
    "Sorcha.Shipped.Props.C75_lsst_fails"
   ],
   "note": "what is computed per observation and the noise are parameters; field centres are not at the poles; the observations of the rounds are an argument"
  },
  {
   "property": "C76",
   "status": "proved",
   "theorems": [
    "Sorcha.H5.Props.C76_same",
    "Sorcha.H5.Props.C76_stops",
    "Sorcha.H5.Props.C76_safe",
    "Sorcha.H5.Props.C76_reuse",
    "Sorcha.H5.Props.C76_rounds_fails",
    "Sorcha.H5.Props.C76_same_size_fails",
    "Sorcha.H5.Props.C76_long_id_fails"
   ],
   "note": "whether pandas accepts an empty list of labels is a parameter; same conditions as C62 for the reuse"
  },
  {
   "property": "C77",
   "status": "proved",
   "theorems": [
    "Sorcha.Log.Props.C77_determines",
    "Sorcha.Log.Props.C77_same_run",
    "Sorcha.Log.Props.C77_same_input",
    "Sorcha.Log.Props.C77_radius_fails",
    "Sorcha.Log.Props.C77_edge_fails",
    "Sorcha.Log.Props.C77_hidden_fails"
   ],
   "note": "str of numbers is an injective parameter that never gives None; texts with line breaks are not interpreted; names of the observatory code files, output path and stem, visits database and colour list are left out of the conclusion"
  },
  {
   "property": "C78",
   "status": "proved",
   "theorems": [
    "Sorcha.Sqlite.Props.C78_database",
    "Sorcha.Sqlite.Props.C78_accepts",
    "Sorcha.Sqlite.Props.C78_rows",
    "Sorcha.Sqlite.Props.C78_input",
    "Sorcha.Sqlite.Props.C78_again",
    "Sorcha.Sqlite.Props.C78_csv_fails",
    "Sorcha.Sqlite.Props.C78_number_fails",
    "Sorcha.Sqlite.Props.C78_index_fails",
    "Sorcha.Sqlite.Props.C78_order_fails"
   ],
   "note": "how pandas converts a column and how sqlite compares names are parameters; rows longer than the header, repeated names and quotation marks are not modelled"
  },
  {
   "property": "C79",
   "status": "proved",
   "theorems": [
    "Sorcha.Cull.Props.C79_sound",
    "Sorcha.Cull.Props.C79_own",
    "Sorcha.Cull.Props.C79_keplerian",
    "Sorcha.Cull.Props.C79_runs"
   ],
   "note": "real arithmetic; the conversion of barycentric Keplerian elements solves Kepler's equation exactly; orbits are two-body orbits about one mass of at most 2.964e-4 au^3/day^2"
  },
  {
   "property": "C80",
   "status": "proved",
   "theorems": [
    "Sorcha.Seed.Props.C80_seed",
    "Sorcha.Seed.Props.C80_log",
    "Sorcha.Seed.Props.C80_modulo",
    "Sorcha.Seed.Props.C80_replay",
    "Sorcha.Seed.Props.C80_modules",
    "Sorcha.Seed.Props.C80_streams",
    "Sorcha.Seed.Props.C80_other",
    "Sorcha.Seed.Props.C80_crossed_fails",
    "Sorcha.Seed.Props.C80_bytes",
    "Sorcha.Seed.Props.C80_ties_fails"
   ],
   "note": "MD5 is modelled in full; the generator of numpy as a function of its seed is a parameter; SORCHA_SEED is taken as ASCII text; reproducibility of Rubin runs needs weights of the linking filter without ties"
  },
  {
   "property": "C81",
   "status": "proved",
   "theorems": [
    "Sorcha.Argv.Props.C81_run",
    "Sorcha.Argv.Props.C81_unique",
    "Sorcha.Argv.Props.C81_order",
    "Sorcha.Argv.Props.C81_dispatch",
    "Sorcha.Argv.Props.C81_status",
    "Sorcha.Argv.Props.C81_log_level_fails",
    "Sorcha.Argv.Props.C81_single_dash_fails",
    "Sorcha.Argv.Props.C81_abbreviation_fails",
    "Sorcha.Argv.Props.C81_equals_fails",
    "Sorcha.Argv.Props.C81_dashes_fails"
   ],
   "note": "argparse as in Python 3.11.10, for options that take one value, switches and help; texts are lists of characters; the digits of a negative number are ASCII digits"
  }
 ]
}