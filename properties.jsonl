{"id": "C01", "title": "What counts as a tracklet", "statement": "For one object's detections of one night, listed in time order, the SSP linking filter says the night has a tracklet exactly when there are at least ssp_number_observations detections and either ssp_number_observations is 1, or there are two detections, the later strictly after the earlier by less than ssp_maximum_time and more than ssp_separation_threshold away on the sky, such that counting them and everything listed between them gives at least ssp_number_observations detections. If the detections are not in time order (and there are enough of them) the call raises instead of answering. The answer is the same in floating point numbers, because differences of times are exact there; only ssp_maximum_time is changed by up to a part in 2^51 on its way through minutes, and not at all if it has at most 42 binary digits.", "quantifier": "every list of detections of any length, every threshold, every separation function", "why_tests_cant": "the claim is an equivalence over all lists of detections and thresholds; tests only sample a handful of nights", "anchors": ["src/sorcha/modules/PPMiniDifi.py:hasTracklet"]}
{"id": "C02", "title": "An object is discoverable iff enough tracklet nights fall in one window", "statement": "With ssp_number_tracklets >= 2, a night D is offered by the linking filter as a possible discovery night only if at least ssp_number_tracklets nights in the trailing window [D - ssp_track_window + 1, D] have a tracklet, and, for positive random weights, some night is offered whenever some span of ssp_track_window consecutive nights contains at least ssp_number_tracklets nights with a tracklet. With ssp_number_tracklets = 1 the offered nights are exactly the nights with a tracklet. (A weight of exactly zero makes the filter miss the opportunity.)", "quantifier": "every set of nights, every marking of nights as having a tracklet, every window >= 1 and every number of tracklets, every value of the random weights used to de-duplicate", "why_tests_cant": "the implementation uses cumulative sums, array offsets and random weights; only a proof covers all histories and all weights", "anchors": ["src/sorcha/modules/PPMiniDifi.py:discoveryOpportunities", "src/sorcha/modules/PPMiniDifi.py:trackletsInNights"]}
{"id": "C03", "title": "The reported discovery date is a genuine and, at efficiency 1, the earliest discovery night", "statement": "When an object is reported as linked, date_linked_MJD is a night D whose trailing window of ssp_track_window nights contains at least ssp_number_tracklets tracklet nights; when ssp_detection_efficiency is 1, and unless one of the internal random weights is exactly zero, no earlier night has that property. The nights are the true ones also in floating point numbers, whenever the test of the time of night lets the observation pass.", "quantifier": "every observation history of an object, every configuration accepted by validation, every random stream", "why_tests_cant": "earliest-ness is a universally quantified claim over nights of arbitrary histories", "anchors": ["src/sorcha/modules/PPMiniDifi.py:linkObject", "src/sorcha/modules/PPMiniDifi.py:discoveryOpportunities", "src/sorcha/modules/PPLinkingFilter.py:PPLinkingFilter"]}
{"id": "C04", "title": "The internal consistency assertion of the linker cannot fire", "statement": "Whenever an object is reported as discovered on night D there is at least one observation of it in the nights [D - window + 1, D] and the reported observation is the earliest of these, so the filter neither aborts on its assertion nor on an empty argmin; the only way to stop is an observation outside the middle 80 percent of the day that begins at night_start_utc.", "quantifier": "every observation history, window, number of tracklets, efficiency and random stream", "why_tests_cant": "reachability of an assertion over unbounded histories", "anchors": ["src/sorcha/modules/PPMiniDifi.py:linkObject"]}
{"id": "C05", "title": "Linking is all-or-nothing per object and keeps or flags every row", "statement": "The linking filter's output contains, with drop_unlinked on, exactly the rows of the linked objects, and with it off exactly all rows; each row carries object_linked and date_linked_MJD that agree for all rows of the same object; rows are ordered by observation time; no row is duplicated or invented. The filter works exactly when all observations are well inside a night and all object IDs are ASCII. (One ID with another character, which every reader accepts, stops the run.)", "quantifier": "every table of observations (any number of objects and rows, in any order), both settings of drop_unlinked", "why_tests_cant": "needs every table and every interleaving of objects", "anchors": ["src/sorcha/modules/PPLinkingFilter.py:PPLinkingFilter", "src/sorcha/modules/PPMiniDifi.py:linkObservations"]}
{"id": "C06", "title": "An object's linking verdict depends on its own rows only", "statement": "Adding, removing or reordering rows of other objects, splitting the table into chunks by object, or reordering an object's own rows (with distinct times) does not change whether the object is linked nor its discovery date, as long as the filter does not stop.", "quantifier": "every table, every permutation of rows, every way of splitting objects over chunks", "why_tests_cant": "quantifies over all permutations and all splits", "anchors": ["src/sorcha/modules/PPMiniDifi.py:linkObservations", "src/sorcha/modules/PPMiniDifi.py:linkObject", "src/sorcha/modules/PPLinkingFilter.py:PPLinkingFilter"]}
{"id": "C07", "title": "Detection efficiency extremes", "statement": "With ssp_detection_efficiency 0 no object is ever linked; with 1 every object whose observations contain ssp_number_tracklets tracklet nights inside some ssp_track_window-night span is linked, whatever the random stream, unless one of the internal random weights is exactly zero.", "quantifier": "every table, every random stream with draws in [0,1)", "why_tests_cant": "all random streams and tables", "anchors": ["src/sorcha/modules/PPMiniDifi.py:discoveryOpportunities", "src/sorcha/modules/PPMiniDifi.py:linkObject"]}
{"id": "C08", "title": "More detections never unlink an object (efficiency 1)", "statement": "With ssp_detection_efficiency 1 (and no internal random weight exactly zero), if an object is linked from some set of detections at distinct times then it is linked from any superset of those detections at distinct times, and not later.", "quantifier": "every pair of detection sets one containing the other", "why_tests_cant": "monotonicity over all pairs of histories", "anchors": ["src/sorcha/modules/PPMiniDifi.py:hasTracklet", "src/sorcha/modules/PPMiniDifi.py:discoveryOpportunities", "src/sorcha/modules/PPMiniDifi.py:linkObject"]}
{"id": "C09", "title": "Magnitude, SNR, saturation, motion and distance cuts keep exactly what they advertise", "statement": "The magnitude limit keeps exactly the rows whose trailed-source magnitude is strictly below the limit, the SNR limit exactly those with SNR strictly above it, the saturation limit drops exactly the rows whose magnitude is strictly below the limit of the row's filter, for non-negative limits the DES motion cut keeps exactly the rows with motion strictly inside the limits, and the DES distance cut keeps all rows of exactly the objects having at least one row strictly inside the distance limits. All of them keep the surviving rows unchanged and in order. A NaN value fails every 'keep' comparison but is kept by the saturation limit.", "quantifier": "every table, every limit, every value including NaN and infinities", "why_tests_cant": "boundary, NaN and ordering behaviour for every table", "anchors": ["src/sorcha/modules/PPMagnitudeLimit.py:PPMagnitudeLimit", "src/sorcha/modules/PPSNRLimit.py:PPSNRLimit", "src/sorcha/modules/PPBrightLimit.py:PPBrightLimit", "src/sorcha/modules/PPDistanceandMotionCuts.py:distance_cut", "src/sorcha/modules/PPDistanceandMotionCuts.py:motion_cut"]}
{"id": "C10", "title": "Cuts are idempotent and their order does not matter", "statement": "Applying the SNR, magnitude or saturation cut twice equals applying it once, and these cuts may be applied in any order with the same result; the DES distance cut is idempotent and does not commute with row cuts in general.", "quantifier": "every table, all limits", "why_tests_cant": "all tables, all orders", "anchors": ["src/sorcha/modules/PPMagnitudeLimit.py:PPMagnitudeLimit", "src/sorcha/modules/PPSNRLimit.py:PPSNRLimit", "src/sorcha/modules/PPBrightLimit.py:PPBrightLimit", "src/sorcha/modules/PPDistanceandMotionCuts.py:distance_cut"]}
{"id": "C11", "title": "Every row that a Rubin run outputs passed every enabled filter", "statement": "Each row a Rubin run outputs stems from one ephemeris row and one pointing of its field whose times agree, each such pair (and detector) at most once, and satisfies all enabled cuts at once: inside the configured field of view, SNR above the limit, magnitude below the limit, not saturated in its filter, and (if linking is on) carries the verdict of the linker over all rows of its object in that round that passed the cuts, a positive one if unlinked objects are dropped; of an object either all rows that passed the cuts are output or none. Without random features and linking, conversely every such pair that satisfies the cuts is output; with efficiency one and unlinked objects dropped, exactly those of the objects with a discovery night. (A circle radius of exactly zero is no restriction.)", "quantifier": "every input table, every configuration of filters, every random stream", "why_tests_cant": "end-to-end claim over all inputs and configurations", "anchors": ["src/sorcha/sorcha.py:runLSSTSimulation"]}
{"id": "C12", "title": "Every input object is processed exactly once", "statement": "For chunk size c >= 1 the run performs exactly ceil(n/c) rounds over n objects, round k handles exactly objects kc .. min((k+1)c, n)-1 of the orbit file, so each object is handled in exactly one round and the blocks concatenated give the file back; the run never reads past the end. For chunk size <= 0 (which validation accepts) and n > 0 the run aborts. (For orbit files without blank lines in the table; a blank line makes a later block repeat an object.)", "quantifier": "every number of objects and every chunk size", "why_tests_cant": "loop termination and partition for all n and c", "anchors": ["src/sorcha/sorcha.py:runLSSTSimulation", "src/sorcha/readers/CombinedDataReader.py:read_block", "src/sorcha/readers/CombinedDataReader.py:read_aux_block", "src/sorcha/utilities/sorchaConfigs.py:inputConfigs"]}
{"id": "C13", "title": "Reading by blocks, by object or from the cache gives the same rows", "statement": "read_rows(start, size) returns rows start .. start+size-1 of the file whatever the file's number of pre-header lines; read_objects(ids) returns exactly the rows whose ObjID is in ids, in file order; a caching reader and a non-caching reader return the same rows for every call sequence. (For files without blank lines and IDs that are unchanged by being read, see C82; IDs such as 007 depend on the block they are read in.)", "quantifier": "every file content, every header position, every block start/size, every id list, every sequence of calls", "why_tests_cant": "all files and call histories", "anchors": ["src/sorcha/readers/CSVReader.py:CSVDataReader", "src/sorcha/readers/ObjectDataReader.py:ObjectDataReader"]}
{"id": "C14", "title": "Mismatched object IDs in the auxiliary files are detected before processing", "statement": "check_aux_object_ids succeeds iff at least two auxiliary files are configured and every file contains exactly the same ObjIDs with the same multiplicities as the first (in any order).", "quantifier": "every list of auxiliary files", "why_tests_cant": "all multisets of IDs", "anchors": ["src/sorcha/readers/CombinedDataReader.py:check_aux_object_ids"]}
{"id": "C15", "title": "Combining ephemeris and auxiliary tables loses and duplicates nothing", "statement": "If ObjIDs are unique in each auxiliary file and the files match, then each block returned by read_block has exactly the ephemeris rows of that block's objects in file order, each extended by that object's auxiliary data; over the whole run every ephemeris row of every listed object appears exactly once. Duplicate ObjIDs pass the ID check but multiply rows.", "quantifier": "all tables, all chunk sizes", "why_tests_cant": "all tables and chunkings", "anchors": ["src/sorcha/readers/CombinedDataReader.py:read_block", "src/sorcha/readers/CombinedDataReader.py:check_aux_object_ids"]}
{"id": "C16", "title": "Chunk size does not change the result of a deterministic run", "statement": "With all random features off, object IDs unique and unchanged by being read (see C82), visit numbers unique, no object in two places at the same time, and the linker's random weights in general position, the output rows (as a multiset) of a run do not depend on size_serial_chunk, nor does its success; with generated ephemerides the visits' mid-times must differ; phase parameters must not be given per filter unless an observation matches a visit in every chunk of both runs.", "quantifier": "every input, every two chunk sizes >= 1", "why_tests_cant": "all inputs and all chunkings; golden tests compare two sizes on one file", "anchors": ["src/sorcha/sorcha.py:runLSSTSimulation", "src/sorcha/modules/PPLinkingFilter.py:PPLinkingFilter"]}
{"id": "C17", "title": "Random filters: reproducible, chunk-independent where one draw per row is used", "statement": "The fading-function filter draws exactly one uniform number per incoming row in row order from its own per-module generator, keeps a row iff its probability is at least its draw, and therefore gives the same rows whether rows come in one table or in consecutive chunks. Draws made by other modules never affect it.", "quantifier": "every table, every split into chunks, every interleaving with other modules' draws", "why_tests_cant": "all splits, all streams", "anchors": ["src/sorcha/modules/PPFadingFunctionFilter.py:PPFadingFunctionFilter", "src/sorcha/modules/PPDropObservations.py:PPDropObservations", "src/sorcha/utilities/sorchaModuleRNG.py:PerModuleRNG"]}
{"id": "C18", "title": "Per-module random generators are deterministic and isolated", "statement": "getModuleRNG(name) returns the same generator object for the same name for the life of a run, its seed depends only on the base seed and the name, lies in [0, 2^31), and asking for or drawing from one module's generator does not change the numbers another module gets.", "quantifier": "every sequence of requests and draws over any names", "why_tests_cant": "all interleavings", "anchors": ["src/sorcha/utilities/sorchaModuleRNG.py:PerModuleRNG"]}
{"id": "C19", "title": "CSV output over chunks is one well-formed file", "statement": "Writing any sequence of non-empty chunks appends exactly one header line, then the rows of all chunks in order; a run over an existing file that is not empty appends without a second header. SQLite output holds the rows of all chunks in one table, and so does HDF5 output if the object ID is among the columns and no later chunk has a longer text in a column than the first one. (HDF5 output aborts if a later chunk contains a longer text than the first, and always if the listed columns lack the object ID; an existing but empty CSV file never gets a header.)", "quantifier": "every sequence of chunks, file existing or not", "why_tests_cant": "all chunk sequences", "anchors": ["src/sorcha/modules/PPOutput.py:PPOutWriteCSV", "src/sorcha/modules/PPOutput.py:PPWriteOutput"]}
{"id": "C20", "title": "Statistics table accounts for every output row", "statement": "In the stats table written for a chunk the number_obs of all rows add up to the number of observations, each (object, filter) pair with observations has exactly one row, and in each row min <= median <= max of the magnitudes, with min and max attained (the median computed in floating point numbers also stays within them, with at most half of the values on either side); filters of the pointing database in which an object has no observations are listed with zero.", "quantifier": "every table of observations", "why_tests_cant": "all tables", "anchors": ["src/sorcha/modules/PPStats.py:stats"]}
{"id": "C21", "title": "Output columns", "statement": "The columns written are: for 'basic' a fixed list plus object_linked exactly when linking is on and unlinked objects are kept; for 'all' every column; for a list exactly that list in that order, aborting if one does not exist. Rounding to d decimals moves a value by at most half a unit in the d-th place and is not applied when d is 0 or unset; for floating point numbers the half unit holds up to their precision, rounding keeps the order of values, and rounding a number again changes nothing as long as it has no more than 2^50 units of the last place. (The result need not be the nearest multiple: 0.05 becomes 0 at one decimal although the floating point number is above 0.05.)", "quantifier": "every table, every column list, every number of decimals", "why_tests_cant": "all column sets", "anchors": ["src/sorcha/modules/PPOutput.py:PPWriteOutput"]}
{"id": "C22", "title": "--force leaves no stale output behind", "statement": "Without -f an accepted command line means that no file with the output, ephemeris or statistics stem exists, and no command changes any file. With -f an accepted command line removes a file of the output stem if there is one, so that none is left if there was at most one; nothing but output files of the command is ever removed. (Of several files with the stem only one is removed, so stale output stays; a command that stops for another reason may already have removed a file.)", "quantifier": "every directory content, both settings of -f", "why_tests_cant": "all directory contents", "anchors": ["src/sorcha/utilities/sorchaCommandLineParser.py:warn_or_remove_file", "src/sorcha/utilities/sorchaCommandLineParser.py:sorchaCommandLineParser"]}
{"id": "C23", "title": "Trailing loss", "statement": "The trailing loss is zero for a motionless object, never negative, grows with rate of motion and exposure time and shrinks with seeing; in floating point numbers it is still zero for a motionless object and never negative.", "quantifier": "all rates, exposure times > 0, seeing > 0", "why_tests_cant": "continuum of inputs", "anchors": ["src/sorcha/modules/PPTrailingLoss.py:calcTrailingLoss"]}
{"id": "C24", "title": "Fading function is a probability", "statement": "For peak efficiency F in [0,1] and width w in (0,0.5] the detection probability lies in [0,F], equals F/2 at the limiting magnitude, decreases with magnitude and increases with depth, and tends to F for bright and 0 for faint sources. In floating point numbers it still lies in [0,F], is exactly F/2 at the limiting magnitude and does not rise with magnitude or fall with depth; it is exactly F for sources brighter than the limit by 38 widths or more, so with F = 1 these are always detected. The DES function, too, stays between 0 and the computed product of efficiency and scaling and does not rise with magnitude. (With F = 0 a row is kept if the number drawn for it is exactly 0.)", "quantifier": "all magnitudes, depths, F, w accepted by validation", "why_tests_cant": "continuum of inputs", "anchors": ["src/sorcha/modules/PPDetectionProbability.py:calcDetectionProbability", "src/sorcha/utilities/sorchaConfigs.py:fadingfunctionConfigs"]}
{"id": "C25", "title": "Photometric and astrometric uncertainties", "statement": "SNR equals 5 within 0.1% at the 5-sigma depth, decreases strictly with magnitude and increases with depth; the photometric uncertainty is positive and increases with magnitude; the astrometric uncertainty is never below the systematic floor and increases with magnitude. In floating point numbers the same bounds hold, and neither rises or falls the wrong way, as long as the power, square root and logarithm of the library keep order.", "quantifier": "all magnitudes, depths, seeing values", "why_tests_cant": "continuum of inputs", "anchors": ["src/sorcha/modules/PPAddUncertainties.py:calcAstrometricUncertainty", "src/sorcha/modules/PPAddUncertainties.py:calcPhotometricUncertainty"]}
{"id": "C26", "title": "Vignetting only makes the survey shallower", "statement": "The vignetting correction is zero on the optical axis, never negative, does not decrease with distance from the axis and is bounded, so the depth used for a detection never exceeds the field depth.", "quantifier": "all distances from the axis", "why_tests_cant": "continuum of distances against a 101-row table", "anchors": ["src/sorcha/modules/PPVignetting.py:vignettingEffects", "src/sorcha/modules/PPVignetting.py:vignetFunc"]}
{"id": "C27", "title": "Flux/magnitude and sky/vector conversions are inverse to each other", "statement": "flux2mag(mag2flux(m)) = m for every m and mag2flux(flux2mag(f)) = f for f > 0; converting RA/Dec to a unit vector and back returns the same position (RA in [0,360)) except that RA becomes 0 at the poles; the angles of any vector have RA in [0,360) and Dec in [-90,90]; the vector of a position has length 1.", "quantifier": "all magnitudes, fluxes, sky positions", "why_tests_cant": "continuum of inputs", "anchors": ["src/sorcha/modules/PPRandomizeMeasurements.py:flux2mag", "src/sorcha/modules/PPRandomizeMeasurements.py:mag2flux", "src/sorcha/modules/PPRandomizeMeasurements.py:radec2icrf", "src/sorcha/modules/PPRandomizeMeasurements.py:icrf2radec", "src/sorcha/ephemeris/simulation_geometry.py:ra_dec2vec", "src/sorcha/ephemeris/simulation_geometry.py:vec2ra_dec"]}
{"id": "C28", "title": "Separation formula is the great-circle distance", "statement": "The separation used for tracklets and for vignetting is the angle between the two directions: symmetric, zero for equal positions, invariant under RA + 360, at most 180 degrees.", "quantifier": "all pairs of sky positions", "why_tests_cant": "continuum of inputs", "anchors": ["src/sorcha/modules/PPMiniDifi.py:haversine_np", "src/sorcha/modules/PPVignetting.py:haversine"]}
{"id": "C29", "title": "Faint-object culling never removes an object that could be seen", "statement": "An object removed by the culling filter would, at every heliocentric distance not below its perihelion and observer distance not below perihelion - 1 au, be more than two magnitudes fainter than the deepest visit in each observing filter, at zero phase, for inactive objects without light curve. An object that is kept in at least one filter is kept.", "quantifier": "every orbit table, every pointing table, every geometry", "why_tests_cant": "all geometries along the orbit", "anchors": ["src/sorcha/modules/PPFaintObjectCullingFilter.py:PPFaintObjectCullingFilter"]}
{"id": "C30", "title": "Apparent magnitude and colour offsets", "statement": "Each observation's magnitude is computed with the absolute magnitude in the filter of its visit: main-filter H plus the colour for another filter; rows of a filter other than the main one without a colour abort the run; the apparent magnitude grows with both distances. (With a single observing filter, phase parameters given per filter stop the run.)", "quantifier": "every table and filter assignment", "why_tests_cant": "all tables", "anchors": ["src/sorcha/modules/PPApplyColourOffsets.py:PPApplyColourOffsets", "src/sorcha/modules/PPCalculateApparentMagnitude.py:PPCalculateApparentMagnitude", "src/sorcha/modules/PPCalculateApparentMagnitudeInFilter.py:PPCalculateApparentMagnitudeInFilter"]}
{"id": "C31", "title": "Camera footprint test", "statement": "For a convex detector and a point in the hemisphere of the field centre, the sum-of-triangles test accepts the point iff it is inside or on the boundary of the detector (in exact arithmetic with zero tolerance); accepting with tolerance never rejects an interior point; a point covered by no detector is dropped and by exactly one is kept once. (A point opposite the field centre projects like the centre itself and is accepted.)", "quantifier": "all points, all convex quadrilaterals", "why_tests_cant": "continuum of points", "anchors": ["src/sorcha/modules/PPFootprintFilter.py:Detector", "src/sorcha/modules/PPFootprintFilter.py:Footprint"]}
{"id": "C32", "title": "Edge threshold distance", "statement": "The distance to a detector edge used by the edge threshold is the exact minimum distance from the point to the segment.", "quantifier": "all points and segments", "why_tests_cant": "continuum of inputs", "anchors": ["src/sorcha/modules/PPFootprintFilter.py:distToSegment"]}
{"id": "C33", "title": "Circular footprint and fill factor", "statement": "The circular field of view keeps exactly the observations closer to the field centre than the radius; the fill factor then keeps a row iff its own draw is at most the fill factor, so with fill factor 1 everything is kept. (Zero values, although accepted by validation, switch the respective filter off instead of dropping everything.)", "quantifier": "every table, radius, fill factor, random stream", "why_tests_cant": "all tables and streams", "anchors": ["src/sorcha/modules/PPApplyFOVFilter.py:PPCircleFootprint", "src/sorcha/modules/PPApplyFOVFilter.py:PPSimpleSensorArea"]}
{"id": "C34", "title": "Reference-frame rotations", "statement": "Ecliptic-to-equatorial and back is the identity, and both preserve lengths and angles.", "quantifier": "all vectors", "why_tests_cant": "continuum of inputs", "anchors": ["src/sorcha/ephemeris/simulation_geometry.py:ecliptic_to_equatorial", "src/sorcha/ephemeris/simulation_constants.py:create_ecl_to_eq_rotation_matrix"]}
{"id": "C35", "title": "Ephemeris interpolation between pickets", "statement": "The interpolated direction reproduces the computed ones at the three reference times, its weights add to one, and it is exact for motion that is quadratic in time.", "quantifier": "all distinct reference times and all target times", "why_tests_cant": "continuum of inputs", "anchors": ["src/sorcha/ephemeris/pixel_dict.py:lagrange3", "src/sorcha/ephemeris/pixel_dict.py:interpolate_unit_vectors"]}
{"id": "C36", "title": "Reference picket always brackets the visit time", "statement": "For visits in chronological order, or from the second update on, after the picket table has been updated for a visit at time t, t lies within half a picket interval of the central reference time, and the three reference times are equally spaced by the interval and the stored vectors are those of the reference times. The same holds in floating point numbers: there the reference times are exactly those of exact arithmetic. (A first step back in time leaves the table of the later time in place.)", "quantifier": "every sequence of visit times in any order", "why_tests_cant": "all sequences of visits; tests use chronological ones", "anchors": ["src/sorcha/ephemeris/pixel_dict.py:update_pickets"]}
{"id": "C37", "title": "DES discovery rule", "statement": "Every row kept by the DES discovery filter belongs to an object with nine nights, or with seven nights, an arc of more than half a year after leaving out any one night, and a triplet of nights within the window for its distance; all rows of an object are kept or none, independently of the other objects; the result is ordered by time. Conversely an object with nine nights is kept, and one with seven or eight nights and the arc iff three of its successive nights are within the window and count, where three successive nights count iff both their gaps are less than 999 days and shorter than those of all that counted before; the first three nights thus always do. (So objects whose triplet comes later can be lost, even by adding an observation.)", "quantifier": "every table", "why_tests_cant": "all tables", "anchors": ["src/sorcha/modules/DESDiscoveryFilter.py:DESDiscoveryFilter"]}
{"id": "C38", "title": "Configuration: fading function, expert cuts, saturation limits, linking are validated", "statement": "A configuration file is accepted only if every section has known keys only and values of the documented kind: numbers where numbers are needed, listed choices, fading width in (0, 0.5] and peak in [0, 1] given both or neither (outside DES), fill factor in [0, 1] and radius not negative, SNR and magnitude limits not negative and not both, one saturation limit or one per filter, all seven linking variables with valid values or none; conversely such a file is accepted, with those values and the defaults for the rest. With an accepted saturation section the saturation filter does not fail. (NaN passes every bound; the chunk size may be zero or negative; for an unknown survey the effect switches stay texts, which count as on; a file without SIMULATION section is rejected even for external ephemerides.)", "quantifier": "every combination of keys and values", "why_tests_cant": "all configurations", "anchors": ["src/sorcha/utilities/sorchaConfigs.py:fadingfunctionConfigs", "src/sorcha/utilities/sorchaConfigs.py:expertConfigs", "src/sorcha/utilities/sorchaConfigs.py:saturationConfigs", "src/sorcha/utilities/sorchaConfigs.py:linkingfilterConfigs"]}
{"id": "C39", "title": "Orbit files are validated", "statement": "A block of the orbit file is accepted iff it is empty or all its rows have the same recognised FORMAT, its columns are exactly FORMAT and the eight elements of the format, and no row has (Keplerian) e < 0, e >= 1 or a < 0, (cometary) q < 0 or e < 0; a file is accepted iff every block is. (NaN, zero and infinity pass; the format need only be the same within a block, so that whether a mixed file is accepted depends on the chunk size.)", "quantifier": "every table", "why_tests_cant": "all tables", "anchors": ["src/sorcha/readers/OrbitAuxReader.py:OrbitAuxReader"]}
{"id": "C40", "title": "Pointing database matching", "statement": "The visits used are exactly those of the query's answer in an observing filter, with start and midpoint half a visit apart; each observation is combined with the visits of its FieldID, in order, observations without one are dropped, a time off by more than the tolerance aborts; with unique FieldIDs each observation appears at most once; the run's own ephemerides always match; what a row gets does not depend on other rows. (The tolerance is relative, about half a day.)", "quantifier": "every pair of tables", "why_tests_cant": "all tables", "anchors": ["src/sorcha/modules/PPMatchPointingToObservations.py:PPMatchPointingToObservations", "src/sorcha/modules/PPReadPointingDatabase.py:PPReadPointingDatabase"]}
{"id": "C41", "title": "Main filter and colour columns", "statement": "With a header ending in a line break, the parameter file is accepted iff the letter after the first H_ in the header is one of the observing filters, there are two columns or more, and each observing filter after the first in the configuration has its colour column f-main; the main filter is the letter of the first H_x column if H_ occurs in no earlier column name. (If the main filter is not listed first in the configuration, complete files are rejected and incomplete ones accepted; a header without line break loses its last character.)", "quantifier": "every header and filter list in any order", "why_tests_cant": "all headers and filter orders", "anchors": ["src/sorcha/modules/PPGetMainFilterAndColourOffsets.py:PPGetMainFilterAndColourOffsets"]}
{"id": "C42", "title": "Combining results into one database", "statement": "If the result databases have the same columns and the new database is not the first file found, create-sqlite produces a table with these columns that contains every row of every other database found, once, and nothing else, whether or not the new database existed; a database whose rows have another number of values stops the command. (If the new database is found first the command stops or uses outdated column names; columns in another order are mixed up.)", "quantifier": "every directory tree of result databases", "why_tests_cant": "all trees", "anchors": ["src/sorcha/utilities/createResultsSQLDatabase.py:create_results_table"]}
{"id": "C43", "title": "Log checker", "statement": "check-logs reports a run as successful iff the last line of its log ends with the completion message, and reports the last line otherwise; a log cut off before the message is complete, at whatever point, is never reported as successful. (One empty log stops the whole check.)", "quantifier": "every set of log files", "why_tests_cant": "all logs", "anchors": ["src/sorcha/utilities/check_output_logs.py:check_all_logs", "src/sorcha/utilities/sorchaGetLogger.py:sorchaGetLogger"]}
{"id": "C44", "title": "Meta-kernel path splitting is lossless", "statement": "The directory written to the meta kernel is the cache directory split into pieces of at most 79 characters joined by the SPICE continuation, and reading it gives the directory back if it has no quote; the kernels are listed in order under their names relative to that directory, provided the directory's name does not occur again in them.", "quantifier": "every path", "why_tests_cant": "all strings", "anchors": ["src/sorcha/utilities/generate_meta_kernel.py:_split_kernel_path_str"]}
{"id": "C45", "title": "Observatory positions", "statement": "An observatory with a longitude, cos and sin value, none of them exactly zero, gets its geocentric position; one without gets none. Its barycentric position is the Earth's plus the rotated geocentric vector, its velocity the derivative of that. (A value of exactly zero, such as Greenwich's longitude, is taken as missing.)", "quantifier": "every observatory record", "why_tests_cant": "all records", "anchors": ["src/sorcha/ephemeris/simulation_parsing.py:convert_to_geocentric"]}
{"id": "C46", "title": "Angles are reduced modulo a full turn", "statement": "principal_value changes an angle by a whole number of turns, keeps its sign and returns an angle of magnitude below one turn.", "quantifier": "all angles", "why_tests_cant": "continuum of inputs", "anchors": ["src/sorcha/ephemeris/orbit_conversion_utilities.py:principal_value"]}
{"id": "C47", "title": "Orbit elements from a state vector", "statement": "The perihelion distance and eccentricity derived from a state vector satisfy the conic equation: q <= r for every reachable position on the orbit, q = a(1-e) for bound orbits, e >= 0; and converting elements to a state and back returns the elements, angles up to whole turns and the time of perihelion up to whole periods, if the orbit is inclined but not by 90 degrees, its node is off the coordinate axes and the object is away from the apsides, the nodes and the positions a quarter turn from them.", "quantifier": "all state vectors with non-zero angular momentum", "why_tests_cant": "continuum of inputs", "anchors": ["src/sorcha/ephemeris/orbit_conversion_utilities.py:universal_cometary", "src/sorcha/ephemeris/orbit_conversion_utilities.py:universal_cartesian"]}
{"id": "C48", "title": "On-sky rate decomposition", "statement": "Away from the poles the reported rates are the time derivatives of right ascension times cos(dec), of declination and of range for the line of sight between the given states, up to terms of second order in velocity over light speed; the phase angle is the angle Sun-object-observer and the state columns are differences of the given states.", "quantifier": "all states of object, observer and Sun, all motions with differentiable direction, away from the poles", "why_tests_cant": "continuum of inputs", "anchors": ["src/sorcha/ephemeris/simulation_driver.py:get_residual_vectors"]}
{"id": "C49", "title": "Stumpff functions", "statement": "The four values returned are the Stumpff functions c_k(x) = sum_j (-x)^j / (k+2j)! of the argument: for exact arithmetic the truncation error stays below 1e-17 (1+|x|), absolute for x >= 0 and relative for x < 0, and the doubling used to undo the argument reduction is exact.", "quantifier": "all real arguments", "why_tests_cant": "continuum of inputs, unbounded number of reductions", "anchors": ["src/sorcha/ephemeris/orbit_conversion_utilities.py:stumpff"]}
{"id": "C50", "title": "Boolean configuration values", "statement": "A flag that is validated is read as true for exactly true/True/1/yes/y, false for exactly false/False/0/no/n (ignoring surrounding blanks), otherwise the run aborts; a missing flag takes its default. (Flags that a given survey does not validate, and bright_limit_on, stay texts, and \"False\" counts as on.)", "quantifier": "every string", "why_tests_cant": "all strings", "anchors": ["src/sorcha/utilities/sorchaConfigs.py:cast_as_bool", "src/sorcha/utilities/sorchaConfigs.py:cast_as_bool_or_set_default"]}
{"id": "C82", "title": "Which object IDs are read unchanged", "statement": "IDs that are ordinary words (with a character other than digits, signs, points, the letters e and E and blanks, and not one of the words for a missing value, a truth value or an infinite number) or plainly written whole numbers of at most 18 digits, in any mixture, are read unchanged, as one column and in every part of it that is read on its own. The condition under which the other properties speak of IDs that are unchanged by being read is the same as: however the IDs are put together into columns, they are read unchanged. A column with an ordinary word in it is read unchanged but for the words for missing values, which all become nan; a column of whole numbers, however written, is read as their plain writings, so that different IDs that stand for the same number become one; a column of truth values, however written, is read as True and False. (NA and null become the same ID, so do TRUE and true; 007 becomes 7 and 1 becomes 1.0 depending on what is read with them.)", "quantifier": "every list of IDs, every way to put IDs together into blocks and files", "why_tests_cant": "all texts and all mixtures of texts; the result depends on which rows are read together", "anchors": ["src/sorcha/readers/CSVReader.py:CSVDataReader._read_rows_internal", "src/sorcha/readers/CSVReader.py:CSVDataReader._build_id_map", "src/sorcha/readers/ObjectDataReader.py:ObjectDataReader._validate_object_id_column"]}
{"id": "C83", "title": "What is written to CSV files can be read back", "statement": "Whatever the fields of a table are (names with commas, quotation marks, line ends, blanks, any other characters), a CSV file written by a run is read back line by line and field by field as it was written; so is the table in memory through which all generated ephemerides pass. This holds for the results, ephemerides and statistics of every run that finishes, after any history of runs. A file left by a run that was interrupted, cut at any point, is read as the complete lines in order, with perhaps one line behind them that is cut short, or is refused (only if there is a quotation mark in the line that is cut). (The last number of such a file may be another number: 21.5 is read as 21. In a table with only one column, rows of blanks only are lost.)", "quantifier": "every table, every text in every field, every point at which the file is cut, every history of runs", "why_tests_cant": "all texts and all crash points; a sample has no name with quotation marks in it", "anchors": ["src/sorcha/modules/PPOutput.py:PPOutWriteCSV", "src/sorcha/modules/PPStats.py:stats", "src/sorcha/ephemeris/simulation_driver.py:create_ephemeris", "src/sorcha/ephemeris/simulation_driver.py:write_out_ephemeris_file", "src/sorcha/readers/CSVReader.py:CSVDataReader._read_rows_internal"]}
{"id": "C84", "title": "Blocks and objects are read from the text of the file, whatever is in its fields", "statement": "Let an input file, in the format with commas (csv or comma) or with blanks (whitespace: spaces and tabs, any number of them between fields and at the end of a line), consist of at most 101 notes (lines that are not blank, do not begin with ObjID and have no quotation mark at their start or directly behind a separator), a header that begins with ObjID and a separator and has more names, and rows with as many fields as the header whose ID is not empty, each field plain or in quotation marks with any characters in it (separators, doubled quotation marks, line ends), lines ending as on Unix or as on Windows, the last one perhaps not ended. With blanks, a line of a row may be indented if its ID is not in quotation marks. Then a block that starts at row k with size n is exactly rows k to k+n-1, field by field; the list of IDs has one ID per row, in order; and asking for objects gives exactly the rows with their IDs, in the order of the file. Every table with commas and the IDs first that Sorcha writes is such a file. What C12 and C13 say about files given by lines therefore holds for the texts. (A single quotation mark behind a separator in a note makes every block fail although the header is found; with an empty ID or an indented ID in quotation marks, blocks further down may be other rows; a blank line at the end makes objects fail.)", "quantifier": "every such text, every block start and size, every set of IDs", "why_tests_cant": "Tests read a few small tables without quoted fields; whether skipping lines by number and splitting by quotes agree is a question about all texts.", "anchors": ["src/sorcha/readers/CSVReader.py:CSVDataReader._find_and_validate_header_line", "src/sorcha/readers/CSVReader.py:CSVDataReader._read_rows_internal", "src/sorcha/readers/CSVReader.py:CSVDataReader._build_id_map", "src/sorcha/readers/CSVReader.py:CSVDataReader._read_objects_internal"]}
{"id": "C85", "title": "From the command line and the texts of the input files to the text of the results", "statement": "Let 'sorcha run' finish with input in texts (with commas or blanks) and CSV output (at least two columns; sqlite output: see the end) and a configuration text without random features and linking, in a directory with at most one earlier file of results and of ephemerides, and let the orbit, parameter and ephemeris files be texts of tables as in C84 whose IDs are read unchanged, with each object once in the orbits and the same objects in the parameters. Then the text at the place given by the command line, read as CSV, is the header of the wanted columns and exactly one line for each row that passes all filters of the configuration, among the rows of the ephemeris file of the listed objects (or, with generated ephemerides, those made for each listed object that the faint object filter keeps), with its values rounded as configured; with no such row there is no file. Neither the chunk size nor the layout, place or quoting of the input files matters: two runs on the same tables give the same header and lines in some order, also with linking. However a run ends that was let start, also if it fails or is killed, its file of results is missing, unreadable or consists of the header and lines for different rows that pass the filters, perhaps with one line behind them cut short, and all files that are no outputs of the run are as before. With sqlite output the same holds of the table in the database: it has the wanted columns (but never one named level_0), exactly one line for each such row, and the three indices; the chunk size does not matter; and after a run that was stopped (but not inside a transaction) it has complete lines for different such rows and nothing else.", "quantifier": "every command line, configuration text, input text, chunk size and point at which a run is stopped or fails", "why_tests_cant": "all texts and settings at once and all crash points; end-to-end tests compare a handful of runs with stored results", "anchors": ["src/sorcha_cmdline/run.py:main", "src/sorcha_cmdline/run.py:execute", "src/sorcha/sorcha.py:runLSSTSimulation", "src/sorcha/readers/CombinedDataReader.py:CombinedDataReader.read_block", "src/sorcha/readers/CombinedDataReader.py:CombinedDataReader.read_aux_block", "src/sorcha/modules/PPOutput.py:PPWriteOutput"]}
{"id": "C86", "title": "The same run again gives the same files, whatever happened before", "statement": "Take two directories whose files agree but for outputs of one command (results, ephemerides, statistics; these have different names, and there is at most one file of results and of ephemerides), and in each of them any history of 'sorcha run' commands that write their outputs to the same places, of whatever inputs and settings, each finished, refused, failed or killed at any point. If the command, with or without -f, finishes after either history with the same seed, all files are the same in both directories, character by character, also with random features and linking; sqlite results have the same rows in the same order. If it finishes in one of them, then in the other, however it ends once it was let start, it leaves early stages of the same files and no other changes; and with -f it can finish there too, if no input of it is in a place of its outputs. (Not after a sqlite transaction was interrupted, see C65. With sqlite the last part needs the three indexed columns among the wanted ones.)", "quantifier": "every command line, every content of the directories, every history of commands and every point at which each of them ends", "why_tests_cant": "all histories and crash points; a test can repeat a run only in directories it prepared", "anchors": ["src/sorcha_cmdline/run.py:execute", "src/sorcha/sorcha.py:runLSSTSimulation", "src/sorcha/utilities/sorchaCommandLineParser.py:sorchaCommandLineParser", "src/sorcha/modules/PPOutput.py:PPWriteOutput", "src/sorcha/utilities/sorchaModuleRNG.py:PerModuleRNG"]}
{"id": "C87", "title": "Saved ephemerides give the same results as the run that made them", "statement": "Let a 'sorcha run' that makes its ephemerides and saves them (-ew, with commas, or with blanks if no ID, name or value is empty or has a tab) finish, and let a second one finish, in any directory, that is given the saved file or a copy of it (-er), tables of the same objects and parameters in any layout, the same visits, seed and settings but for the source of the ephemerides. If every number of the saved ephemerides is read back as it was computed, then both leave the same results (CSV text or sqlite rows) and statistics, character by character, also with random features, linking and faint objects left out; with another chunk size and without random features the CSV results have the same lines in some order. (If all objects of the first run were left out as faint, no file is saved and there is no second run.)", "quantifier": "every pair of command lines, configuration texts, input tables, directories, seeds and chunk sizes", "why_tests_cant": "an agreement of two paths through the program on all tables and settings; a test can compare the paths for a few objects only", "anchors": ["src/sorcha/ephemeris/simulation_driver.py:write_out_ephemeris_file", "src/sorcha/ephemeris/simulation_driver.py:create_ephemeris", "src/sorcha/readers/CombinedDataReader.py:CombinedDataReader.read_block", "src/sorcha/readers/CombinedDataReader.py:CombinedDataReader.read_aux_block", "src/sorcha/sorcha.py:runLSSTSimulation"]}
{"id": "C88", "title": "A run on valid inputs finishes", "statement": "Let a Rubin 'sorcha run' have its inputs in place (they exist, are not in a place of its outputs, the directories are directories, -s rubin_sim), no old outputs unless -f is given, a configuration that is accepted (text inputs, results not as HDF5, chunk size at least one, limits given if the saturation filter is on), tables of the same objects, each orbit once, that pass the checks of their columns, result columns that exist (for sqlite also the indexed ones), and observations that can be computed on, at the times of the pointing table (for linking: finite settings, plain IDs, times well inside the nights). Then the command is accepted, no stage of any round stops it, and a run that nobody kills finishes. (An input in a place of the outputs is deleted by -f before it is read: such a run is not refused, does not finish, and the input is lost.)", "quantifier": "every command line, configuration text, directory, set of input tables, chunk size and seed that meets the conditions", "why_tests_cant": "the absence of errors on all valid inputs cannot be tested; each stage could fail on some table it has never seen", "anchors": ["src/sorcha_cmdline/run.py:execute", "src/sorcha/sorcha.py:runLSSTSimulation", "src/sorcha/utilities/sorchaArguments.py:sorchaArguments", "src/sorcha/utilities/fileAccessUtils.py:FindFileOrExit", "src/sorcha/modules/PPOutput.py:PPWriteOutput"]}
{"id": "C89", "title": "From the orbits to the results", "statement": "Let a Rubin 'sorcha run' make its own ephemerides, from orbit and parameter tables in CSV as the readers take them (same objects, each orbit once, IDs unchanged by being read), for visits in order of time, with integrators whose answers do not depend on earlier questions, without random features and linking. When it finishes, its results (CSV text read back, or database table) are the wanted columns and one line for each row that passes all filters, where the rows are: for each object that is not left out as faint, one for each visit in which it is found, with what its own integrator answers at that visit; found means as in C61, by its directions at reference times that are the same for all objects, whatever the chunk size. A run that is stopped leaves a part of that. Two such runs with different chunk sizes have the same lines in some order, also with linking and in whatever order the visits are, if the mid-times are distinct. On valid inputs (C88), for the visits of the pointing table (unique numbers, consistent times), the run finishes whatever the integrators answer.", "quantifier": "every command line, configuration, set of objects, list of visits, integrator, chunk size, previous content of the directory and moment of a stop that meet the conditions", "why_tests_cant": "the state of the generator is carried over visits and objects, the objects come in chunks, the rows pass all stages and are written in pieces; that together nothing is lost, doubled or mixed between objects is not visible in tests of the parts", "anchors": ["src/sorcha/sorcha.py:runLSSTSimulation", "src/sorcha/ephemeris/simulation_driver.py:create_ephemeris", "src/sorcha/ephemeris/pixel_dict.py:PixelDict", "src/sorcha_cmdline/run.py:execute", "src/sorcha/modules/PPOutput.py:PPWriteOutput"]}
{"id": "C90", "title": "The arguments of the other commands", "statement": "`sorcha init`, `bootstrap`, `cite`, `demo prepare`, `outputs create-sqlite` and `outputs check-logs` go to work exactly if their arguments (for the last three those after the command) are settings written in one of the ways allowed: names in full or abbreviated without ambiguity, values behind the name, a blank or `=`, one-letter switches together; with what is required among them. They use the value given last or the default, and a switch counts exactly if it is given. `sorcha demo howto` takes no arguments, and without arguments `sorcha demo` and `sorcha outputs` print their help. Everything else ends without touching a file. So without -f (for check-logs --force, and a report named *.csv) init, demo and check-logs change nothing that exists, whatever the arguments and whenever they are ended; the files asked for arrive in the directory said, and nothing else changes; `sorcha cite` changes only sorcha_citation.txt there, to the text or an initial part of it, and nothing with -p. (Known: check-logs takes -f for the directory, so that -force searches another directory without a message; cite overwrites; -v of init has no effect.)", "quantifier": "every list of arguments, every disk, every answer typed in, every moment at which the command is ended", "why_tests_cant": "there are unboundedly many ways to write the same settings and to write none; tests try a few, and never that all others leave the files alone", "anchors": ["src/sorcha_cmdline/init.py:main", "src/sorcha_cmdline/demo.py:main", "src/sorcha_cmdline/bootstrap.py:main", "src/sorcha_cmdline/cite.py:main", "src/sorcha_cmdline/cite.py:execute", "src/sorcha_cmdline/outputs.py:main", "src/sorcha_cmdline/outputs.py:cmd_outputs_check_logs"]}
{"id": "C91", "title": "A DES run from the command line to the results", "statement": "Let `sorcha run -s DES` (or `-s des`) finish, with CSV or sqlite output, its input files being texts of CSV tables that list the same objects. Then the results have one line for each of certain observations of the survey: each is of a visit, of an object of the inputs, in view and within the limits on magnitude, and there at most once; it moves as fast as the cuts allow, its object is seen at a distance within the cuts, and, with the discovery filter, the lines of its object meet the rule of the survey. Without random features and the visits footprint these are exactly all such observations (with the discovery filter: of exactly the objects that meet the rule), whatever the chunk size: two runs on the same tables that differ in it leave the same lines. However a run with CSV output ends that has started, each complete line of its results is of such an observation, and files that are no outputs are left alone. Known failure: with `output_columns = basic`, which the configuration accepts, no run with an observation to output can finish, as DES runs do not compute the uncertainties these columns want.", "quantifier": "all arguments, configurations, contents of the input files, chunk sizes, random generators, footprints and points at which a run ends", "why_tests_cant": "The claim connects the arguments given with the bytes of the results over all input texts, chunk sizes and interruptions; tests of the code call single filters on a few rows, and no test runs DES from the command line with two chunk sizes.", "anchors": ["src/sorcha/des.py:runDESSimulation", "src/sorcha_cmdline/run.py:execute", "src/sorcha/modules/PPOutput.py:PPWriteOutput", "src/sorcha/readers/CombinedDataReader.py:CombinedDataReader"]}
{"id": "C92", "title": "Ephemerides saved with blanks are read back as they were written", "statement": "A table with the IDs first and at least one more column, saved with eph_format = whitespace, in which no field is empty or has a tab and whose column names have letters or digits and no line ends, is the text of an input file with blanks (C84): every block, the list of IDs and the objects asked for are read from it field by field as they were written, whatever else is in the fields (blanks, quotation marks, line ends). (A missing value is written as nothing, and the next value of the line is read in its place; an ID with a tab is read as two fields.)", "quantifier": "every such table, every block start and size, every set of IDs", "why_tests_cant": "Tests save a few numbers; whether what is quoted by the writer is just what the reader needs quoted is a question about all texts.", "anchors": ["src/sorcha/ephemeris/simulation_driver.py:write_out_ephemeris_file", "src/sorcha/modules/PPOutput.py:PPOutWriteCSV", "src/sorcha/readers/CSVReader.py:CSVDataReader._read_rows_internal", "src/sorcha/readers/CSVReader.py:CSVDataReader._read_objects_internal"]}
{"id": "C93", "title": "The statistics file of a whole run accounts for the results", "statement": "Let `sorcha run --st NAME` finish, for Rubin with given or generated ephemerides or for DES, with CSV or sqlite output, its inputs as in C85 and C91, the names of its outputs differing. Then there are rows such that the results have a line for each of them, and NAME.csv in the output directory is the statistics of these very rows: with no row there is no file; else it is read back as one header and one line for each object with a row and each filter of the pointing database, no pair twice, whatever the number of rounds; number_obs is the number of rows of the object in the filter, so that the lines together count each row of the results just once; the magnitudes are the least, greatest and middle ones of these rows before rounding for the output (empty if none is known), the phase angles the least and greatest ones, and with linking the date is that of the first row with one and, if unlinked objects are kept, object_linked says whether all rows of the pair are linked (empty for a pair without rows). Without random features these rows are the observations C85 says. (Lines with infinite magnitudes are described except for their magnitudes.)", "quantifier": "all arguments, configurations, contents of the input files, chunk sizes and tables of survey visits", "why_tests_cant": "The file is appended to once per chunk, and whether it accounts for the results depends on each object being in one chunk, over all inputs and chunk sizes; the tests of the code call the function once on a small table.", "anchors": ["src/sorcha/modules/PPStats.py:stats", "src/sorcha/sorcha.py:runLSSTSimulation", "src/sorcha/des.py:runDESSimulation", "src/sorcha_cmdline/run.py:execute"]}
{"id": "C94", "title": "One population in several runs, and the combined database", "statement": "Let `sorcha run` finish on a population (for Rubin, with given or generated ephemerides, without random features, with or without linking, CSV or sqlite output, its inputs as in C85, each object observed at most once at a time), and let other runs finish on parts of it, with the same settings but for the chunk size: each object is in just one part, with the rows it has in the whole, and, if ephemerides are given, with its own ephemerides in the same order; a part may be given the whole ephemeris file. Then the results of the parts have together just the lines of the results of the whole run, however the objects are divided and whatever the chunk sizes; a part without lines has no file. When such runs follow each other and no output of a later run is named like a result of an earlier one, each leaves the results of the others in place. When `sorcha outputs create-sqlite` then succeeds on the directory with the databases of the parts (with no other database there whose name begins with the stem but the new one, and that not found first), the table sorcha_results it makes has the columns and the lines of the whole run's database.", "quantifier": "all populations, divisions into parts, configurations, contents of the input files, chunk sizes, tables of survey visits, histories of runs and orders in which the databases are found", "why_tests_cant": "It compares different executions of the whole program on different inputs, and then another program on what they leave; it depends on no step letting one object affect another, over all populations and divisions; tests run single populations.", "anchors": ["src/sorcha/sorcha.py: runLSSTSimulation", "src/sorcha_cmdline/run.py: execute", "src/sorcha/utilities/createResultsSQLDatabase.py: create_results_table, create_results_database", "src/sorcha_cmdline/outputs.py: cmd_outputs_create_sqlite"]}
{"id": "C95", "title": "check-logs tells which runs went through", "statement": "Let any number of runs of `sorcha run` have been begun, for Rubin or DES, each of which was refused, ended with an error, was killed at any moment or came to its end, and let their logs be the logs below a directory. When `sorcha outputs check-logs` ends normally on this directory and was not refused (with no file for the report or one with a name ending in .csv), then a run that it does not name as failed has left all its files as a run that came to its end does (only the end of its log may be missing), and a run that it names as failed, on the screen or in the report, did not come to its end; each run named is one of these. If all runs came to their ends it says that all is good. So when the parts of a population were run and the command finds all well, their results have together just the lines of the results of one run on the whole population (as in C94). This holds if the texts that a run logs on its way, such as names of files and error messages, do not contain the completion message.", "quantifier": "all sets of runs, with all arguments, files, configurations and messages, all moments at which each run may be killed, also in the middle of a line of the log, and all settings of the command", "why_tests_cant": "It relates what one program says to all that other executions did before they ended, at every moment at which they may have ended; a killed run must never be taken for a finished one, whatever it had written. Tests look at a few given log files.", "anchors": ["src/sorcha/utilities/check_output_logs.py: check_all_logs, check_output_logs", "src/sorcha_cmdline/outputs.py: cmd_outputs_check_logs", "src/sorcha/sorcha.py: runLSSTSimulation", "src/sorcha/utilities/sorchaGetLogger.py: sorchaGetLogger"]}
{"id": "C96", "title": "Every run keeps its log", "statement": "Let runs of `sorcha run` follow one another, for Rubin or DES, each with arguments it understands and an output directory that is there, each with -f or not, with or without statistics and saved ephemerides, and each refused, ended with an error, killed at any moment or come to its end. If no stem has a dot, no stem and no name for saved ephemerides ends in -sorcha, and no two runs with the same directory and stem have the same process number and begin in the same second, then each run has a log of its own in its output directory, with what the run has logged, which no later run deletes or changes, with -f or not; and no other file comes to be there that `sorcha outputs check-logs` takes for a log. So if there was no log before and all logs are below one directory, check-logs on it tells which of the runs went through, as in C95. The condition on dots is needed: a run without -f whose stem is the name for its saved ephemerides, a dot and more finds its own log and is always refused.", "quantifier": "all sequences of runs, with all arguments, files and configurations, and all ways and moments in which each may end", "why_tests_cant": "The logs are safe only if no way of naming outputs, in any order of runs, matches the name of any log; this is about all names and histories. Tests run in an empty directory with one stem.", "anchors": ["src/sorcha/utilities/sorchaGetLogger.py: sorchaGetLogger", "src/sorcha/utilities/sorchaCommandLineParser.py: warn_or_remove_file, sorchaCommandLineParser", "src/sorcha_cmdline/run.py: execute", "src/sorcha/utilities/check_output_logs.py: check_all_logs, check_output_logs"]}
{"id": "C97", "title": "Parts of a population, run again until they go through", "statement": "Let the parts of a population be run one after another with `sorcha run` for Rubin, in any order and each as often as one likes, each run with -f or not and each refused, ended with an error, killed at any moment or come to its end. Let names be as in C96, results, saved ephemerides and statistics of a run have different names, any two runs have either the same names for their outputs or no output in common, at most one file of old results and one of old ephemerides be there for each at the start, and the inputs be apart from all outputs and logs. Then the outputs of the last run for each part are as it left them, and if the last run for each part went through, the files of results that are there have together the same lines, in CSV or in a database, as those of one run on the whole population, under the conditions of C94 (no random features, ephemerides given or calculated for each object alone). That a last run went through can be seen from `sorcha outputs check-logs`: it did if check-logs, which may name other runs as failed, does not name it. (Old runs without a completion message stay named: check-logs never says again that all is well.)", "quantifier": "all populations, all divisions into parts, all sequences of runs for them, and all ways and moments in which each may end", "why_tests_cant": "What is left of killed runs must not get into later results, for every order of runs and every moment of the kill, and no later run of another part may change what is there. Tests run one simulation once.", "anchors": ["src/sorcha/utilities/sorchaCommandLineParser.py: warn_or_remove_file, sorchaCommandLineParser", "src/sorcha/sorcha.py: runLSSTSimulation", "src/sorcha/modules/PPOutput.py: PPWriteOutput, PPOutWriteCSV, PPOutWriteSqlite3", "src/sorcha_cmdline/run.py: execute", "src/sorcha/utilities/check_output_logs.py: check_output_logs"]}
{"id": "C98", "title": "A population in several DES runs, run again until they go through", "statement": "Let a run of `sorcha run -s DES` on a population finish, and let runs on parts of it finish, with each object in just one part, with the rows and the ephemerides (given or calculated for each object alone) it has in the whole run, and with the same settings but for the chunk size: with or without distance and motion cuts and the discovery filter, but without random features and the visits footprint. Then the results of the parts have together the same lines, in CSV or in a database, as those of the whole run. This is so as well if the parts are run one after another in any order and each as often as one likes, each run with -f or not and each refused, ended with an error, killed at any moment or come to its end, if the last run for each part went through, with names and inputs as in C97: the outputs of the last run for each part stay as it left them. A last run went through if `sorcha outputs check-logs`, which may name other runs as failed, does not name it. (Old runs without a completion message stay named.)", "quantifier": "all populations, all divisions into parts, all sequences of runs for them, and all ways and moments in which each may end", "why_tests_cant": "The discovery filter and the cuts look at all rows of an object together; that they never look at those of another, for any division and chunk sizes, and that nothing of a killed run stays, is about all inputs and histories. Tests run one simulation once.", "anchors": ["src/sorcha/des.py: runDESSimulation", "src/sorcha/modules/DESDiscoveryFilter.py: DESDiscoveryFilter", "src/sorcha/modules/PPDistanceandMotionCuts.py: distance_cut, motion_cut", "src/sorcha/utilities/sorchaCommandLineParser.py: warn_or_remove_file, sorchaCommandLineParser", "src/sorcha/modules/PPOutput.py: PPWriteOutput, PPOutWriteCSV, PPOutWriteSqlite3", "src/sorcha_cmdline/run.py: execute", "src/sorcha/utilities/check_output_logs.py: check_output_logs"]}
{"id": "C99", "title": "Reading objects from a database", "statement": "Let the table `interm` of a database have a column ObjID and another one, with distinct IDs, none missing, that are texts in a text column, or, in a numeric column, whole numbers and texts that are no numbers. However often and in whatever order a DatabaseReader is asked, whether it caches or not, and however SQLite orders what it may order as it likes: read_rows(start, size) gives the rows start .. start+size-1 of the one listing of the table by ID (start 0 without size: all), so that reading block by block gives each row once; read_objects(ids) gives, in some order, exactly the rows of these objects. If IDs occur more than once a block has still the IDs at its place in the listing, and rows of the table only. A reader that does not cache and is told to refuse missing values never returns one. (Shown to fail otherwise: rows with one ID may be given twice and not at all; a number asked for in another form, as 007, is found as 7 unless the reader caches; numbers in a column without type are not found; a missing ID turns the others of its block into fractions; a start without size, a negative size and many IDs are treated differently with and without a cache; a caching reader refuses missing values only the first time.)", "quantifier": "all tables, all sequences of calls, all orders in which SQLite may give rows", "why_tests_cant": "SQL leaves the order of rows open, and the type of a column changes what a comparison means; tests read one table with distinct texts as IDs, in one order.", "anchors": ["src/sorcha/readers/DatabaseReader.py: DatabaseReader._read_rows_internal, _read_objects_internal", "src/sorcha/readers/ObjectDataReader.py: read_rows, read_objects, _process_and_validate_input_table"]}
{"id": "C100", "title": "Units of a detector", "statement": "The corners of a Detector that was made in radians can be converted to degrees and back as often as one likes: only the last conversion counts, and back in radians it is the same detector. A point is on the detector in radians just if the same point in degrees is on the detector in degrees, for the same edge threshold in arcseconds, when the tolerance, an area, is converted too; with the tolerance left as it is, points on the detector in degrees are on it in radians, but not the other way round. (Shown to fail: a detector cannot be made in degrees - with the units `degrees` the constructor fails, with `deg` the numbers are taken as radians -, and rotateDetector projects the corners once more, so that even rotating by 0 makes a detector larger, and forgets the units.)", "quantifier": "all detectors, all sequences of conversions, all points, tolerances and thresholds", "why_tests_cant": "A continuum of detectors and points, and any number of conversions; tests convert one detector once.", "anchors": ["src/sorcha/modules/PPFootprintFilter.py: Detector.__init__, Detector.ison, Detector.rad2deg, Detector.deg2rad, Detector.rotateDetector"]}
{"id": "C101", "title": "Runs at the same time", "statement": "Any number of sorcha run processes, of either survey, may be started on the same files and run at the same time, in any order of their steps, each of them finishing, refused, failing or killed at any point. If no file is an output of two of them and none reads an output of another, each ends in a way it could have ended alone on the files of the beginning, with the same outcome, log and outputs, and no other file changes. If all of them finish, the files and logs do not depend on the order of the steps. What a run reads is what its command line names and what the calculations are set up with. Parts of a population run at the same time have therefore together the lines of the run on the whole, for given and generated ephemerides and for both surveys, under the conditions of C94 and C98. Runs that share a name are not kept apart: two of them, without -f, can both pass the check that no results exist and both finish, and the results file then has the lines of both, whereas one after the other the second is refused.", "quantifier": "all numbers of processes, all their arguments and inputs, all interleavings of their steps, all points at which they are killed", "why_tests_cant": "The orders in which the steps of several processes can come grow without bound, and a test sees the one that the machine happens to produce.", "anchors": ["src/sorcha_cmdline/run.py: execute", "src/sorcha/utilities/sorchaCommandLineParser.py: sorchaCommandLineParser, warn_or_remove_file", "src/sorcha/utilities/fileAccessUtils.py: FindFileOrExit", "src/sorcha/sorcha.py: runLSSTSimulation", "src/sorcha/des.py: runDESSimulation", "src/sorcha/modules/PPOutput.py: PPWriteOutput, PPOutWriteCSV, PPOutWriteSqlite3"]}
{"id": "C102", "title": "Logs of runs at the same time", "statement": "While any number of sorcha run processes as in C101 are going on, each with its log and its log of errors among the files, the logs do not disturb the runs: a process that is over has ended as it could have ended alone on the files of the beginning, and its log holds what it would then have logged; all other files are as they were. sorcha outputs check-logs may be called at any moment, on a directory above all the logs in which there was no log before: a run that it calls successful has left the outputs of a run that finished, and one that it calls failed has not come to its end, which includes the ones that are still at work; if all runs that were started have finished, it says that all is well. As long as one of the runs has opened its log and written nothing to it, the command fails and tells of none of them. As soon as it says so of the parts of a population, their results have together the lines of the run on the whole, for given and generated ephemerides and for both surveys. Names must not clash as in C96, no run may read a file whose name ends like that of a log, and the completion message must not occur in what is logged on the way.", "quantifier": "all numbers of processes, all interleavings of their steps, all points at which they are killed, every moment at which check-logs is called", "why_tests_cant": "The moments at which check-logs can be called between the steps of several processes grow without bound; a test can only wait until all are over.", "anchors": ["src/sorcha_cmdline/run.py: execute", "src/sorcha/utilities/sorchaGetLogger.py: sorchaGetLogger", "src/sorcha/utilities/check_output_logs.py: check_output_logs, find_all_log_files, check_all_logs", "src/sorcha_cmdline/outputs.py: cmd_outputs_check_logs", "src/sorcha/sorcha.py: runLSSTSimulation", "src/sorcha/des.py: runDESSimulation"]}
{"id": "C103", "title": "The instant for which positions are calculated", "statement": "The instant for which the positions at a visit are calculated (column fieldJD_TDB) is at most 5.3e-7 days, less than 0.046 s, from the midpoint of the visit, for every time in the years 1858 to 2132 and whatever the rounding of the sums, also if the midpoint is calculated from the start of the visit and its length of up to a day; a later visit never gets an earlier instant. (Limits: the time goes through a text with six decimals, so that visits up to 0.08 s apart that fall between the same two millionths of a day get the same instant; and because 32.184 s are 372.5 millionths of a day, for every time with at most six decimals the instant is at least 4.7e-7 days, 0.04 s, off.)", "quantifier": "every time of a visit in 1858 to 2132, every rounding that keeps order with relative error at most 2^-53, every conversion of time scales that keeps order and is within 2 ms", "why_tests_cant": "all times; the worst error is at times that a test does not single out", "anchors": ["src/sorcha/ephemeris/simulation_parsing.py:mjd_tai_to_epoch", "src/sorcha/modules/PPReadPointingDatabase.py:PPReadPointingDatabase", "src/sorcha/ephemeris/simulation_setup.py:precompute_pointing_information"]}
{"id": "C104", "title": "Comparing results with a reference", "statement": "compare_result_files finds a results file the same as a reference file exactly if they have as many rows and columns and every column of the results is in the reference and agrees with it in every row: texts are the same, numbers differ by at most 1e-8 plus 1e-5 of the reference's absolute value, infinities are the same, and no field is missing. The order of the columns makes no difference. A file is the same as itself exactly if no field in it is missing. (Limits: a file with a missing field differs from itself; exchanging results and reference can change the answer; the tolerance is relative, so that a time off by half a day or a right ascension off by 10 arcseconds counts as the same; as many columns of which the first has a name that the reference does not have lead to an exception instead of an answer.)", "quantifier": "every two tables of results", "why_tests_cant": "all tables with any number of rows and columns; tests use the function to decide, not to be decided", "anchors": ["src/sorcha/utilities/diffTestUtils.py:compare_result_files"]}
{"id": "C105", "title": "Right ascensions as floating point numbers", "statement": "Whatever floating point angle from -180 to 180 degrees the direction of an observation has: the right ascension in generated ephemerides is from 0 to 360 and the same angle up to whole turns and 2^-45 degrees, and it is below 360 unless the angle is negative and above -2^-44 degrees; the right ascension of a randomised position is at least 0, below 360 and the same angle up to whole turns and 2^-44 degrees. (Limit: for an angle between -2^-45 and 0 degrees the ephemerides have 360 itself, not 0.)", "quantifier": "every angle from -180 to 180 degrees, every rounding to a nearest double", "why_tests_cant": "all doubles; the failure is in an interval a test will not hit", "anchors": ["src/sorcha/ephemeris/simulation_geometry.py:vec2ra_dec", "src/sorcha/modules/PPRandomizeMeasurements.py:icrf2radec"]}
{"id": "C106", "title": "Help for authors of light curve and activity models", "statement": "The check of required columns that a light curve or activity model inherits lets a table pass, silently, iff it has all of them; otherwise it logs one message and raises a ValueError with the same text, which names the first missing one in the order of the list. A light curve model logs the text of any exception it is given. (Known failure: an activity model that is given an exception to log raises an AttributeError and logs nothing, unless the exception has an attribute 'value', which those of Python have not.)", "quantifier": "every list of required columns, every table, every exception", "why_tests_cant": "all lists of columns and exceptions", "anchors": ["src/sorcha/activity/base_activity.py:AbstractCometaryActivity", "src/sorcha/lightcurves/base_lightcurve.py:AbstractLightCurve"]}
{"id": "C51", "title": "Randomised measurements", "statement": "With randomisation on, every observation that stays (signal-to-noise above 2, if the default cut is on) keeps its true values and uncertainties, and its measured magnitudes differ from the true ones by a normal number, drawn for that observation and quantity only, times its own uncertainty; the measured position is the true direction displaced by a normal vector times its astrometric uncertainty. No random number is used twice. With trailing losses off the PSF magnitude equals the trailed one. With randomisation off, measured and true values agree and no row is removed.", "quantifier": "every table of observations, every random stream, every setting", "why_tests_cant": "continuum of values, unbounded tables; which draw belongs to which row is not visible in a sample", "anchors": ["src/sorcha/modules/PPRandomizeMeasurements.py:randomizeAstrometryAndPhotometry", "src/sorcha/sorcha.py:runLSSTSimulation"]}
{"id": "C52", "title": "Detector assignment from visit-specific footprints", "statement": "With a visit-specific footprint table, every row that is kept lies on a chip of its own visit (right ascension taken on the field's side of 0) and carries that chip's identifier and limiting magnitude; rows appear at most once and in their order; a row on a chip is kept whenever the visit has one chip or one of the chip's five reference points is among the three nearest. (That every row on a chip is kept, whatever else is in the chunk, is false.)", "quantifier": "every table of observations and visits", "why_tests_cant": "unbounded tables, every position and chip layout", "anchors": ["src/sorcha/modules/PPVisitsFootprintFilter.py:PPVisitsFootprint", "src/sorcha/modules/PPApplyFOVFilter.py:PPApplyFOVFilter"]}
{"id": "C53", "title": "Light-time iteration", "statement": "The returned light time, distance and vector are consistent with each other, the object's state is that at the previous estimate of the emission time, and for an object slower than light every pass shrinks the error by at least v/c, for any number of passes and any first guess.", "quantifier": "every motion, every first guess, every number of passes", "why_tests_cant": "unbounded iteration, continuum of motions", "anchors": ["src/sorcha/ephemeris/simulation_geometry.py:integrate_light_time"]}
{"id": "C54", "title": "Right ascension and declination of a direction", "statement": "The right ascension and declination computed for a direction lie in [0,360) and [-90,90] and point back in that direction; and those of a direction made from coordinates are the coordinates (exact arithmetic; what rounding does to the right ascension is C105).", "quantifier": "all unit vectors and all coordinates", "why_tests_cant": "continuum of inputs", "anchors": ["src/sorcha/ephemeris/simulation_geometry.py:vec2ra_dec", "src/sorcha/ephemeris/simulation_geometry.py:ra_dec2vec"]}
{"id": "C55", "title": "Candidate objects for a field", "statement": "An object is considered for a visit iff some sky pixel of the field is among the pixels recorded for the object's path during the current three-day table.", "quantifier": "every set of objects, every pixelisation", "why_tests_cant": "unbounded object lists, every path", "anchors": ["src/sorcha/ephemeris/pixel_dict.py:PixelDict.get_designations", "src/sorcha/ephemeris/pixel_dict.py:PixelDict.compute_pixel_traversed"]}
{"id": "C56", "title": "Two-body propagation of orbital elements", "statement": "The Cartesian state computed from cometary elements, as a function of the epoch, moves according to Newton's law about the Sun, passes perihelion at the given time at the given distance with the given orientation, and is periodic for bound orbits.", "quantifier": "all masses, perihelion distances, eccentricities, orientations, epochs", "why_tests_cant": "continuum of inputs; a differential equation cannot be tested pointwise", "anchors": ["src/sorcha/ephemeris/orbit_conversion_utilities.py:universal_cartesian", "src/sorcha/ephemeris/orbit_conversion_utilities.py:root_function"]}
{"id": "C57", "title": "Orbit formats", "statement": "Every orbit is turned into the barycentric equatorial state it describes, whichever of the six formats it is given in: Cartesian states are rotated from the ecliptic, Keplerian ones lie on the ellipse at the eccentric anomaly that solves Kepler's equation for the given mean anomaly, cometary ones pass perihelion at the given date; heliocentric formats are moved by the Sun's state at the epoch, barycentric ones use the total mass. The state depends on that row only; an unknown format stops the run. The elements used to estimate the perihelion describe the same orbit.", "quantifier": "every row in every format, every table of orbits, every Sun ephemeris", "why_tests_cant": "continuum of elements, unbounded tables; caching of the Sun's state across rows", "anchors": ["src/sorcha/ephemeris/simulation_parsing.py:parse_orbit_row", "src/sorcha/ephemeris/simulation_parsing.py:get_perihelion_row", "src/sorcha/ephemeris/simulation_setup.py:generate_simulations"]}
{"id": "C58", "title": "What a run starts with", "statement": "A simulation starts exactly when the files named on the command line exist, external ephemerides come with a file, a light-curve or activity model comes with complex parameters, and a visits database is given exactly when the configuration has a query for it; every command line argument reaches the run under its own name.", "quantifier": "every command line, every configuration, every file system", "why_tests_cant": "all combinations of optional arguments and configuration values", "anchors": ["src/sorcha_cmdline/run.py:execute", "src/sorcha/utilities/sorchaArguments.py:sorchaArguments.validate_arguments", "src/sorcha/utilities/sorchaCommandLineParser.py:sorchaCommandLineParser", "src/sorcha/utilities/fileAccessUtils.py:FindFileOrExit"]}
{"id": "C59", "title": "Addresses of the auxiliary files", "statement": "In an accepted configuration in which no two auxiliary files share a name, each auxiliary file is downloaded from the address given in the configuration file for it, or else from the documented one; a configuration is rejected iff it gives an address other than the documented one for a file that keeps its documented name. (A name given without address is still downloaded from the documented address, which belongs to another file; of two files with the same name only the second address is used.)", "quantifier": "every AUXILIARY section, every auxiliary file", "why_tests_cant": "all subsets and values of eighteen independent keys", "anchors": ["src/sorcha/utilities/sorchaConfigs.py:auxiliaryConfigs", "src/sorcha/ephemeris/simulation_data_files.py:make_retriever"]}
{"id": "C60", "title": "Rows handed to a caller are those that would be written", "statement": "A run that is asked to return its rows instead of writing files returns all rows of all rounds in order, exactly those that a run that writes would append to the file. (If no row survives it raises, whereas a run that writes finishes without output.)", "quantifier": "every input, every configuration, every number of rounds", "why_tests_cant": "any number of rounds, some of them without rows", "anchors": ["src/sorcha/sorcha.py:runLSSTSimulation"]}
{"id": "C61", "title": "Generated ephemerides: which rows there are", "statement": "For a set of input objects and a list of visits the generated ephemeris has, visit by visit, at most one row per object; each row carries the visit's number and mid-time and the position computed for that visit from the object's own orbit, which lies within the field of view plus buffer of the visit's centre. The rows of an object do not depend on which other objects are in the set. For visits in order of time an object has a row for exactly those visits in which it is a candidate (it traverses a pixel next to which the field of view lies, by its positions at reference times within one and a half intervals) and its interpolated and its exact direction are within field of view plus buffer; the reference times are the same for all objects and sets of objects, and those of a visit are at most half an interval from it. If IDs are unique and unchanged by being read (see C82), each row is returned with its own object's orbit columns. (The candidates are searched without the buffer; a visit earlier than the one processed before may miss objects; an ID like 007 loses its orbit columns, depending on the other objects in the block; with no visits the call raises.)", "quantifier": "every set of objects, every list of visits, every history of the integrator", "why_tests_cant": "unbounded lists of visits and objects; state is carried from visit to visit and from object to object", "anchors": ["src/sorcha/ephemeris/simulation_driver.py:create_ephemeris", "src/sorcha/ephemeris/pixel_dict.py:PixelDict", "src/sorcha/ephemeris/simulation_setup.py:generate_simulations"]}
{"id": "C62", "title": "Ephemerides written by a run can be reused", "statement": "With all random features off, unique IDs unchanged by being read (see C82), unique visit numbers and distinct mid-times, and no earlier file in the way: the ephemeris file written by a run that generates its ephemerides, given as external ephemeris to a run with otherwise the same settings and any chunk size, makes that run output the same rows.", "quantifier": "every input, every configuration without random features, every pair of chunk sizes", "why_tests_cant": "relates two different runs over all inputs", "anchors": ["src/sorcha/ephemeris/simulation_driver.py:write_out_ephemeris_file", "src/sorcha/ephemeris/simulation_driver.py:create_ephemeris", "src/sorcha/readers/CombinedDataReader.py:CombinedDataReader.read_block", "src/sorcha/sorcha.py:runLSSTSimulation"]}
{"id": "C63", "title": "What a DES run outputs", "statement": "A round of a DES run outputs only rows that hold the values computed for one of the round's observations and a visit of that observation's field, lie in the configured field of view, are within the magnitude and saturation limits, have a motion within the limits (if that cut is on) and belong to an object one of whose rows is within the distance limits, which are in au (if that cut is on); no row occurs twice. Without random features, fill factor and visits footprint all such rows are kept, and with the discovery filter on exactly those of discovered objects are output, all or none of an object's rows. Without random features the chunk size does not change what a run outputs. (Accepted settings a DES run cannot use: with an SNR limit a run with any row in view stops with a missing column; with the visits footprint and external ephemerides a run with any matched observation stops with a type error; with the distance cut switched on without limits, also by the text False, a run stops as soon as a row reaches it.)", "quantifier": "every input, every configuration, every number of rounds and chunk size, every state of the generators", "why_tests_cant": "unbounded inputs and all combinations of settings", "anchors": ["src/sorcha/des.py:runDESSimulation", "src/sorcha/modules/PPDistanceandMotionCuts.py:distance_cut", "src/sorcha/modules/PPDistanceandMotionCuts.py:motion_cut", "src/sorcha/modules/DESDiscoveryFilter.py:DESDiscoveryFilter", "src/sorcha/modules/PPVisitsFootprintFilter.py"]}
{"id": "C64", "title": "Columns of the output", "statement": "If the input files have the documented columns and no name occurs in two of them, every chunk of a Rubin run passes all stages without a missing column and the table handed to the output has exactly the columns of the files that are kept, those computed, the detector with a footprint and the verdict and date with linking on, each once. Of these, basic output writes exactly the fifteen documented columns (with the verdict if unlinked objects are kept), all writes all of them with the distance to the Sun, and a list writes exactly the columns listed, in that order, if they all exist, and stops the run otherwise; statistics and, for basic and all, the database index find their columns. A DES run without trailing losses, randomisation and limit on the SNR passes the same way, without the uncertainties. Two chunks of a run always have the same columns in the same order. (A DES run with basic output or an SNR limit always stops with a missing column; phase parameters given per filter stop a run with a single filter or with a chunk in which no observation matches a visit; a missing colour of the filter listed first is only found when such an observation is met; a name that occurs both in an auxiliary file and in the pointing database loses its column; a database with listed columns stops at its index if the ID, time or filter is not among them.)", "quantifier": "every set of column names of every input file, every configuration, every light curve and activity model, every set of filters in a chunk", "why_tests_cant": "all combinations of files and settings; the failure shows only for particular combinations", "anchors": ["src/sorcha/sorcha.py:runLSSTSimulation", "src/sorcha/des.py:runDESSimulation", "src/sorcha/modules/PPOutput.py:PPWriteOutput", "src/sorcha/modules/PPOutput.py:PPIndexSQLDatabase", "src/sorcha/modules/PPStats.py:stats", "src/sorcha/modules/PPMatchPointingToObservations.py", "src/sorcha/modules/PPApplyColourOffsets.py", "src/sorcha/readers/CombinedDataReader.py:CombinedDataReader.read_block"]}
{"id": "C65", "title": "Interrupted runs and reruns", "statement": "Take an output directory and any number of runs with the same output names (results, ephemerides and statistics named differently), each finishing, refused, or ended at any moment, also in the middle of writing; at the start there was at most one file of results and one ephemeris file of these names. If a later run finishes, its files hold exactly its own tables, with one header and every row once and in order, whatever the earlier runs have left; files with other names are never touched. If it is interrupted, its CSV files are initial parts of the files it was to write, and its database holds exactly the rows of its first few chunks, with indices only once all are in. Without -f a run that finds an output of its own is refused and changes nothing; with -f it is accepted and nothing left behind can make it fail (for a database: if the chunks have the same columns, the indexed ones among them). If the log checker calls a run complete, its files are complete, and it calls every finished run complete. (Fails for a run killed inside a database transaction: the journal it leaves is a second file of the same stem, -f removes only one of the two, and the rerun may append to the old table; fails also when results and statistics have the same name. HDF5 files are not covered.)", "quantifier": "every directory, every series of runs, every point at which each of them may end, every table of every chunk", "why_tests_cant": "runs may be killed at every moment of every write and the next run meets what is left", "anchors": ["src/sorcha/modules/PPOutput.py:PPOutWriteCSV", "src/sorcha/modules/PPOutput.py:PPOutWriteSqlite3", "src/sorcha/modules/PPOutput.py:PPIndexSQLDatabase", "src/sorcha/modules/PPStats.py:stats", "src/sorcha/sorcha.py:runLSSTSimulation", "src/sorcha/ephemeris/simulation_driver.py:write_out_ephemeris_file", "src/sorcha/utilities/sorchaGetLogger.py:sorchaGetLogger", "src/sorcha/utilities/check_output_logs.py", "src/sorcha_cmdline/run.py:execute"]}
{"id": "C66", "title": "Solving Kepler's equation", "statement": "Converting orbital elements to a position needs the universal anomaly at a time. In exact arithmetic, with exact Stumpff functions, for every conic (perihelion distance q > 0, eccentricity at least 0) and every time: the search for a bracket ends after at most 4/q steps, rounded up, whatever the time, and the solution lies between its last two places; the whole search ends, with an answer, NaN or a division by zero; an answer differs from the one solution of Kepler's equation by at most 5e-14 of itself, whichever of bisection, Halley steps and later tries has found it (unless it exceeds 1e13 over the speed at perihelion). On an ellipse the position and velocity are then within 1e-12 a sqrt((1+e)/(1-e)) and 1e-12 of the speed at perihelion over sqrt(1-e^2) of the exact ones. (That the search answers at all within its limits of 100 passes and 11 tries is not claimed.)", "quantifier": "every perihelion distance, eccentricity, gravitational parameter, orientation, epoch and time of perihelion", "why_tests_cant": "real parameters; the iteration takes different branches for different orbits", "anchors": ["src/sorcha/ephemeris/orbit_conversion_utilities.py:universal_cartesian", "src/sorcha/ephemeris/orbit_conversion_utilities.py:halley_safe", "src/sorcha/ephemeris/orbit_conversion_utilities.py:root_function"]}
{"id": "C67", "title": "Template and demo files", "statement": "`sorcha init` and `sorcha demo prepare` copy exactly the files asked for, as they are in the package, and touch no other path; without -f nothing that exists is ever changed, at whatever moment the command is ended. A command succeeds iff the answer is a number from 1 to 5 (init), the directory exists, no directory is in the place of a file and, without -f, none of the files exists. A command ended at any moment leaves each file as it was or an initial part of the new one; after any history of such commands, repeating it with -f succeeds and delivers whole files. The files named in the printed demo command are exactly those copied; typed in, the command starts sorcha-run of the first directory of PATH that has it, with each file as what it is, the outputs in the working directory, and nothing to be overwritten. (Two limits: a command that is refused because a file exists may have copied others already, and one that was ended in the middle of a file is refused when repeated without -f.)", "quantifier": "every disk, every answer, every moment at which each of any number of commands may end", "why_tests_cant": "any disk content and interruption", "anchors": ["src/sorcha/utilities/sorcha_copy_configs.py:copy_demo_configs", "src/sorcha/utilities/sorcha_copy_demo_files.py:copy_demo_files", "src/sorcha/utilities/sorcha_demo_command.py:get_demo_command", "src/sorcha_cmdline/init.py", "src/sorcha_cmdline/demo.py"]}
{"id": "C68", "title": "The report on log files", "statement": "With a report file whose name ends in .csv, `sorcha outputs check-logs` reports on exactly the log files below the directory, one row each, with its last line, and calls those failed whose last line does not say that the run has completed: printed on screen, or all rows saved as the report if some run has failed. It changes no path but that of the report, which at any moment is as before, absent, or an initial part of the new report; without --force an existing report is never changed, and without -o nothing is. It works if the directories exist, there is a log and no log is empty. (Limits: for a name without .csv the file name.csv is overwritten without --force, and with --force the file without the ending is deleted; with --force an old report is deleted first, also if the check then fails or all runs are successful.)", "quantifier": "every directory tree, every log, every moment at which the command may end", "why_tests_cant": "unbounded trees; interruption at every point", "anchors": ["src/sorcha/utilities/check_output_logs.py:check_all_logs", "src/sorcha/utilities/check_output_logs.py:find_all_log_files", "src/sorcha_cmdline/outputs.py:cmd_outputs_check_logs"]}
{"id": "C69", "title": "The cache of ephemeris data", "statement": "Unless forced, `sorcha bootstrap` does nothing if all eleven data files are there and never changes one that is there, whenever it is killed and whatever the network does, except that the meta-kernel is made anew and the observatory codes are unpacked anew if their archive had to be downloaded. However the parallel downloads are interleaved, they come to an end and the cache is then the same. If the network gives the missing files the command ends normally with a complete cache; if it ends normally, the files it reports as missing are exactly those that are, and the meta-kernel and its six kernels are there. No other file is ever touched. After any number of bootstraps, forced or not and each killed at any moment, every downloaded file in the cache is whole, and one more run with a working network completes the cache. A forced bootstrap of a complete cache with a working network replaces all files. (Limits: forced, on a cache without meta-kernel or observatory codes, it always ends with an exception; forced, without network, it loses all files; a failed download is only printed; observatory codes or a meta-kernel cut off by a kill are kept by every later bootstrap that is not forced. File names are taken to be different, with the usual extensions.)", "quantifier": "every cache, every network, every interleaving of the downloads, every history of bootstraps killed at any moment", "why_tests_cant": "concurrency, failing downloads and interruption", "anchors": ["src/sorcha_cmdline/bootstrap.py:execute", "src/sorcha/utilities/retrieve_ephemeris_data_files.py", "src/sorcha/utilities/generate_meta_kernel.py:build_meta_kernel_file", "src/sorcha/ephemeris/simulation_data_files.py:make_retriever"]}
{"id": "C70", "title": "The data files a run loads", "statement": "A run that generates ephemerides can load its data files exactly if the planets, the small bodies and the six kernels are each in the cache or can be downloaded, and so are the observatory codes or their archive. It then loads the files of the cache, downloads only what is missing, changes no file that was there and touches no other file. With a complete cache, as after a bootstrap that ends normally and reports nothing missing, it needs no network and changes nothing; once one run has loaded its files all later ones load the same, whatever the network gives. (A meta-kernel that exists is used as it is: after a change of the configured kernel names, runs use the old ones.)", "quantifier": "every cache, every network, every choice of file names", "why_tests_cant": "all combinations of files present, missing and not to be had", "anchors": ["src/sorcha/ephemeris/simulation_setup.py:create_assist_ephemeris", "src/sorcha/ephemeris/simulation_setup.py:furnish_spiceypy", "src/sorcha/ephemeris/simulation_parsing.py:Observatory", "src/sorcha/utilities/generate_meta_kernel.py:build_meta_kernel_file"]}
{"id": "C71", "title": "Input tables are read by column name", "statement": "A text table is opened exactly if its format is one of the three, one of its first 102 lines begins with ObjID, and the first such line, cut at the separator of that format, has at least two pieces of which one is exactly ObjID; so a file in which ObjID stands only at the beginning of lines is never readable both as comma separated and as white-space separated. A parameter table whose header starts with ObjID then has the names of its header, without white space around them, over the rows of the file. An ephemeris table is accepted exactly if, besides, it has all 22 documented columns and no others than V, V(H=0) and fieldJD_TDB; the result has the documented columns in the documented order with, in every row under every name, the file's value under that name, so the order of the columns, the format, blanks around names and text before the header make no difference. (Limits: an orbit file with blanks around names is always refused; so is ObjID followed by a blank; a comment line beginning with ObjID is taken for the header; a missing ephemeris column ends in a Python exception.)", "quantifier": "every file, format, header, order of columns and number of rows", "why_tests_cant": "unbounded files and all arrangements of columns", "anchors": ["src/sorcha/readers/CSVReader.py:CSVDataReader", "src/sorcha/readers/ObjectDataReader.py:ObjectDataReader", "src/sorcha/readers/EphemerisReader.py:EphemerisDataReader", "src/sorcha/readers/OrbitAuxReader.py:OrbitAuxReader"]}
{"id": "C72", "title": "The light curve and activity models that are used", "statement": "Whatever model classes are defined, and in whatever order with updates of the registry: the import of Sorcha succeeds exactly if no two of the classes defined before (directly derived from the base class) have the same name; a run accepts a configured name other than none exactly if such a class of that name has been defined; the model used for the magnitudes, and in the culling of faint objects, is the first class defined with that name, and what is registered once stays; with distinct names every directly derived class can be chosen by its name; without a name, or with none, no model is used. (Limits: after the import a second class of the same name is ignored without a message; a class derived from another model is never found; the model named identity is accepted but ends in an exception, as activity model always, as light curve in the culling.)", "quantifier": "every set of classes, every order of definitions and updates, every configured name", "why_tests_cant": "any history of definitions", "anchors": ["src/sorcha/activity/activity_registration.py", "src/sorcha/lightcurves/lightcurve_registration.py", "src/sorcha/utilities/sorchaConfigs.py:lightcurveConfigs", "src/sorcha/utilities/sorchaConfigs.py:activityConfigs", "src/sorcha/modules/PPCalculateSimpleCometaryMagnitude.py:PPCalculateSimpleCometaryMagnitude", "src/sorcha/modules/PPFaintObjectCullingFilter.py:PPFaintObjectCullingFilter"]}
{"id": "C73", "title": "The built-in cameras", "statement": "Without a camera file of one's own, the survey names for which the footprint camera model is accepted (lsst, rubin_sim, des) have a built-in camera. The LSST one has 189 detectors, each a convex quadrilateral on the focal plane; an observation is never reported on two of them, so none is duplicated; a position whose image is on a detector and further from its sides than the edge threshold is reported on that detector, and with a threshold of at least 0.1 arcseconds (2 in the supplied configurations) no other position is; a position reported is within 2.06 degrees of the field centre (or opposite to such a position), the search radius of the supplied configurations. (The DES one is in degrees but read as radians: it is 57 times too large, so that positions many degrees away from the field are reported as seen, on wrong detectors.)", "quantifier": "every observation, field centre, rotation and edge threshold", "why_tests_cant": "overlaps and gaps are properties of the whole plane, not of sample points", "anchors": ["src/sorcha/modules/PPFootprintFilter.py:Footprint", "src/sorcha/modules/data/LSST_detector_corners_100123.csv", "src/sorcha/modules/data/DES_ccd_corners.csv"]}
{"id": "C74", "title": "The text of the configuration file", "statement": "If the text of a configuration file has sections with settings (headers and settings in the first column, comment lines, empty lines, values that go on in indented lines, no section DEFAULT and, in values, per cent signs only doubled), none of them twice, the program sees exactly these settings in the thirteen sections it knows: keys in lower case, values without white space around them; comments, empty lines, the order of sections and unknown sections make no difference. A section repeated, or a key repeated in a section in whatever case, is refused. Whatever the text, if it can be read the program sees no section and no key twice. The three Rubin configuration files that come with the package and the one of the demo are accepted for every Rubin survey name whatever models are installed, with the settings they state. (Limits: the DES file that comes with the package is refused for every survey, because of the key self.des_transient_efficency, and is accepted with this key corrected; a section whose name is not written exactly so, such as [LinkingFilter], is ignored without a message; a comment after a value and an indented setting silently become part of the value; a single per cent sign, as in an SQL query with LIKE, makes the file unreadable; a file with a setting in a section [DEFAULT], whose settings hold for all sections, is never accepted.)", "quantifier": "every text, every installed set of models, every rounding of decimal numbers", "why_tests_cant": "unbounded texts; the layout can vary in every line", "anchors": ["src/sorcha/utilities/sorchaConfigs.py:sorchaConfigs", "src/sorcha/data/survey_setups/", "src/sorcha/data/demo/sorcha_config_demo.ini"]}
{"id": "C75", "title": "What the supplied Rubin configurations give", "statement": "In a completed run of the survey rubin_sim with a configuration file that comes with the package, unchanged: with the one for the camera footprint and the one of the demo each output row stems from an observation and a visit of the survey in one of the filters u, g, r, i, z, y, has an SNR above 2, a point source magnitude not below 16 and a position whose image is on the detector it names, more than two arcseconds from its sides, and belongs to an object of which the same output table has, in at least three of the fifteen nights that end with the discovery night it carries, two observations less than 90 minutes and more than half an arcsecond apart; with the one for the circular approximation the same holds with a distance from the field centre below 1.75 degrees instead of the detector; with the one for known objects the rows are exactly those of the observations and visits whose computed position is on a detector by more than two arcseconds, with the computed values, and the run is always completed if there are visits in the filters, times agree and the calculations succeed; with none of them an observation is output twice for a visit. (With the survey names LSST and lsst the configurations are accepted but no run is completed.)", "quantifier": "every input table, pointing database, random stream, number of rounds, and set of installed models", "why_tests_cant": "the whole program composed: from the text of the file to the rows of the output", "anchors": ["src/sorcha/data/survey_setups/", "src/sorcha/data/demo/sorcha_config_demo.ini", "src/sorcha/sorcha.py:runLSSTSimulation", "src/sorcha/modules/PPReadPointingDatabase.py:PPReadPointingDatabase", "src/sorcha/modules/PPApplyFOVFilter.py:PPApplyFOVFilter", "src/sorcha/modules/PPFootprintFilter.py:Footprint", "src/sorcha/modules/PPLinkingFilter.py:PPLinkingFilter"]}
{"id": "C76", "title": "Ephemerides kept in HDF5", "statement": "A run that takes its ephemerides from an HDF5 file never uses a row for the wrong object: it either works on exactly the rows of the objects of each chunk, as with a text file of the same rows, or stops. It is completed if no two rows with the same index label are of objects in different chunks (and, where pandas refuses an empty list of labels, each chunk has an object in the file). So an HDF5 file of ephemerides written by a run can be reused with the same result if the run that writes it or the run that reads it takes all objects in one chunk. (Known failures: a run stops if two rounds of the writing run have ephemerides and the first rows of the two are of objects in different chunks of the reading run, as is always so when the chunk sizes are equal; the writing run breaks off when a later round has a longer ID than the first.)", "quantifier": "every HDF5 table with any index labels, every set of consistent orbit and auxiliary files, every chunk size of the writing and of the reading run", "why_tests_cant": "tests read a file written in one piece; labels repeat only in files appended to over several chunks", "anchors": ["src/sorcha/readers/HDF5Reader.py:HDF5DataReader", "src/sorcha/readers/CombinedDataReader.py:CombinedDataReader.read_block", "src/sorcha/modules/PPOutput.py:PPOutWriteHDF5", "src/sorcha/ephemeris/simulation_driver.py:write_out_ephemeris_file"]}
{"id": "C77", "title": "The settings in the log determine the run", "statement": "If two runs write the same settings to their logs, they have the same settings: files, survey, pointing database and query, chunk size, filters, phase function, switches for trailing losses, randomisation and vignetting, camera model, saturation, SNR and magnitude limits, fading function, all linking settings, the settings for generating ephemerides, light curve model, output format, columns and decimals. So two Rubin runs with the same inputs and random numbers whose logs show the same settings give the same output, however their configuration files are written, provided they agree in what the log leaves out. (Left out: the radius of a circular camera if there is a fill factor, though it decides which observations are kept; whether an edge threshold is zero or not given, and in both cases the log claims a default of two arcseconds that is not applied; brute_force; the DES cuts, transient efficiency and visits query; the name of any activity model but comet.)", "quantifier": "every pair of accepted configurations and command lines, every input and random stream", "why_tests_cant": "pairs of whole configurations", "anchors": ["src/sorcha/utilities/sorchaConfigs.py:PrintConfigsToLog", "src/sorcha/sorcha.py:runLSSTSimulation", "src/sorcha/modules/PPApplyFOVFilter.py:PPApplyFOVFilter"]}
{"id": "C78", "title": "The combined database", "statement": "If sorcha outputs create-sqlite succeeds on white-space separated input files whose column names differ in more than case, then, whatever was in the database before, it has one table for the physical parameters, one for the orbits and, if asked for, one for the complex parameters, each with exactly the rows of all files of that kind, in order, under every name the value the file has in that row under that name (NULL where the file lacks the column), and the results collected from the result databases; other tables are not touched. It succeeds exactly if the results can be collected, there is a file of each kind and each file has only column names that the first one of its kind has. Running it again gives the same tables. (Limits: a comma-separated input file is accepted without a message but gives a table with one column of whole lines; identifiers made of digits become numbers, so that 007 and 7 are the same; a column called Index stops it; whether files with different columns are accepted depends on the order in which the file system lists them.)", "quantifier": "every set of input files of any number and size, every earlier content of the database", "why_tests_cant": "unbounded files, any earlier history of the database", "anchors": ["src/sorcha/utilities/createResultsSQLDatabase.py:create_inputs_table", "src/sorcha/utilities/createResultsSQLDatabase.py:create_results_database"]}
{"id": "C79", "title": "No orbit that could be seen is culled", "statement": "The removal of faint objects before ephemerides are generated works for every orbit format: an object it removes (without light curve and activity model) is, at zero phase, at no point of the unperturbed orbit that its row describes within 1.85 magnitudes of the depth of any visit in an observing filter, for any observer within 1.04 au of the centre of the orbit and with the Sun within 0.02 au of it (the centre being the Sun or the barycentre). The perihelion estimated for an object does not depend on the other objects or epochs in its chunk, although the epoch of the first is used for all; for Keplerian elements it is a(1-e), at most 0.3 per cent too large for barycentric ones. The filter works exactly if every observing filter has a visit and, for formats without q, the chunk has an object and the formats are known.", "quantifier": "every table of orbits in every format, every set of visits, every point of every orbit", "why_tests_cant": "real orbits, all shapes, times and geometries", "anchors": ["src/sorcha/modules/PPFaintObjectCullingFilter.py:PPFaintObjectCullingFilter", "src/sorcha/modules/PPFaintObjectCullingFilter.py:PPEstimatePerihelion", "src/sorcha/ephemeris/simulation_parsing.py:get_perihelion_row"]}
{"id": "C80", "title": "The seed of a run", "statement": "If the environment variable SORCHA_SEED is set, a run starts exactly when its text is a whole number (blanks around it, a sign and single underscores between digits allowed), and this is its base seed, whatever the operating system's random source gives; otherwise the base seed is made of four bytes of that source. The log names the base seed, and a run with that text in SORCHA_SEED and the same inputs outputs the same rows. More generally two runs with the same inputs whose base seeds agree modulo 2^31 output the same; of the four bytes exactly the 31 lower bits matter. Within a run the modules that draw numbers (the camera with a fill factor, the fading function, the randomisation, as far as the configuration has them) have different seeds whatever the base seed, and use no other generator; and a module has different seeds in runs whose base seeds differ modulo 2^31. (Known failures: the linking filter breaks ties with random weights that no seed reaches, so a Rubin run is only reproducible if no two sets of nights have the same total weight; and for any run there is another base seed that gives one module the stream that the run gives to another. A text that is no number stops the run with an uncaught exception.)", "quantifier": "every text of SORCHA_SEED, all bytes of the system's random source, every input and configuration, every number of rounds", "why_tests_cant": "all seeds and all pairs of runs; a collision of seeds is not found by sampling", "anchors": ["src/sorcha_cmdline/run.py:execute", "src/sorcha/utilities/sorchaArguments.py:sorchaArguments.read_from_dict", "src/sorcha/utilities/sorchaModuleRNG.py:PerModuleRNG", "src/sorcha/modules/PPMiniDifi.py:discoveryOpportunities"]}
{"id": "C81", "title": "The command line", "statement": "sorcha run goes on exactly if its arguments, read from left to right, are settings: a name and its value in the next argument, a name, an equality sign and the value, a switch, or one dash with letters of switches and then perhaps a letter with its value behind it, behind an equality sign or in the next argument; a name may be abbreviated if it begins with two dashes and begins exactly one name of an option; a value in an argument of its own must not begin with a dash, unless it is a single dash, a negative number or has a blank in it and could not be an option. The configuration, output path, orbits, physical parameters and pointings must be among the settings. A setting given more than once has the last value, one not given its default. The reading is unique, and the order and the way of writing do not matter when each setting is given once. Names with more than one letter need two dashes: -force is read as -f -o rce and -cp=x sets the configuration file to p=x, without a message; an abbreviation of two names of the same setting is refused; and -l, described as printing additional information, turns it off. sorcha starts a command exactly if the arguments ask for it: the verb first, then its arguments, passed on unchanged except that a -- before the verb or right behind it is dropped, and none before the first -- beginning with --=, which sorcha refuses itself; it starts the first executable file of that name in PATH. It ends with the status of the command, so success means that the command succeeded or that sorcha was given an option of its own before any verb.", "quantifier": "every list of arguments, every content of PATH, every status of the command", "why_tests_cant": "argument lists of any length; abbreviations, letters and values interact", "anchors": ["src/sorcha_cmdline/run.py:main", "src/sorcha_cmdline/main.py:main", "src/sorcha_cmdline/main.py:find_sorcha_verbs"]}
