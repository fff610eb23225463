# Formal model of sorcha in Lean 4: design

Sources: `/repo` (dirac-institute/sorcha at the pinned commit, read as text, never run). Model: `/verif/lean/Verif/<Area>/`. In each area

* `Model.lean` has definitions that follow the Python function by function, each with a `file.py:lines` citation and the simplifications made;
* `Spec.lean` has the small vocabulary in which the properties are stated; it does not use the model's helpers or constants;
* `Lemmas.lean` and files named after a stage have helper lemmas;
* `Props.lean` (`Props2`, `RandProps`, `PicketProps`, `OrbitProps`, ...) has the theorems named in `MANIFEST.json`, each with an `example` or witness that
  shows that a concrete, non-trivial case meets its hypotheses.

Names: `Cnn_...` belongs to property Cnn. A theorem that proves only part of a property ends in `_partial`. A theorem whose name contains `_fails` proves,
by a witness or in general, that a natural stronger reading of the property is FALSE of the code as it exists; the condition is then part of the property's statement.

## Trusted base

1. The kernel of Lean 4.33.0. The axioms used are `propext`, `Classical.choice` and `Quot.sound` at most; the last section lists them for each theorem.
   No `sorry`, no `native_decide`, no `bv_decide`, no axioms of our own. Computations on closed terms use `decide +kernel`, which the kernel evaluates.
2. The reading of the Python into Lean. Each definition cites what it models. A Python exception or `sys.exit` is an `Except` error or `none`; a loop is a
   structural or fuelled recursion; a dictionary is a function or a list of pairs; a table is a list of rows, or its list of column names where only names matter.
3. Behaviour of libraries that is written into the model as a definition:
   * pandas: a boolean mask keeps the rows in order; `merge`/`join` on a key repeat a left row for each match, suffix common names in `merge` and refuse them in
     `join`; `dropna`, `drop`, `rename`, `concat`, `groupby` as documented; `apply` on a table without rows does not give a column; `sort_values` gives an ordered
     permutation (stability is not assumed); `read_csv` skips the lines for which `skiprows` is true, skips blank lines, and infers the type of the ID column as `Verif/Ids` says (missing values, whole numbers, numbers, truth values, texts);
   * numpy: `cumsum`, slicing, `nonzero`, `searchsorted`, `argmin`, `argmax`, `interp`, `isclose`, `unique` as documented; comparisons with NaN are false;
   * `Generator.random(n)` and `Generator.normal(size=n)` take the next n numbers of one stream;
   * sqlite: a table keeps its columns, `CREATE INDEX` fails for a missing column, `INSERT ... SELECT *` is positional;
   * interrupted writes (C65): text appended to a file is there up to some character; an sqlite transaction is all or nothing, a rollback journal next to the
     database aside; a new connection creates an empty database; HDF5 files are left out;
   * files (C67-C69): `shutil.copy` and `to_csv` create or empty the file and then write it from the beginning; `os.walk` lists exactly the files below a directory,
     in any order; pooch leaves a file that exists alone, moves a downloaded one to its place when it is complete, and refuses one without address; an exception
     in `executor.map` whose result is not read is lost;
   * `glob` returns the matching names in any order. argparse (C81) is modelled after its source in Python 3.11.10, for the parsers of `sorcha` and `sorcha run`; the
     model was compared with it on 13500 random lists of arguments. For the other commands the accepted text is what the documentation says. configparser is modelled (C74) after its
     source in Python 3.11; the model was compared with it on 3000 random texts.
4. Parameters: external computations that a theorem quantifies over instead of defining them. ASSIST/REBOUND (position and velocity at a time), SPICE (rotation,
   Earth position), healpy (pixels of a disc), sbpy (phase functions), shapely and the k-d tree of the visits footprint (with their documented behaviour as
   hypotheses), light curve and activity models, md5, `float()`/`int()` on texts, the file system, the order in which Python iterates over a set, the unstable
   part of a sort. What holds for every value of a parameter does not depend on what the library does.
5. Numbers. Counting and times of the linker are `ℕ`, `ℤ`, `ℚ`. Cuts use `Fl` (`Verif/Base/Fl.lean`): rationals with NaN and infinities and IEEE comparison.
   Photometry, geometry and orbits are over `ℝ`. **Rounding of floating-point arithmetic is not modelled**: each of these theorems is about the formula in exact
   arithmetic.
6. Logging, progress messages, timing, memory use and the text of error messages are not modelled (except that the settings written to the log are (C77), and the last line of a log is, for the log checker).

## Plan per property

For each property: what is modelled and how it is proved. The last column names what the proof takes as given or leaves out, beyond the trusted base.

| id | title | status | modelled | proof | given, missing |
|---|---|---|---|---|---|
| C01 | What counts as a tracklet | proved | the double loop of `hasTracklet` over an indexed list, also with floating point times | loops as existentials over pairs of indices; the difference of two floating point numbers within a factor of two is exact | haversine separation is a parameter C01_float*: floating point times |
| C02 | An object is discoverable iff enough tracklet nights fall in one window | proved | `discoveryOpportunities` with arrays as lists | prefix sums, induction on nights | completeness needs positive random weights; with zero weights (probability 2^-53) the code misses the opportunity, shown by witness |
| C03 | The reported discovery date is a genuine and, at efficiency 1, the earliest discovery night | proved | `linkObject`: draws, first success; the night of an observation in floating point numbers | induction on the list of offered nights; whole numbers are floating point numbers | earliest at efficiency 1 under positive weights and draws in [0,1) C03_float_night: floating point times |
| C04 | The internal consistency assertion of the linker cannot fire | proved | the assertion in `linkObject` | invariant of the computed list of nights | – |
| C05 | Linking is all-or-nothing per object and keeps or flags every row | proved | `PPLinkingFilter`: merge, drop, sort | permutations and filters of lists | – |
| C06 | An object's linking verdict depends on its own rows only | proved | `linkObservations`: argsort, groups, one object at a time | groups of a sorted list are the filters; permutation invariance | order independence needs distinct observation times (numpy argsort is not stable) |
| C07 | Detection efficiency extremes | proved | `trimmed` observations with efficiency 0 and 1 | case analysis on the draws | – |
| C08 | More detections never unlink an object (efficiency 1) | proved | composition of C01 to C03 | monotonicity of the specifications | distinct times |
| C09 | Magnitude, SNR, saturation, motion and distance cuts keep exactly what they advertise | proved | one definition per cut, values with NaN | membership in a filtered list | negative limits, which validation accepts, are squared: witness C09_motion_negative_fails; finite numbers are exact rationals |
| C10 | Cuts are idempotent and their order does not matter | proved | the same | commuting filters | – |
| C11 | Every row that a Rubin run outputs passed every enabled filter | proved | a round of `runLSSTSimulation`: all stages composed | provenance invariant from stage to stage; permutations | what is computed per observation (magnitudes, uncertainties) is the parameter measure, noise the parameter noise; the stages are the models of the other properties |
| C12 | Every input object is processed exactly once | proved | loop with start, end and counter, and the reader's position | induction on rounds; blocks partition the file | assumes files without blank lines and unique IDs; C12_blank_line_fails is the counterexample otherwise; with an external ephemeris see C15_blocks |
| C13 | Reading by blocks, by object or from the cache gives the same rows | proved | line-based CSV reader, HDF5 labels, caching reader as a state machine | refinement, induction over any history of calls | pandas read_csv is modelled (skiprows, nrows, blank lines, inference of numbers, truth values and missing values); counterexamples for blank lines, IDs altered by integer inference and repeated HDF5 labels |
| C14 | Mismatched object IDs in the auxiliary files are detected before processing | proved | comparison of ID counts of the auxiliary files | multiset equality | – |
| C15 | Combining ephemeris and auxiliary tables loses and duplicates nothing | proved | `read_block`: left joins on the ID | unique look-up, nodup lists | pandas join on a unique key is modelled as a left join; counterexample for duplicate IDs |
| C16 | Chunk size does not change the result of a deterministic run | proved | the loop over chunks with readers, generator, filters and linker | permutations; each object lies in one chunk; C06, C12, C61 | linker weights in general position (probability one); C16_generator discharges the hypothesis of C16_generated for the model of create_ephemeris |
| C17 | Random filters: reproducible, chunk-independent where one draw per row is used | proved | filters that draw from a generator | one draw per row: splitting a list splits the stream | numpy generator is a parameter |
| C18 | Per-module random generators are deterministic and isolated | proved | `PerModuleRNG` as a map of streams | induction over any sequence of draws | numpy generator and md5 are parameters |
| C19 | CSV output over chunks is one well-formed file | proved | the writers as state machines over a file | induction over chunks | HDF5 output is proved only when no later text is longer than the first chunk's; otherwise the counterexample |
| C20 | Statistics table accounts for every output row | proved | `stats`: group-by and aggregation, appended per chunk | sums over groups, induction over chunks | infinite magnitudes are not modelled; C20_float takes the two operations of an even median as each rounded to the nearest double, without overflow |
| C21 | Output columns | proved | `PPWriteOutput`: choice of columns, rounding, also in floating point numbers | case analysis; rounding error | rounding is proved for exact numbers and, in C21_float*, for numbers whose product and quotient are rounded with relative error 2^-53 (no overflow or underflow) |
| C22 | --force leaves no stale output behind | proved | a directory as a list of names, `run.py`'s checks | case analysis on the parsed arguments | holds without -f and, with -f, when at most one file has the stem; only the first match is removed (witness C22_force_fails for every sound glob), and a command that stops may already have removed files (C22_abort_fails); glob is a parameter returning exactly the matching files in any order |
| C23 | Trailing loss | proved | `PPTrailingLoss` over ℝ and in floating point numbers | real analysis; rounding keeps 0, 1 and the order | real arithmetic; C23_float: floating point numbers without overflow, square root and logarithm as parameters |
| C24 | Fading function is a probability | proved | fading functions over ℝ, the one for Rubin also in floating point numbers | monotonicity of exp; rounding keeps floating point numbers and the order; exp(-38) is lost when it is added to 1 | real arithmetic; C24_float*: floating point numbers without overflow, exponential as a parameter that is close to exp; a negative DES slope reverses the curve (witness) |
| C25 | Photometric and astrometric uncertainties | proved | `PPAddUncertainties`, `PPSNR...` over ℝ and in floating point numbers | real analysis; rounding keeps order and sign | real arithmetic C25_float: floating point numbers without overflow, functions of the library as monotone parameters |
| C26 | Vignetting only makes the survey shallower | proved | `vignettingEffects` with its table and `np.interp` | table facts by kernel computation, interpolation between monotone nodes | real arithmetic; np.interp is modelled |
| C27 | Flux/magnitude and sky/vector conversions are inverse to each other | proved | magnitude/flux and RA/Dec/vector conversions | log, exp and trigonometric identities | real arithmetic |
| C28 | Separation formula is the great-circle distance | proved | `haversine` and the separation of `PPMiniDifi` | trigonometric identities | real arithmetic |
| C29 | Faint-object culling never removes an object that could be seen | proved | `PPFaintObjectCullingFilter` | bounds on distances, monotone log | perihelion is taken from the table (its estimate: C79); an observing filter without visits stops the run (witness); activity models are arbitrary and not covered |
| C30 | Apparent magnitude and colour offsets | proved | `PPApplyColourOffsets`, `PPCalculateApparentMagnitude*` on tables with named columns | induction over filters; look-ups after column updates | the phase functions of sbpy are parameters; per-filter phase parameters with one observing filter stop the run (witness) |
| C31 | Camera footprint test | proved | `Detector`: areas of triangles, projection to the focal plane | convexity; area identity; orthogonal projection | real arithmetic; detectors in convex position; the point opposite the field centre projects like the centre (witness) |
| C32 | Edge threshold distance | proved | `segmentsIn...`: distance to a segment | projection onto a segment | real arithmetic |
| C33 | Circular footprint and fill factor | proved | `PPCircleFootprint`, fill factor filter | membership in a filtered list | on-sky separation is a parameter; zero radius / fill factor disable the filter (witness theorems) |
| C34 | Reference-frame rotations | proved | `ecliptic_to_equatorial` etc. over ℝ³ | orthogonality of the rotation | real arithmetic |
| C35 | Ephemeris interpolation between pickets | proved | Lagrange weights between three pickets | field algebra, uniqueness of the interpolation | real arithmetic |
| C36 | Reference picket always brackets the visit time | proved | `PixelDict` as a state machine, also in floating point numbers | invariant by induction over visits; dates are multiples of 2^-31 and only the quotient is rounded, never across a half | chronological visits, or any order after the second update; a visit out of order is looked up in the wrong table (witness) C36_float*: Julian dates as floating point numbers, multiples of 2^-31 below 2^22 |
| C37 | DES discovery rule | proved | `DESDiscoveryFilter`: unique nights, arc cut, triplets | equivalence with a specification over nights | exact rational times; the search misses triplets after an isolated night (witness) |
| C38 | Configuration: fading function, expert cuts, saturation limits, linking are validated | proved | every dataclass of `sorchaConfigs.py` and the whole file | case analysis of every section; both directions | float(), int(), str.lower() and the file system are parameters; the _fails theorems show values that are accepted although they should not be |
| C39 | Orbit files are validated | proved | `OrbitAuxReader` checks | case analysis; induction over blocks | numeric columns; warnings are not modelled; consistency holds per block only (witness) |
| C40 | Pointing database matching | proved | `PPReadPointingDatabase`, `PPMatchPointingToObservations` | left join with unique key, `isclose` as an inequality | exact rational times; sqlite and the query are a parameter (its answer); the time check has a relative tolerance of 1e-5, about half a day (witness) |
| C41 | Main filter and colour columns | proved | `PPGetMainFilterAndColourOffsets` on the text of the header | character lists | witnesses: main filter not listed first, H_ inside an earlier name, no line break |
| C42 | Combining results into one database | proved | `createResultsSQLDatabase` over tables | induction over the databases found | holds when the databases agree on their columns and the new database is not the first one found; otherwise witnesses: the command stops, or stores values under wrong names |
| C43 | Log checker | proved | `check_output_logs` on log texts, all prefixes of a log | suffixes of character lists | every crash point; an empty log stops the whole check (witness) |
| C44 | Meta-kernel path splitting is lossless | proved | `split_kernel_path_str`, `build_meta_kernel_file` | induction on length | directory names without a quote; the kernel names need the directory's name not to occur again (witness) |
| C45 | Observatory positions | proved | `Observatory`: parsing and positions | case analysis; derivative of a rotation | a value of exactly 0 (Greenwich's longitude) is taken as missing (witness); SPICE is a parameter; the velocity is exact up to sin(wd)/(wd) for a uniform rotation |
| C46 | Angles are reduced modulo a full turn | proved | angle reductions | floor identities | real arithmetic |
| C47 | Orbit elements from a state vector | proved | `universal_cometary`, `universal_keplerian` over ℝ³ | vector algebra, `arccos`/`atan2` case analysis | real arithmetic; at aphelion and for a node on the y axis the code returns wrong elements (witnesses) |
| C48 | On-sky rate decomposition | proved | rates of `calculate_rates_and_geometry` | vector algebra, derivatives | real arithmetic |
| C49 | Stumpff functions | proved | `stumpff` with its four-fold reduction | power series, induction on reductions | real arithmetic: truncation error only, no rounding error |
| C50 | Boolean configuration values | proved | `cast_as_bool` and its uses | case analysis | witness: bright_limit_on is not validated |
| C82 | Which object IDs are read unchanged | proved | the rules by which pandas infers the type of the ID column, and the return to texts | whole numbers and special words characterised in the specification; the condition `Stable` shown equivalent to being unchanged in every column; counterexamples | the rules of pandas 2.x for missing values, whole numbers and truth values are modelled; reading and printing floating-point numbers is a parameter with stated assumptions; whole numbers of more than 18 digits are outside the model; a column is taken in one piece |
| C83 | What is written to CSV files can be read back | proved | the text of CSV files: quoting by the writer, the reader as a machine over characters | one lemma per field, by induction over the characters for plain and quoted fields and for all their initial parts; then induction over fields and lines; composed with C65 | the writer of Python's csv module and the tokenizer of pandas are modelled after their sources; how a cell becomes a text is a parameter, what type is inferred for a column of texts is C82; characters instead of bytes, no NUL; lines that are too short are filled up with missing values by pandas, which is left out |
| C84 | Blocks and objects are read from the text of the file, whatever is in its fields | proved | the CSV reader down to characters: search for the header by lines, pandas' tokenizers for commas and for blanks with lines counted and skipped | one lemma per field, kept or skipped, by induction over characters; then induction over lines with their numbers; composed with the model of lines of C12 and C13 | pandas' tokenizers (commas and blanks) with their skipping of lines are modelled after their source (C parser); types of columns other than the IDs are not inferred; characters instead of bytes |
| C85 | From the command line and the texts of the input files to the text of the results | proved | `sorcha run` as a whole: the models of arguments, command line, configuration text, readers on texts, rounds, writers and files put together | the blocks read from the texts are those of C12 to C14 (via C84), the rounds are those of C01 to C03 and the files those of C65 with the texts of C83; invariance under permutation joins them; for runs that stop, the same for an initial part of the rounds | composes the models of the arguments, the checks of the command line, the configuration file, the readers on texts, the rounds, the writers and the files; Rubin runs; the values of the rows (photometry, astrometry, footprint: `env`), what the cells of the inputs say (`parse`), how a value is shown as text and the generated ephemerides of an object are parameters; that generated ephemerides are made for each object alone is a hypothesis; a run whose input is among the files -f deletes does not finish |
| C86 | The same run again gives the same files, whatever happened before | proved | the model of C85; histories of whole commands | behind the checks of the command line two such directories have the same files, so that the same is planned; then C65; induction over the histories | the model of C85 (text input; CSV or sqlite output; Rubin runs); what is computed for the rows depends on the files and the seed only (`SeesFiles`, and the functions of `World`) |
| C87 | Saved ephemerides give the same results as the run that made them | proved | the model of C85; the text of the saved table as an input of a second run | the saved text is one of C84's input texts; of its rows those of a block's objects are the observations made for that block, since blocks share no object; so all rounds see the same observations | the model of C85; that the numbers are read back as computed is a hypothesis (`hread`): pandas reads floats with its fast parser, which may be off in the last digit |
| C88 | A run on valid inputs finishes | proved | the model of C85 with all its ways to fail: arguments, checks of the files, configuration, readers, rounds, columns, writers | each stage is total on valid inputs: the accepted configuration has the bounds the filters need (C38), the readers give the blocks of C12 and C15, every filter and the linking filter is total, the columns exist (C21), the effects can all be performed (C65) | the model of C85; that the checks of the columns accept the tables (C71) and that the values of each row can be computed (`env`, `measure`) are hypotheses; pandas, numpy and the disk do not fail |
| C89 | From the orbits to the results | proved | the run of C85 with the generator of C61 in it | the rows of each object alone are those of the exact description (C61), with one list of reference times for all objects; then C85 and C88 | the models of C85 and C61 put together; integrator, healpy, order of sets, angles and the values computed per row are parameters; hmake says that the ephemerides of the run are those of the model of create_ephemeris |
| C90 | The arguments of the other commands | proved | the parsers of the other commands, with argparse's parser of C81 and its subparsers | the reading of arguments is proved for any table of options (class `Fits`) and used for each command; a parser with commands is shown to take its command from the first argument; then C67 and C68 | argparse as in Python 3.11.10; os.path.abspath and the text of the citations are parameters; what init, demo and check-logs then do is that of C67 and C68 |
| C91 | A DES run from the command line to the results | proved | `sorcha run -s DES`: arguments, configuration text, input texts, the rounds of C60/C63 for DES, results as text or database | C85's reading of texts and writing of files, generalised to any kind of row, put around the rounds of DES; each object is in one round with all its observations, so the rounds' results together are those of one round over everything (permutation by object); stopped runs by the part of the rounds that was written | the calculations of a DES run (photometry, geometry, footprint, transient efficiency) are parameters as in C60 and C63; the runs of C85 are the runs of this model for the other surveys (`desPlan_rubin`); HDF5 output is not described; the calculations are a function of the settings, the arguments and the files |
| C92 | Ephemerides saved with blanks are read back as they were written | proved | the writer of saved ephemerides with a space as separator, in characters; the reader of C84 | each written field is one of the reader's; induction over fields and rows gives one of C84's input texts | the writer of Python's csv module (with a space as separator) and pandas' tokenizer for blanks are modelled after their sources; that pandas fills up short lines with missing values is left out; used in C87 for runs as a whole |
| C93 | The statistics file of a whole run accounts for the results | proved | the table of statistics of C20 with its columns and cells, as what whole runs append to the statistics file | an object is in one round with all its rows (C85), so the lines of the rounds' tables for an object are those of one table over all rows; the file's text by C65 and C83; specification of a file of statistics in `Whole/StatSpec.lean`, from the rows alone | the phase angle of a row is a parameter; the filters are those of the pointing database as pandas keeps them as categories; the numbers are shown as text by a parameter; infinite magnitudes are not described |
| C94 | One population in several runs, and the combined database | proved | `cmd_outputs_create_sqlite` on the files of runs (`Whole/Combine.lean`), and any number of whole runs of C85 | the blocks of all parts one after another are a way to go through the observations of the whole run, so that the simulation of C85 (the rows of an object do not depend on the others) applies to the list of parts; then C42 and C78 for the table, and C85 for the files that stay; division of a population specified in `Whole/SpecParts.lean` | the calculations for each observation are parameters and the same for all runs; what `glob` finds below a directory, `abspath` and the conversions of pandas are parameters; random features draw in the order of the rows, so that runs with them are left aside |
| C95 | check-logs tells which runs went through | proved | the logs left by the runs of C85 and C92, read by `check_output_logs` of C68 (`Whole/Logs.lean`) | what is written to a log before the completion message is the messages of the rounds, so that a log in which the message occurs is that of a run that had done everything else (induction over the effects of a run, at whatever effect it ended); then the report of C68; `Whole/SpecLogs.lean`. The messages of a run are parameters; an error message that ends a run is not in the model's log, so that only the messages before it are said to lack the completion message | the texts a run logs are parameters that do not contain the completion message; `os.walk` and the CSV text of the report are parameters; the disk of the logs is the one of C68 |
| C96 | Every run keeps its log | proved | the names `sorchaGetLogger` gives to logs, and runs of C85 and C91 that each open and close their logs on the disk that the last one left (`Whole/Session.lean`) | the name of a log is decoded from its end, so that different runs have different logs; a name of an output that could be a log would have a dot in a place where logs have none; a run changes only its outputs (C65, here for runs as a whole), so by induction over the runs each log stays; then C95; what is asked of names is in `Whole/SpecSession.lean` | runs one after another, not at the same time; the time and the process number are parameters of a run; the directory is written without a slash at its end; C96_dotted_fails shows that the condition on dots is needed |
| C97 | Parts of a population, run again until they go through | proved | sequences of runs of C96 in which each run belongs to a part of a population (`Whole/Campaign.lean`) | a run changes only its outputs and log, and leaves at most one file of results and one of ephemerides if there was at most one; by induction over the runs, what the last run for a part finds is as C94 asks, and what it leaves stays; then C94, and C96 for what check-logs says; what is asked of names is in `Whole/SpecCampaign.lean` | runs one after another, not at the same time; the calculations for each observation are parameters and the same for all runs; what `glob` finds below a directory, `os.walk` and the conversions of pandas are parameters |
| C98 | A population in several DES runs, run again until they go through | proved | the runs of C91 in the sequences of C96, and divided as in C94 | as C94 and C97: what comes out for an object depends only on its own observations (C63), so rounds that are put together, or divided otherwise, give the same rows; a DES run, too, changes only its outputs and leaves at most one file of results and one of ephemerides | runs one after another, not at the same time; the calculations for each observation are parameters and the same for all runs; sorting by time is a parameter that sorts; what `glob` finds below a directory, `os.walk` and the conversions of pandas are parameters |
| C99 | Reading objects from a database | proved | `DatabaseReader` with the cache of its base class; affinities, order of values and `LIMIT` of SQLite | two listings by ID of distinct IDs are equal (antisymmetry), so whatever order SQLite chooses is the same; comparison with a parameter agrees with that of printed IDs for stored values; induction over the calls with the cache as invariant | SQLite (orders it leaves open, numbers in texts, number of parameters) and the conversions of pandas are parameters with stated laws; IDs stored as fractions or blobs, and a database that changes between calls, are not modelled |
| C100 | Units of a detector | proved | `Detector` with its units, conversions and rotation | lengths scale with the factor, areas with its square; case analysis on the last conversion | real numbers; a run itself uses detectors in radians only (C31) |
| C101 | Runs at the same time | proved | processes `sorcha run` with their phases; a relation for one step of a process and one for any order of steps | an invariant over the schedule: each process is where it could be if it had run alone from the files of the beginning, and its files agree with those; checks, effects and interruptions of a process depend on, and change, its own files only | the checks of the command line are one step, the inputs are read in one step, and a table being written is seen by the others once it is complete or its process is over; each process has its own log (C96) |
| C102 | Logs of runs at the same time | proved | the processes of C101 with their logs on the disk: starting one opens its logs, every step writes them | the invariant of C101 with the logs outside of what any process reads or writes; what a running process has done so far is what a run stopped here has done, so C95 applies to it | as C101; a step and what it logs are one step, records are written out when they are logged; processes whose arguments are not understood have no logs |
| C103 | The instant for which positions are calculated | proved | `mjd_tai_to_epoch` with a rounding after each operation and the six decimals of its text | bounds on each rounding added up; the printed number of millionths is determined by the interval | floating point numbers as rationals with a rounding after each operation; SPICE's str2et is a parameter that keeps order and is within 2 ms of terrestrial time |
| C104 | Comparing results with a reference | proved | `compare_result_files` on tables with columns of numbers or texts, `np.allclose` with its default tolerances | induction on the columns of the results; the columns are found by name because names differ | the tables are those pd.read_csv gives (a column holds numbers or texts); numbers are exact, the rounding of the tolerance is not modelled |
| C105 | Right ascensions as floating point numbers | proved | `%` and `np.mod` of floating point numbers, from `fmod`, in the two places that reduce right ascensions | the rounding is to a nearest number with 53 digits; such numbers above 256 are multiples of 2^-44; a rounding of this kind is constructed to show that there is one | doubles as rationals with 53 binary digits and any exponent; arctan2 and the conversion to degrees are exact in C54 and C51 and not repeated here |
| C106 | Help for authors of light curve and activity models | proved | the methods of the base classes of light curve and activity models, with the messages they log and what they raise | induction over the required columns | activity models cannot log exceptions (witness) |
| C51 | Randomised measurements | proved | `PPRandomizeMeasurements` | vector algebra, streams | generator is a stream of normal numbers; noise depends on how observations are split into blocks (witness) |
| C52 | Detector assignment from visit-specific footprints | proved | `PPVisitsFootprintFilter` | unique look-up; geometric witnesses | fresh index, search radius at most 90 degrees; shapely, the k-d tree and set order are parameters with their documented behaviour; the _fails theorems show that a row on a chip can be dropped (nearest reference points belong to a neighbour), depending on which other objects share the chunk, and near right ascension 0 at high declination |
| C53 | Light-time iteration | proved | light-time loop | contraction estimate | the integrator is a parameter |
| C54 | Right ascension and declination of a direction | proved | `vec2ra_dec` | arctan2 and arcsin identities | real arithmetic |
| C55 | Candidate objects for a field | proved | candidate look-up of `PixelDict` | set membership from the recorded pixels | healpy is a parameter; the pixel an object stays in is not among the recorded ones (witness) |
| C56 | Two-body propagation of orbital elements | proved | `universal_cartesian` with f and g functions | conserved quantities; existence of the root by monotonicity | exact Stumpff functions and the exact root of Kepler's equation; C56_code bounds the effect of the truncated Stumpff functions; convergence of the root search is not proved |
| C57 | Orbit formats | proved | `parse_orbit_row` | composition of C34, C47, C56 | real arithmetic; the conversion of elements solves Kepler's equation exactly; the Sun's ephemeris is a parameter |
| C58 | What a run starts with | proved | `runLSSTSimulation`'s caller: `run.py` and `sorchaArguments.py` | case analysis | a missing complex-parameter file stops with an uncaught KeyError (witness) |
| C59 | Addresses of the auxiliary files | proved | auxiliary section of the configuration | equality of dictionaries, case analysis | pooch is not modelled beyond the dictionary of addresses it is given |
| C60 | Rows handed to a caller are those that would be written | proved | return mode of `runLSSTSimulation` | induction over rounds | pd.concat of no tables raises |
| C61 | Generated ephemerides: which rows there are | proved | `create_ephemeris` with buffers and pickets | invariant of the state over visits and objects | integrator, healpy, set order and angles are parameters; C61_exact needs visits in order of time and an integrator whose answers do not depend on earlier questions; witnesses for the buffer, for steps back in time, for IDs such as 007 and for no visits |
| C62 | Ephemerides written by a run can be reused | proved | writing and reading back the ephemeris table | composition with C12 to C16 | text file, no such file before the run, floats written and read back unchanged |
| C63 | What a DES run outputs | proved | `runDESSimulation` | as C11 and C16 | what is computed per observation is the parameter measure; healpy and the footprint's corners are parameters |
| C64 | Columns of the output | proved | the names of all columns through every stage of both kinds of run | membership in the list of names stage by stage; agreement with C30's model | names only, values left out; C64_agree ties the names to the model of the magnitudes with values; what models read in the faint object filter is left out |
| C65 | Interrupted runs and reruns | proved | the files of an output directory over any number of runs; a run is a sequence of effects that may end before or in the middle of any of them | invariant over runs (at most one file of each kind, others untouched), then induction over the effects of one run with the content of each file as a function of the effects so far | CSV and sqlite outputs; what an interrupted write leaves of each kind of file is part of the trusted base; the hypothesis of C65_rerun on the columns is C64's |
| C66 | Solving Kepler's equation | proved | the bracketing loop, `halley_safe` pass by pass, the further tries | the value is increasing with slope at least q, so the bracket moves past the root and stays valid; a short step bounds the distance to the root because the distance changes at a bounded relative rate | exact arithmetic and exact Stumpff functions (C49 and C56_code bound the difference for a given anomaly) |
| C67 | Template and demo files | proved | `sorcha init` and `sorcha demo prepare` as functions on a disk that list every state in which they could be ended | induction over the files to copy: each is as before, a beginning, or complete; then over the history of commands | copying a file is taken to write its beginning and then the rest; int() of the answer is a parameter |
| C68 | The report on log files | proved | `check-logs` on a disk, with the walk through the directories as a parameter with a contract | the table is characterised row by row; every state of the disk is listed and looked at | os.walk is a parameter that lists exactly the files below a directory; the text of the report is a parameter |
| C69 | The cache of ephemeris data | proved | `sorcha bootstrap`: removal, the parallel downloads as a transition system in which any of them may make the next step, the meta-kernel; killed in any state | invariant of the downloads with what each stage has written; it determines the final cache; then induction over histories of bootstraps | pooch as documented: a file is moved to its place when complete; a network is what each download finally gives |
| C70 | The data files a run loads | proved | the loading of kernels, ephemerides and observatory codes at the start of a run | each step characterised by what it keeps and adds; composed | what SPICE and ASSIST do with the files is not modelled; one run at a time |
| C71 | Input tables are read by column name | proved | the lines of a text file up to the header, cut at the separator; the frame as names over rows; stripping, dropping and selecting columns | induction over the lines; a cell is found by its name, which determines the selected row | cutting rows into cells and renaming repeated or empty names is pandas; quotation marks are not interpreted |
| C72 | The light curve and activity models that are used | proved | the registries of light curve and activity classes, over any history of definitions and updates; the check of the configuration and the calls | invariant: what is registered under a name is the first class of that name | classes are not garbage collected; what a model computes is a parameter (C18, C43) |
| C73 | The built-in cameras | proved | the two camera files, number by number, and their use by `Footprint` | the kernel compares whole numbers (corners, boxes around detectors); bounds on tan and cos carry this over to the focal plane | real arithmetic on the decimal numbers of the files |
| C74 | The text of the configuration file | proved | `configparser` line by line (headers, settings, continuation, comments, interpolation), the choice of sections, and the supplied files character by character | a small grammar of the text; induction on its derivation; an invariant of the reader; the kernel reads the supplied files | configparser is modelled from its source (Python 3.11); str.lower, float and int are parameters, for the supplied files with monotone rounding that is exact on small multiples of 1/16 |
| C75 | What the supplied Rubin configurations give | proved | the configuration text, the pointing table, the built-in camera and the rounds composed | the theorems of the parts composed: C74 for the text, C40 for the visits, C73 for the camera, C11 for the rounds | what is computed per observation and the noise are parameters; field centres are not at the poles; the observations of the rounds are an argument |
| C76 | Ephemerides kept in HDF5 | proved | tables with index labels: the appends of a run, reading by label, the chunk loop over them | the loop as a traversal of the chunks, case analysis on labels shared between chunks; C62 for the run | whether pandas accepts an empty list of labels is a parameter; same conditions as C62 for the reuse |
| C77 | The settings in the log determine the run | proved | the lines written to the log from command line and settings | the lines are peeled off one by one: no text begins like the one that could stand in its place; congruence of the rounds | str of numbers is an injective parameter that never gives None; texts with line breaks are not interpreted; names of the observatory code files, output path and stem, visits database and colour list are left out of the conclusion |
| C78 | The combined database | proved | the tables made from the input files and the whole of create-sqlite | induction over the files with the table as invariant; induction over the text of a line for cutting it into pieces | how pandas converts a column and how sqlite compares names are parameters; rows longer than the header, repeated names and quotation marks are not modelled |
| C79 | No orbit that could be seen is culled | proved | the estimate of the perihelion and the culling over it | conservation of energy and angular momentum along any two-body motion; comparison of the eccentricities for two masses; C29 | real arithmetic; the conversion of barycentric Keplerian elements solves Kepler's equation exactly; orbits are two-body orbits about one mass of at most 2.964e-4 au^3/day^2 |
| C80 | The seed of a run | proved | `int` of a text, the bytes of the system, MD5 in full, the seeds of the modules, and the rounds started from them | a grammar of numbers equivalent to the reader; congruence of the rounds under seeds that agree modulo 2^31 and under weights without ties; the kernel computes MD5 of the module names | MD5 is modelled in full; the generator of numpy as a function of its seed is a parameter; SORCHA_SEED is taken as ASCII text; reproducibility of Rubin runs needs weights of the linking filter without ties |
| C81 | The command line | proved | the parser of the Python library for the options of `sorcha run` and of `sorcha`: how an argument is classified, abbreviations, letters, values, `--`; the namespace; the search in `PATH` | a grammar of command lines (`Says`) that the parser accepts exactly, by induction on the arguments, in both directions; the arguments of `sorcha` by cases | argparse as in Python 3.11.10, for options that take one value, switches and help; texts are lists of characters; the digits of a negative number are ASCII digits |

## Findings

Behaviour of the code at this commit that contradicts what one would expect, each with a theorem:

| what | theorem |
|---|---|
| A random weight of exactly zero makes the linker miss a discovery opportunity | `C02_zero_weights_fails` |
| One object ID with a character outside ASCII, which all readers accept, stops the linking filter | `C05_encoding_fails` |
| Motion limits below zero, which validation accepts, are squared | `C09_motion_negative_fails` |
| A blank line, or IDs altered by integer inference, make readers lose or confuse objects | `C12_blank_line_fails`, `C13_hdf5_labels_fails`, `C13_numeric_ids_fails`, `C13_blank_above_header_fails` |
| Duplicate IDs in an auxiliary file multiply rows | `C15_duplicate_ids_fails`, `C15_aux_presence_check_fails` |
| HDF5 output fails when a later chunk has a longer text | `C19_empty_file_fails`, `C19_hdf5_fails`, `C19_hdf5_columns_fails` |
| `-f` removes only one of several files with the stem; an aborted command may already have removed it | `C22_force_fails`, `C22_abort_fails` |
| A negative DES slope reverses the fading function | `C24_des_negative_sharpness_fails`, `C24_zero_draw_fails` |
| An observing filter without visits stops the faint object filter | `C29_unused_filter_fails` |
| Phase parameters per filter stop a run with one filter, or with a chunk without matches | `C30_single_filter_phase_fails`, `C64_single_filter_fails`, `C64_empty_fails` |
| A point opposite the field centre is on the camera | `C31_antipode_fails` |
| Radius or fill factor of exactly zero switch the filter off | `C33_zero_fill_factor_fails`, `C33_zero_radius_fails`, `C33_stale_index_fails` |
| A first step back in time uses the reference table of the later time | `C36_backward_fails` |
| The DES triplet search loses objects with an isolated first night; adding an observation can lose an object | `C37_triplet_fails`, `C37_more_data_fails` |
| NaN passes every bound of the configuration; zero or negative chunk sizes; unvalidated flags count as on when given as text | `C38_nan_fails`, `C38_chunk_fails`, `C38_fading_switch_fails`, `C38_external_fails`, `C38_des_message_fails`, `C38_unknown_survey_fails`, `C50_text_fails` |
| Mixed orbit formats are found or not depending on the chunk size | `C39_consistent_fails`, `C39_degenerate_fails` |
| The time check of visits has a tolerance of about half a day | `C40_tolerance_fails`, `C40_repeated_fields_fails` |
| With the main filter not listed first, complete parameter files are refused and incomplete ones accepted | `C41_order_fails`, `C41_substring_fails`, `C41_last_fails`, `C64_first_filter_fails` |
| create-sqlite mixes up columns in another order, and stops if it finds its own output first | `C42_output_first_fails`, `C42_stale_columns_fails`, `C42_column_order_fails` |
| One empty log stops the log checker | `C43_empty_fails` |
| An observatory at longitude zero has no position | `C45_zero_fails` |
| Elements at aphelion, and for a node on the y axis, are wrong | `C47_aphelion_fails`, `C47_node_fails` |
| Noise depends on how observations are split into chunks | `C51_blocks_fails` |
| The visits footprint can lose a row on a chip, depending on other objects in the chunk | `C52_preselection_fails`, `C52_other_objects_fails`, `C52_large_radius_fails`, `C52_high_declination_fails`, `C52_stale_index_fails` |
| The pixel an object stays in is not recorded | `C55_own_pixel_fails` |
| A missing complex-parameter file ends in an uncaught KeyError | `C58_message_fails` |
| Returning no rows at all raises | `C60_empty_fails` |
| IDs such as 007 are changed in generated ephemerides; no visits at all stop the generator; a buffer that is too small loses rows | `C61_buffer_fails`, `C61_backward_fails`, `C61_ids_fails`, `C61_no_visits_fails` |
| DES runs cannot use an SNR limit, the visits footprint with external ephemerides, the distance cut without limits, or basic output | `C63_snr_fails`, `C63_visits_external_fails`, `C63_limits_fails`, `C64_des_basic_fails`, `C64_des_snr_fails` |
| A column name both in an auxiliary file and in the pointing database loses its column; a database with listed columns needs ID, time and filter | `C64_collision_fails`, `C64_index_fails` |
| A run killed inside an sqlite transaction leaves a journal; `-f` then removes one of the two files and the rerun may append to the old table | `C65_journal_fails` |
| Results and statistics of the same name are mixed in one file | `C65_same_name_fails` |
| `sorcha init` that is refused may have copied some files; one that was killed is refused when repeated | `C67_refused_fails`, `C67_resume_fails` |
| `check-logs -o report` overwrites report.csv without --force, deletes `report` with it; with --force the old report is lost even if the check fails | `C68_overwrite_fails`, `C68_delete_fails`, `C68_lost_fails` |
| `bootstrap -f` never works on a cache without meta-kernel or observatory codes, and loses all files without network | `C69_force_fails`, `C69_offline_fails` |
| A failed download does not make `bootstrap` fail; cut off observatory codes are kept for ever | `C69_silent_fails`, `C69_truncated_fails` |
| The meta-kernel is not made anew when kernel names change | `C70_stale_fails` |
| Blanks around column names are removed in parameter and ephemeris files, but make every orbit file be refused; ObjID followed by a blank is refused | `C71_orbit_blanks_fails`, `C71_objid_blank_fails` |
| A comment line that begins with ObjID is taken for the header; a missing ephemeris column ends in a KeyError | `C71_comment_fails`, `C71_ephemeris_refused` |
| A second model class of the same name is ignored without a message; a class derived from another model is not found | `C72_shadowed_fails`, `C72_derived_fails` |
| The model named identity is accepted by the configuration but cannot be called | `C72_identity_fails` |
| The corners of the built-in DES camera are in degrees but read as radians, so the camera is 57 times too large | `C73_des_fails` |
| The DES configuration file that comes with the package is never accepted: its key `self.des_transient_efficency` does not exist | `C74_des_fails` |
| Sections with a misspelt name are ignored without a message, so that e.g. the linking filter is off | `C74_misspelt_fails` |
| A comment after a value and an indented setting become part of the value; a single per cent sign makes the file unreadable | `C74_silent_fails`, `C74_percent_fails` |
| A configuration file with a setting in the section `[DEFAULT]` is never accepted: the setting is passed on to every section, and no key is a key of all of them | `C74_default_fails` |
| HDF5 output with listed columns that lack ObjID always aborts | `C19_hdf5_columns_fails` |
| The survey names LSST and lsst pass the configuration, but no run with them is completed | `C75_lsst_fails` |
| HDF5 ephemerides written over several chunks cannot be read back over several chunks (labels repeat); a longer ID in a later chunk breaks off the writing run | `C76_rounds_fails`, `C76_same_size_fails`, `C76_long_id_fails` |
| the log claims a default edge threshold of two arcseconds where none is applied | `C77_edge_fails` |
| the log leaves out settings that change the output | `C77_radius_fails`, `C77_hidden_fails` |
| create-sqlite takes a comma-separated file for a table with one column | `C78_csv_fails` |
| create-sqlite stores identifiers made of digits as numbers | `C78_number_fails` |
| create-sqlite stops for a column called Index, or depending on the order of files | `C78_index_fails`, `C78_order_fails` |
| the seed does not reach the random weights with which the linking filter breaks ties | `C80_ties_fails` |
| for every run there is another seed that gives one module the random numbers of another | `C80_crossed_fails` |
| `-l`, `--log-level` is described as printing additional information; it turns the additional information off, which is on by default | `C81_log_level_fails` |
| long names with one dash are read as letters: `-force` sets the output path to `rce`, `-cp=x` the configuration file to `p=x` | `C81_single_dash_fails` |
| `--a` and `--v` are refused as ambiguous although both names that they begin are names of one setting | `C81_abbreviation_fails` |
| `sorcha` refuses an argument of a verb that begins with `--=` and drops a `--` right behind the verb | `C81_equals_fails`, `C81_dashes_fails` |
| IDs are inferred as numbers, truth values or missing values: `NA` and `null` become the same object, `TRUE` and `true` too; `1` becomes `1.0` beside `2.5` or an empty ID | `C82_words_fails`, `C82_zeros_fails`, `C82_fraction_fails` |
| the last number of a CSV file that was cut is silently another number; a row of blanks in a table with one column is lost | `C83_number_fails`, `C83_blanks_fails` |
| a single quotation mark at the start of a word (with commas: of a field) in a line above the header of an input file: the header is found, but no block can be read; an empty line at the end: blocks are read, objects are not; an empty ID or an indented ID in quotation marks with a line end: later blocks are other rows | `C84_quote_fails`, `C84_empty_line_fails`, `C84_first_fails` |
| a run whose stem begins with the name for its saved ephemerides and a dot (`-t a.b --ew a`) finds its own log, opened just before, as old ephemerides: without -f it is always refused | `C96_dotted_fails` |
| ephemerides saved with blanks: a missing value is written as nothing, and the next value of the line is read in its place; an ID with a tab is read as two fields | `C92_missing_fails`, `C92_tab_fails` |
| `-f` deletes an input that has the stem of the outputs (`-p out/run.csv -o out -t run -f`) after its presence was checked and before it is read | `C88_input_lost_fails` |
| `sorcha run -s DES` with `output_columns = basic` (accepted by the configuration): DES runs do not compute the uncertainties (des.py:266-272), so the run fails with a KeyError as soon as an observation is to be output | `C91_basic_fails` |
| `sorcha outputs check-logs` takes `-f` for the directory of the logs: `-force` searches the directory `orce`; `sorcha cite` overwrites a file of its name without asking | `C90_check_logs_f_fails`, `C90_cite_overwrites_fails` |
| the database reader, in blocks, may give one row of an object twice and another never; without a cache it finds the object `7` when asked for `007`, and no numbers in a column without type; with a cache it refuses missing values only once, and the table it refused is given at the next call | `C99_repeated_fails`, `C99_spelling_fails`, `C99_untyped_fails`, `C99_refused_once_fails` |
| after a run that failed was run again and went through, `check-logs` still names the failed one: it never says again that all is well, as long as the old log is there | `C97_named`, `C97_all_well_fails` |
| a `Detector` cannot be made in degrees (`degrees`: AttributeError, `deg`: the numbers are taken as radians); `rotateDetector` projects the corners a second time, so that rotating by 0 changes a detector, and forgets its units | `C100_new_fails`, `C100_rotate_fails` |
| two runs with the same output name and without `-f`, started at the same time, are both accepted and write their lines into one file: the check that no results exist and the writing of them are apart | `C101_shared_fails` |
| while one of several runs has just been started, its log still empty, `check-logs` fails and tells of none of them | `C102_early_fails` |
| The time of a visit goes to SPICE as a text with six decimals of a day: visits 0.08 s apart can get the same instant, and a time with at most six decimals is always off by about 0.043 s | `C103_same_fails`, `C103_half_fails` |
| The comparison that the end-to-end tests rely on (`compare_result_files`) takes a time off by half a day and a right ascension off by 10 arcseconds for the same, finds a file with a missing field different from itself, is not symmetric, and raises for another column name | `C104_tolerance_fails`, `C104_missing_fails`, `C104_swap_fails`, `C104_name_fails` |
| Rounding for the output does not always give the nearest decimal: the product with the power of ten is rounded first | `C21_nearest_fails` |
| With a peak efficiency of 0 an observation is still kept if the random number drawn for it is 0 | `C24_zero_draw_fails` |
| The right ascension in generated ephemerides can be 360 itself: `%` rounds up just below a full turn | `C105_full_turn_fails` |
| An activity model cannot log an exception of Python: the base class asks for its attribute `value` | `C106_activity_fails` |

The exact names are in the last section. `seeded/LOG.jsonl` records the wrong programs the theorems were tested against.

## What is modelled, file by file

Lines are those cited by the definitions of the model (gaps up to two lines closed). Lines not listed are documentation, imports and logging, or named in the last column.

| file | lines in all | lines modelled | area | not modelled |
|---|---|---|---|---|
| sorcha/activity/activity_registration.py | 46 | 5-42 | Addons | the text of the error |
| sorcha/activity/base_activity.py | 76 | 46-50, 60 | Addons | logging of exceptions |
| sorcha/activity/identity_activity.py | 55 | 11-52 | Addons | the model that changes nothing; its `compute` takes one argument where five are passed |
| sorcha/des.py | 407 | 71-407 | Columns, DesRun, History, Whole | logging |
| sorcha/ephemeris/orbit_conversion_utilities.py | 540 | 12-540 | Ephem | convergence of the root search |
| sorcha/ephemeris/pixel_dict.py | 382 | 11-382 | Driver, Ephem | healpy |
| sorcha/ephemeris/simulation_constants.py | 36 | 4-36 | Ephem |  |
| sorcha/ephemeris/simulation_data_files.py | 30 | 29 | Setup | constants of addresses, see C59 |
| sorcha/ephemeris/simulation_driver.py | 371 | 51-374 | Columns, Csv, Driver, Ephem, H5, History | progress messages |
| sorcha/ephemeris/simulation_geometry.py | 216 | 12-216 | Driver, Ephem, Turn |  |
| sorcha/ephemeris/simulation_parsing.py | 390 | 12-264, 298-310, 314-342 | Ephem, Epoch, Setup | numerical constants |
| sorcha/ephemeris/simulation_setup.py | 273 | 104-105, 144-190, 211-215, 219-270 | Columns, Driver, Ephem, Epoch, Setup | loading by SPICE and ASSIST themselves |
| sorcha/lightcurves/base_lightcurve.py | 76 | 46-50, 60 | Addons | logging of exceptions |
| sorcha/lightcurves/identity_lightcurve.py | 56 | 12-48 | Addons | the model that changes nothing; it has no `maxBrightness` |
| sorcha/lightcurves/lightcurve_registration.py | 46 | 23-33, 40-42 | Addons | the text of the error |
| sorcha/modules/DESDetectionProbability.py | 110 | 23-53, 103-109 | Columns, Photom |  |
| sorcha/modules/DESDiscoveryFilter.py | 199 | 18-158, 165-199 | Columns, Des, DesRun |  |
| sorcha/modules/DESFadingFunctionFilter.py | 51 | 8-53 | Columns, DesRun, Rng |  |
| sorcha/modules/PPAddUncertainties.py | 299 | 62-299 | Columns, Photom |  |
| sorcha/modules/PPApplyColourOffsets.py | 164 | 7-164 | Columns, Mags |  |
| sorcha/modules/PPApplyFOVFilter.py | 190 | 43-80, 136-152, 178-190 | Columns, DesRun, Pipeline, Rng, Shipped, Visits | logging |
| sorcha/modules/PPBrightLimit.py | 54 | 30-54 | Columns, Filters |  |
| sorcha/modules/PPCalculateApparentMagnitude.py | 95 | 6-95 | Columns, Mags |  |
| sorcha/modules/PPCalculateApparentMagnitudeInFilter.py | 151 | 11-151 | Addons, Columns, Mags |  |
| sorcha/modules/PPCalculateSimpleCometaryMagnitude.py | 44 | 40-44 | Addons | what the activity model computes is a parameter |
| sorcha/modules/PPDetectionEfficiency.py | 46 | 31-46 | Rng |  |
| sorcha/modules/PPDetectionProbability.py | 113 | 23-51, 101-106 | Columns, Photom |  |
| sorcha/modules/PPDistanceandMotionCuts.py | 69 | 24-40, 63-69 | Columns, DesRun, Filters |  |
| sorcha/modules/PPDropObservations.py | 34 | 27-34 | Photom, Rng |  |
| sorcha/modules/PPFadingFunctionFilter.py | 50 | 37-52 | Columns, Rng |  |
| sorcha/modules/PPFaintObjectCullingFilter.py | 135 | 10-135 | Addons, Columns, Cull, Mags |  |
| sorcha/modules/PPFootprintFilter.py | 707 | 36-77, 85-178, 189-394, 413-420, 436-443, 459-466, 541-563, 569-592, 624-702 | Cameras, Geom, Shipped | reading the camera file, plotting, rotation of the detectors by `rotateDetector` |
| sorcha/modules/PPGetMainFilterAndColourOffsets.py | 109 | 5-109 | Inputs |  |
| sorcha/modules/PPLinkingFilter.py | 115 | 5-115 | Columns, Linking, Pipeline |  |
| sorcha/modules/PPMagnitudeLimit.py | 28 | 1-28 | Columns, Filters |  |
| sorcha/modules/PPMatchPointingToObservations.py | 74 | 7-74 | Columns, Pointing |  |
| sorcha/modules/PPMiniDifi.py | 449 | 6-103, 107-156, 160-449 | Linking, Photom, Seed |  |
| sorcha/modules/PPOutput.py | 261 | 13-105, 128-132, 163-241, 245-261 | Columns, Csv, Driver, H5, History, Output, Whole |  |
| sorcha/modules/PPRandomizeMeasurements.py | 445 | 34-445 | Columns, Photom, Pipeline, Seed, Turn |  |
| sorcha/modules/PPReadPointingDatabase.py | 103 | 7-103 | Columns, Epoch, Output, Pointing |  |
| sorcha/modules/PPSNRLimit.py | 31 | 5-32 | Columns, Filters, Photom |  |
| sorcha/modules/PPStats.py | 66 | 4-66 | Columns, Csv, History, Output, Whole |  |
| sorcha/modules/PPTrailingLoss.py | 156 | 25-98 | Photom | documentation only |
| sorcha/modules/PPVignetting.py | 359 | 9-359 | Photom |  |
| sorcha/modules/PPVisitsFootprintFilter.py | 208 | 12-157 | DesRun, Visits |  |
| sorcha/readers/CSVReader.py | 311 | 13-281, 285-315 | Csv, Ids, Readers, Tables, Whole | a header row given by number (no caller gives one) |
| sorcha/readers/CombinedDataReader.py | 270 | 66-109, 136-197, 224-270 | Columns, H5, Readers, Whole |  |
| sorcha/readers/DatabaseReader.py | 140 | 19-113 | Db | not used by a run; IDs stored as fractions or blobs |
| sorcha/readers/EphemerisReader.py | 201 | 37-41, 76-77, 102-180 | Columns, H5, Tables | `read_full_ephemeris_table`; reading by format is the other readers' |
| sorcha/readers/HDF5Reader.py | 127 | 59-70, 95-99 | H5, Readers | HDF5 itself and the query language of pandas; labels are modelled |
| sorcha/readers/ObjectDataReader.py | 210 | 29-212 | Db, Ids, Readers, Tables, Whole | abstract methods |
| sorcha/readers/OrbitAuxReader.py | 207 | 43-207 | Inputs, Tables |  |
| sorcha/sorcha.py | 409 | 60-409 | Columns, Driver, H5, History, Inputs, Log, Output, Photom, Pipeline, Readers, Shipped, Whole | logging, except for the settings |
| sorcha/utilities/check_output_logs.py | 117 | 6-117 | Cli, Csv, Setup | printing |
| sorcha/utilities/citation_text.py | 780 | none |  | text |
| sorcha/utilities/createResultsSQLDatabase.py | 182 | 18-158, 178 | Cli, Sqlite, Whole | argument parsing |
| sorcha/utilities/dataUtilitiesForTests.py | 80 | none |  | test helper |
| sorcha/utilities/diffTestUtils.py | 156 | 13-45 | Compare | test helper |
| sorcha/utilities/fileAccessUtils.py | 58 | 6-64 | Cli, Setup, Whole |  |
| sorcha/utilities/generateGoldens.py | 37 | none |  | test helper |
| sorcha/utilities/generate_meta_kernel.py | 101 | 27-45, 49-102 | Cli, Setup |  |
| sorcha/utilities/retrieve_ephemeris_data_files.py | 87 | 11-87 | Setup | messages |
| sorcha/utilities/sorchaArguments.py | 110 | 89-112 | Cli, Seed | the rest is storing of arguments |
| sorcha/utilities/sorchaCommandLineParser.py | 115 | 8-119 | Cli, Whole |  |
| sorcha/utilities/sorchaConfigs.py | 1749 | 35-58, 90-127, 149-217, 235-270, 284-299, 331-441, 462-541, 602-703, 726-772, 786-806, 831-839, 882-957, 961-1036, 1070-1092, 1106-1155, 1215-1296, 1301-1749 | Addons, Columns, Config, Ini, Inputs, Log, Output, Setup, Whole | error texts |
| sorcha/utilities/sorchaGetLogger.py | 70 | 9-12, 45, 52-66 | History, Whole | logging |
| sorcha/utilities/sorchaModuleRNG.py | 51 | 5-22, 38-51 | Rng, Seed |  |
| sorcha/utilities/sorcha_copy_configs.py | 63 | 11-63 | Setup | messages |
| sorcha/utilities/sorcha_copy_demo_files.py | 52 | 12-52 | Setup | messages |
| sorcha/utilities/sorcha_demo_command.py | 60 | 1-17 | Cmd, Setup | messages |
| sorcha_cmdline/bootstrap.py | 84 | 8-80 | Cmd, Setup | messages |
| sorcha_cmdline/cite.py | 58 | 9-58 | Cmd | the text |
| sorcha_cmdline/demo.py | 95 | 8-91 | Cmd, Setup | messages |
| sorcha_cmdline/init.py | 106 | 9-102 | Cmd, Setup | messages |
| sorcha_cmdline/main.py | 93 | 12-86 | Argv | the texts printed |
| sorcha_cmdline/outputs.py | 157 | 7-153 | Cmd, Setup, Whole | help texts |
| sorcha_cmdline/run.py | 257 | 9-253 | Addons, Argv, Cli, History, Log, Seed, Whole |  |
| sorcha_cmdline/sorchaargumentparser.py | 37 | none |  | a hint printed with the usage |

## Axioms of each theorem

As printed by `#print axioms`. P = `propext`, C = `Classical.choice`, Q = `Quot.sound`; PCQ means all three, – none.

* **C01**: `C01_hasTracklet_iff` PCQ, `C01_float` PCQ, `C01_float_window` PCQ
* **C02**: `C02_offered_sound` PCQ, `C02_offered_complete` PCQ, `C02_offered_generic` PCQ, `C02_zero_weights_fails` PCQ
* **C03**: `C03_date_sound` PCQ, `C03_C07_efficiency_one` PCQ, `C03_float_night` PCQ
* **C04**: `C04_linkObject_total` PCQ, `C04_asterisk` PCQ
* **C05**: `C05_filter_output` PCQ, `C05_works` PCQ, `C05_encoding_fails` PCQ
* **C06**: `C06_order_irrelevant` PCQ, `C06_own_rows_only` PCQ, `C06_chunks` PCQ
* **C07**: `C07_efficiency_zero` PCQ, `C03_C07_efficiency_one` PCQ, `C07_linked_iff_set` PCQ
* **C08**: `C08_monotone` PCQ
* **C09**: `C09_magnitude` PCQ, `C09_snr` PCQ, `C09_bright_single` PCQ, `C09_bright_perFilter` PCQ, `C09_bright_rejects` PCQ, `C09_distance` PCQ, `C09_motion` PCQ, `C09_motion_negative_fails` PCQ
* **C10**: `C10_cuts` PCQ, `C10_order_and_repetition` PCQ, `C10_distance_idempotent` PCQ, `C10_distance_not_commuting` PCQ
* **C11**: `C11_sound` PCQ, `C11_once` PCQ, `C11_linked` PCQ, `C11_linked_all` PCQ, `C11_exact` PCQ, `C11_rounds` PCQ, `C11_rounds_all` PCQ, `C11_files` PCQ, `C11_noise` PCQ
* **C12**: `C12_generated` PCQ, `C12_partition` PCQ, `C12_whole` PCQ, `C12_bad_size` PCQ, `C12_blank_line_fails` P
* **C13**: `C13_rows` PCQ, `C13_objects` PCQ, `C13_histories` PCQ, `C13_hdf5` PCQ, `C13_hdf5_labels_fails` –, `C13_numeric_ids_fails` PCQ, `C13_blank_above_header_fails` PCQ
* **C14**: `C14_check` PCQ, `C14_stops` P
* **C15**: `C15_blocks` PCQ, `C15_whole` PCQ, `C15_duplicate_ids_fails` PCQ, `C15_aux_presence_check_fails` PCQ
* **C16**: `C16_blocks` PCQ, `C16_external` PCQ, `C16_generated` PCQ, `C16_generator` PCQ
* **C17**: `C17_one_draw_per_row` PCQ, `C17_chunks_irrelevant` PCQ, `C17_extremes` PCQ, `C17_efficiency` PCQ
* **C18**: `C18_stream` PCQ, `C18_isolation` PCQ
* **C19**: `C19_csv` PCQ, `C19_aligned` PCQ, `C19_prefix` PCQ, `C19_empty_file_fails` –, `C19_sqlite` PQ, `C19_hdf5_fails` PCQ, `C19_hdf5_columns_fails` PCQ, `C19_hdf5` PCQ
* **C20**: `C20_total` PCQ, `C20_one_row` PCQ, `C20_values` PCQ, `C20_median` PCQ, `C20_float` PCQ
* **C21**: `C21_output` PCQ, `C21_list_abort` PCQ, `C21_basic_abort` PCQ, `C21_rounding` PCQ, `C21_float` PCQ, `C21_float_order` PCQ, `C21_float_again` PCQ, `C21_nearest_fails` PCQ
* **C22**: `C22_no_force` PCQ, `C22_only_own` PCQ, `C22_force_single` PCQ, `C22_force_removes` PCQ, `C22_force_fails` PCQ, `C22_abort_fails` PCQ
* **C23**: `C23_formula` PCQ, `C23_zero` PCQ, `C23_order` PCQ, `C23_monotone` PCQ, `C23_unknown` PCQ, `C23_crossing` PCQ, `C23_float` PCQ
* **C24**: `C24_fading` PCQ, `C24_zero` PCQ, `C24_probability` PCQ, `C24_des` PCQ, `C24_des_negative_sharpness_fails` PCQ, `C24_float` PCQ, `C24_float_half` PCQ, `C24_float_order` PCQ, `C24_float_bright` PCQ, `C24_zero_draw_fails` PCQ, `C24_float_des` PCQ
* **C25**: `C25_formula` PCQ, `C25_snr` PCQ, `C25_photometric` PCQ, `C25_astrometric` PCQ, `C25_pipeline` PCQ, `C25_float` PCQ
* **C26**: `C26_vignetting` PCQ, `C26_table` PCQ, `C26_depth` PCQ
* **C27**: `C27_flux` PCQ, `C27_unit` PCQ, `C27_ranges` PCQ, `C27_vector` PCQ, `C27_angles` PCQ, `C27_poles` PCQ, `C27_noise` PCQ
* **C28**: `C28_separation` PCQ, `C28_metric` PCQ
* **C29**: `C29_sound` PCQ, `C29_observer` PCQ, `C29_kept` PCQ, `C29_lightcurve` PCQ, `C29_unused_filter_fails` PCQ
* **C30**: `C30_colours` PCQ, `C30_abort` PCQ, `C30_unknown` PCQ, `C30_magnitude` PCQ, `C30_addons` PCQ, `C30_distance` PCQ, `C30_single_filter_phase_fails` PCQ
* **C31**: `C31_inside` PCQ, `C31_tolerance` PCQ, `C31_edge` PCQ, `C31_rows` PCQ, `C31_camera` PCQ, `C31_projection` PCQ, `C31_corners` PCQ, `C31_antipode_fails` PCQ
* **C32**: `C32_distance` PCQ
* **C33**: `C33_circle` PCQ, `C33_fill_factor` PCQ, `C33_fill_factor_one` PCQ, `C33_applyCircle` PCQ, `C33_zero_fill_factor_fails` PQ, `C33_zero_radius_fails` PQ, `C33_stale_index_fails` PCQ
* **C34**: `C34_inverse` PCQ, `C34_isometry` PCQ, `C34_sense` PCQ
* **C35**: `C35_nodes` PCQ, `C35_quadratic` PCQ
* **C36**: `C36_consistent` PCQ, `C36_brackets` PCQ, `C36_second_update` PCQ, `C36_backward_fails` PCQ, `C36_float` PCQ, `C36_float_brackets` PCQ
* **C37**: `C37_sound` PCQ, `C37_exact` PCQ, `C37_search` PCQ, `C37_first` PCQ, `C37_all_or_none` PCQ, `C37_sorted` PCQ, `C37_own` PCQ, `C37_nights` PCQ, `C37_arc` PCQ, `C37_triplet_fails` PCQ, `C37_more_data_fails` PCQ
* **C38**: `C38_file` PCQ, `C38_input` PCQ, `C38_simulation` PCQ, `C38_filters` PCQ, `C38_saturation` PCQ, `C38_saturation_safe` PCQ, `C38_phase` PQ, `C38_fov` PCQ, `C38_fading` PCQ, `C38_linking` PCQ, `C38_linking_safe` PCQ, `C38_output` PCQ, `C38_model` PQ, `C38_expert` PCQ, `C38_visits` PCQ, `C38_nan_fails` PCQ, `C38_chunk_fails` PCQ, `C38_fading_switch_fails` PCQ, `C38_external_fails` PCQ, `C38_des_message_fails` PCQ, `C38_unknown_survey_fails` PCQ
* **C39**: `C39_block` PCQ, `C39_columns` PQ, `C39_file` PCQ, `C39_rows` PCQ, `C39_consistent_fails` PQ, `C39_degenerate_fails` PQ
* **C40**: `C40_read` PCQ, `C40_read_ok` PCQ, `C40_match` PCQ, `C40_mismatch` PCQ, `C40_unique` PCQ, `C40_append` PCQ, `C40_own_ephemeris` PCQ, `C40_tolerance_fails` PCQ, `C40_repeated_fields_fails` PCQ
* **C41**: `C41_accept` PCQ, `C41_column` PQ, `C41_complete` PCQ, `C41_good` PCQ, `C41_order_fails` PCQ, `C41_substring_fails` PCQ, `C41_last_fails` PCQ
* **C42**: `C42_rows` PQ, `C42_mixed` PQ, `C42_output_first_fails` –, `C42_stale_columns_fails` –, `C42_column_order_fails` P
* **C43**: `C43_last_line` PCQ, `C43_unfinished` PCQ, `C43_killed` PCQ, `C43_all` PCQ, `C43_empty_fails` PCQ
* **C44**: `C44_pieces` PCQ, `C44_lossless` PCQ, `C44_file_name` PCQ, `C44_meta_kernel` PCQ, `C44_file_name_fails` PCQ
* **C45**: `C45_position` PCQ, `C45_zero_fails` PCQ, `C45_motion` PCQ
* **C46**: `C46_principal_value` PCQ
* **C47**: `C47_conic` PCQ, `C47_round_trip` PCQ, `C47_aphelion_fails` PCQ, `C47_node_fails` PCQ
* **C48**: `C48_basis` PCQ, `C48_rates` PCQ, `C48_light_time` PCQ, `C48_range_rate` PCQ, `C48_phase` PCQ, `C48_states` PCQ
* **C49**: `C49_accuracy_nonneg` PCQ, `C49_accuracy_neg` PCQ, `C49_doubling` PCQ, `C49_meaning` PCQ
* **C50**: `C50_bool` PCQ, `C50_default` PCQ, `C50_text_fails` PCQ
* **C82**: `C82_ordinary` PCQ, `C82_exact` PCQ, `C82_text` PCQ, `C82_numbers` PCQ, `C82_truths` PCQ, `C82_words_fails` PCQ, `C82_zeros_fails` PCQ, `C82_fraction_fails` PCQ
* **C83**: `C83_read_back` PCQ, `C83_ephemerides` PCQ, `C83_cut` PCQ, `C83_history` PCQ, `C83_interrupted` PCQ, `C83_number_fails` PCQ, `C83_blanks_fails` PCQ
* **C84**: `C84_rows` PCQ, `C84_ids` PCQ, `C84_objects` PCQ, `C84_lines` PCQ, `C84_written` PCQ, `C84_quote_fails` PCQ, `C84_first_fails` PCQ, `C84_empty_line_fails` PCQ
* **C85**: `C85_external` PCQ, `C85_generated` PCQ, `C85_chunks` PCQ, `C85_generated_chunks` PCQ, `C85_stopped` PCQ, `C85_generated_stopped` PCQ, `C85_others` PCQ, `C85_external_sqlite` PCQ, `C85_generated_sqlite` PCQ, `C85_chunks_sqlite` PCQ, `C85_generated_chunks_sqlite` PCQ, `C85_stopped_sqlite` PCQ, `C85_generated_stopped_sqlite` PCQ
* **C86**: `C86_repeat` PCQ, `C86_stopped` PCQ, `C86_recovers` PCQ
* **C87**: `C87_saved` PCQ, `C87_chunks` PCQ
* **C88**: `C88_external` PCQ, `C88_generated` PCQ, `C88_input_lost_fails` PCQ
* **C89**: `C89_results` PCQ, `C89_results_sqlite` PCQ, `C89_stopped` PCQ, `C89_chunks` PCQ, `C89_finishes` PCQ
* **C90**: `C90_init` PCQ, `C90_bootstrap` PCQ, `C90_cite` PCQ, `C90_demo_prepare` PCQ, `C90_demo_howto` PCQ, `C90_create_sqlite` PCQ, `C90_check_logs` PCQ, `C90_init_keeps` PCQ, `C90_init_files` PCQ, `C90_demo_keeps` PCQ, `C90_demo_files` PCQ, `C90_cite_only` PCQ, `C90_cite_file` PCQ, `C90_logs_keeps` PCQ, `C90_verbose` PCQ, `C90_check_logs_f_fails` PCQ, `C90_cite_overwrites_fails` PCQ
* **C91**: `C91_results` PCQ, `C91_exact` PCQ, `C91_chunks` PCQ, `C91_stopped` PCQ, `C91_others` PCQ, `C91_basic_fails` PCQ
* **C92**: `C92_written` PCQ, `C92_read_back` PCQ, `C92_missing_fails` PCQ, `C92_tab_fails` PCQ
* **C93**: `C93_external` PCQ, `C93_generated` PCQ, `C93_des` PCQ
* **C94**: `C94_external` PCQ, `C94_generated` PCQ, `C94_combined` PQ, `C94_create_sqlite` PCQ, `C94_kept` PCQ
* **C95**: `C95_rubin` PCQ, `C95_des` PCQ, `C95_campaign` PCQ
* **C96**: `C96_names` PCQ, `C96_apart` PCQ, `C96_kept` PCQ, `C96_kept_des` PCQ, `C96_told` PCQ, `C96_told_des` PCQ, `C96_dotted_fails` PCQ
* **C97**: `C97_last` PCQ, `C97_external` PCQ, `C97_generated` PCQ, `C97_told` PCQ, `C97_named` PCQ, `C97_all_well_fails` PCQ
* **C98**: `C98_external` PCQ, `C98_generated` PCQ, `C98_last` PCQ, `C98_again_external` PCQ, `C98_again_generated` PCQ, `C98_told` PCQ, `C98_named` PCQ
* **C99**: `C99_listing` PCQ, `C99_histories` PCQ, `C99_blocks` PCQ, `C99_repeated` PCQ, `C99_missing` PCQ, `C99_repeated_fails` PCQ, `C99_spelling_fails` PCQ, `C99_untyped_fails` PCQ, `C99_missing_id_fails` PCQ, `C99_limits_fails` PCQ, `C99_refused_once_fails` PCQ
* **C100**: `C100_back` PCQ, `C100_last` PCQ, `C100_same` PCQ, `C100_tolerance` PCQ, `C100_new_fails` PCQ, `C100_rotate_fails` PCQ
* **C101**: `C101_alone` PCQ, `C101_others` PCQ, `C101_same` PCQ, `C101_series` PCQ, `C101_series_des` PCQ, `C101_reads` PCQ, `C101_reads_des` PCQ, `C101_external` PCQ, `C101_generated` PCQ, `C101_external_des` PCQ, `C101_generated_des` PCQ, `C101_shared_fails` PCQ
* **C102**: `C102_alone` PCQ, `C102_others` PCQ, `C102_told` PCQ, `C102_told_des` PCQ, `C102_early_fails` PCQ, `C102_external` PCQ, `C102_generated` PCQ, `C102_external_des` PCQ, `C102_generated_des` PCQ
* **C103**: `C103_close` PCQ, `C103_start` PCQ, `C103_order` PCQ, `C103_same_fails` PCQ, `C103_half_fails` PCQ
* **C104**: `C104_iff` PCQ, `C104_columns` PCQ, `C104_self` PCQ, `C104_missing_fails` PCQ, `C104_swap_fails` PCQ, `C104_tolerance_fails` PCQ, `C104_name_fails` PCQ
* **C105**: `C105_ephemeris` PCQ, `C105_below` PCQ, `C105_randomised` PCQ, `C105_full_turn_fails` PCQ
* **C106**: `C106_columns` PQ, `C106_lightcurve` –, `C106_activity_fails` –
* **C51**: `C51_randomised` PCQ, `C51_off` PCQ, `C51_blocks_fails` PCQ
* **C52**: `C52_sound` PCQ, `C52_complete` PCQ, `C52_unwrap` PCQ, `C52_preselection_fails` PCQ, `C52_other_objects_fails` PCQ, `C52_large_radius_fails` PCQ, `C52_high_declination_fails` PCQ, `C52_stale_index_fails` PCQ
* **C53**: `C53_light_time` PCQ
* **C54**: `C54_round_trip` PCQ, `C54_inverse` PCQ
* **C55**: `C55_candidates` PQ, `C55_own_pixel_fails` PQ
* **C56**: `C56_derivatives` PCQ, `C56_root` PCQ, `C56_newton` PCQ, `C56_perihelion` PCQ, `C56_period` PCQ, `C56_code` PCQ
* **C57**: `C57_cartesian` PCQ, `C57_keplerian` PCQ, `C57_cometary` PCQ, `C57_unknown` PCQ, `C57_own_row` PCQ, `C57_starts` PCQ, `C57_elements` PCQ, `C57_elements_given` PCQ
* **C58**: `C58_start` PCQ, `C58_starts` PQ, `C58_arguments` PQ, `C58_message_fails` –
* **C59**: `C59_address` PQ, `C59_reject` PQ, `C59_name_only_fails` P, `C59_same_name_fails` P
* **C60**: `C60_returned` PCQ, `C60_empty_fails` PCQ
* **C61**: `C61_rows` PCQ, `C61_alone` PCQ, `C61_exact` PCQ, `C61_reference` PCQ, `C61_joined` PCQ, `C61_some_visits` PQ, `C61_buffer_fails` PCQ, `C61_backward_fails` PCQ, `C61_ids_fails` PCQ, `C61_no_visits_fails` PQ
* **C62**: `C62_reuse` PCQ
* **C63**: `C63_stages` PCQ, `C63_sound` PCQ, `C63_once` PCQ, `C63_rounds` PCQ, `C63_blocks` PCQ, `C63_external` PCQ, `C63_generated` PCQ, `C63_snr_fails` PCQ, `C63_visits_external_fails` PCQ, `C63_limits_fails` PCQ
* **C64**: `C64_rubin` PCQ, `C64_des` PCQ, `C64_basic` PCQ, `C64_all` PCQ, `C64_listed` PCQ, `C64_stats` PCQ, `C64_index` PCQ, `C64_same` PCQ, `C64_des_same` PCQ, `C64_agree` PCQ, `C64_des_basic_fails` PCQ, `C64_des_snr_fails` PCQ, `C64_single_filter_fails` PCQ, `C64_empty_fails` PCQ, `C64_first_filter_fails` PCQ, `C64_collision_fails` PCQ, `C64_index_fails` PCQ
* **C65**: `C65_history` PCQ, `C65_interrupted` PCQ, `C65_refused` PCQ, `C65_log` PCQ, `C65_rerun` PCQ, `C65_journal_fails` PCQ, `C65_same_name_fails` PCQ
* **C66**: `C66_bracket` PCQ, `C66_ends` PCQ, `C66_accuracy` PCQ, `C66_state` PCQ
* **C67**: `C67_protects` PCQ, `C67_only_own` PCQ, `C67_accepts` PCQ, `C67_delivers` PCQ, `C67_stages` PCQ, `C67_recovers` PCQ, `C67_demo_command` PCQ, `C67_demo_run` PCQ, `C67_refused_fails` PCQ, `C67_resume_fails` PCQ
* **C68**: `C68_protects` PCQ, `C68_only_report` PCQ, `C68_report` PCQ, `C68_works` PCQ, `C68_overwrite_fails` PCQ, `C68_delete_fails` PCQ, `C68_lost_fails` PCQ
* **C69**: `C69_schedule` PCQ, `C69_progress` PCQ, `C69_idle` PCQ, `C69_keeps` PCQ, `C69_complete` PCQ, `C69_ends` PCQ, `C69_report` PCQ, `C69_others` PCQ, `C69_whole` PCQ, `C69_recovers` PCQ, `C69_force` PCQ, `C69_force_fails` PCQ, `C69_offline_fails` PCQ, `C69_silent_fails` PCQ, `C69_truncated_fails` PCQ
* **C70**: `C70_loads` PCQ, `C70_starts` PCQ, `C70_offline` PCQ, `C70_after_bootstrap` PCQ, `C70_same` PCQ, `C70_stale_fails` PCQ
* **C71**: `C71_header` PCQ, `C71_format` P, `C71_wrong_format` PCQ, `C71_names` PCQ, `C71_ephemeris` PCQ, `C71_ephemeris_refused` PCQ, `C71_order` PCQ, `C71_orbit_blanks_fails` PCQ, `C71_objid_blank_fails` PCQ, `C71_comment_fails` PCQ
* **C72**: `C72_import` PQ, `C72_accepted` PQ, `C72_none` PQ, `C72_used` PQ, `C72_each` PQ, `C72_stable` PQ, `C72_shadowed_fails` PQ, `C72_derived_fails` –, `C72_identity_fails` PCQ
* **C73**: `C73_choice` PCQ, `C73_lsst_detectors` PCQ, `C73_lsst_once` PCQ, `C73_lsst_seen` PCQ, `C73_lsst_exact` PCQ, `C73_lsst_radius` PCQ, `C73_des_fails` PCQ
* **C74**: `C74_reads` PCQ, `C74_twice` PCQ, `C74_wellformed` PQ, `C74_templates` PCQ, `C74_des_fails` PCQ, `C74_misspelt_fails` PCQ, `C74_silent_fails` PCQ, `C74_percent_fails` PCQ, `C74_default_fails` PCQ
* **C75**: `C75_footprint` PCQ, `C75_circular` PCQ, `C75_known` PCQ, `C75_known_runs` PCQ, `C75_once` PCQ, `C75_lsst_fails` PCQ
* **C76**: `C76_same` PCQ, `C76_stops` PCQ, `C76_safe` PCQ, `C76_reuse` PCQ, `C76_rounds_fails` PCQ, `C76_same_size_fails` PCQ, `C76_long_id_fails` PQ
* **C77**: `C77_determines` PCQ, `C77_same_run` PCQ, `C77_same_input` PCQ, `C77_radius_fails` PCQ, `C77_edge_fails` PCQ, `C77_hidden_fails` PCQ
* **C78**: `C78_database` PCQ, `C78_accepts` PCQ, `C78_rows` PCQ, `C78_input` PCQ, `C78_again` PQ, `C78_csv_fails` PCQ, `C78_number_fails` PCQ, `C78_index_fails` PCQ, `C78_order_fails` PCQ
* **C79**: `C79_sound` PCQ, `C79_own` PCQ, `C79_keplerian` PCQ, `C79_runs` PCQ
* **C80**: `C80_seed` PCQ, `C80_log` PCQ, `C80_modulo` PCQ, `C80_replay` PCQ, `C80_modules` PCQ, `C80_streams` PCQ, `C80_other` PCQ, `C80_crossed_fails` PCQ, `C80_bytes` PCQ, `C80_ties_fails` PCQ
* **C81**: `C81_run` PCQ, `C81_unique` PCQ, `C81_order` PCQ, `C81_dispatch` PCQ, `C81_status` PCQ, `C81_log_level_fails` PCQ, `C81_single_dash_fails` PCQ, `C81_abbreviation_fails` PCQ, `C81_equals_fails` PCQ, `C81_dashes_fails` PCQ
