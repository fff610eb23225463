import Mathlib.Data.List.Sort
import Mathlib.Data.List.Dedup

/-!
# Model of the command line utilities

`warn_or_remove_file` and the output checks of `sorchaCommandLineParser`, the checks of `sorcha run`, `create-sqlite`, `check-logs` and the
meta-kernel file.
-/

namespace Sorcha.Cli

/-! ## Existing output files: utilities/sorchaCommandLineParser.py -/

/-- The ways a command stops. -/
inductive Err
  | exists (pattern : String)     -- `sys.exit`, sorchaCommandLineParser.py:30-36
  | notFound (arg : String)       -- `sys.exit`, fileAccessUtils.py:32-34, 62-64
  | exit (msg : String)           -- another `sys.exit`
  | keyError                      -- uncaught `KeyError`
  | noResults                     -- `sys.exit`, createResultsSQLDatabase.py:50-51
  | noTable                       -- uncaught `sqlite3.OperationalError: no such table`
  | badRow                        -- uncaught `sqlite3` error: wrong number of values
  | emptyLog                      -- uncaught `IndexError`
deriving DecidableEq, Repr

/-- A file system: the paths of the existing files; directories are not among them. -/
abbrev FS := List String

/-- `warn_or_remove_file`, sorchaCommandLineParser.py:8-36. `globbed` is the answer of `glob.glob(filepath)`: the existing paths that match,
in an order chosen by the file system. Only the first is removed (line 29). The result is the outcome and the file system after it. -/
def warnOrRemove (globbed : FS → List String) (name : String) (force : Bool) (fs : FS) : Except Err Unit × FS :=
  match globbed fs with
  | [] => (.ok (), fs)
  | p :: _ => if force then (.ok (), fs.filter (· ≠ p)) else (.error (.exists name), fs)

/-- Continue unless the command has stopped. -/
def andThen (r : Except Err Unit × FS) (k : FS → Except Err Unit × FS) : Except Err Unit × FS :=
  match r.1 with
  | .ok _ => k r.2
  | .error e => (.error e, r.2)

/-- The command line of `sorcha run`, run.py:9-134. -/
structure Args where
  p : String
  ob : String
  c : String
  o : String
  pd : String
  cp : Option String
  er : Option String
  ew : Option String
  vd : Option String
  st : Option String
  ar : Option String
  f : Bool
  s : String
  t : String

/-- `glob.glob(os.path.join(outpath, stem + ".*"))` and `glob.glob(os.path.join(outpath, stem + ".csv"))`. -/
structure Glob where
  anyExt : String → String → FS → List String
  csv : String → String → FS → List String

/-- `FindFileOrExit`, fileAccessUtils.py:6-34. `exist` also covers directories. -/
def findFile (exist : String → Bool) (path arg : String) : Except Err String :=
  if exist path then .ok path else .error (.notFound arg)

/-- The dictionary built by `sorchaCommandLineParser`; `complexParams = none` stands for a missing key. -/
structure CmdArgs where
  paramsinput : String
  orbinfile : String
  configfile : String
  outpath : String
  pointingDatabase : String
  complexParams : Option String
  inputEphemerisFile : Option String
  outputEphemerisFile : Option String
  visitsDatabase : Option String
  surveyname : String
  outfilestem : String
  stats : Option String
  arDataPath : Option String

/-- `FindFileOrExit` on an optional argument; `if args.cp:` also skips the empty string. -/
def findOptional (exist : String → Bool) (skipEmpty : Bool) (path : Option String) (arg : String) : Except Err (Option String) :=
  match path with
  | none => .ok none
  | some q => if skipEmpty && q.isEmpty then .ok none else (findFile exist q arg).map some

/-- `warn_or_remove_file` on an optional name. -/
def warnOptional (skipEmpty : Bool) (name : Option String) (g : String → FS → List String) (force : Bool) (fs : FS) : Except Err Unit × FS :=
  match name with
  | none => (.ok (), fs)
  | some n => if skipEmpty && n.isEmpty then (.ok (), fs) else warnOrRemove (g n) n force fs

/-- The input files, sorchaCommandLineParser.py:61-91. -/
def findInputs (exist : String → Bool) (a : Args) : Except Err (Option String × Option String) := do
  let _ ← findFile exist a.p "-p, --params"
  let _ ← findFile exist a.ob "-ob, --orbit"
  let _ ← findFile exist a.c "-c, --config"
  let _ ← findFile exist a.o "-o, --outfile"
  let _ ← findFile exist a.pd "-pd, --pointing_database"
  let cp ← findOptional exist true a.cp "-cp, --complex_physical_parameters"
  let vd ← findOptional exist false a.vd "-vd, --visits-db"
  return (cp, vd)

/-- The output files, sorchaCommandLineParser.py:93-113: ephemeris file, statistics, the ephemeris data directory, output. -/
def checkOutputs (isDir : String → Bool) (g : Glob) (a : Args) (fs : FS) : Except Err Unit × FS :=
  andThen (warnOptional true a.ew (g.anyExt a.o) a.f fs) fun fs =>
  andThen (warnOptional false a.st (g.csv a.o) a.f fs) fun fs =>
  andThen ((findOptional isDir true a.ar "-ar, --ar_data_path").map fun _ => (), fs) fun fs =>
  warnOrRemove (g.anyExt a.o a.t) a.t a.f fs

/-- `sorchaCommandLineParser`, sorchaCommandLineParser.py:39-119: the dictionary, or the reason for stopping, and the files after it. -/
def commandLine (exist isDir : String → Bool) (g : Glob) (a : Args) (fs : FS) : Except Err CmdArgs × FS :=
  match findInputs exist a with
  | .error e => (.error e, fs)
  | .ok (cp, vd) =>
    let r := checkOutputs isDir g a fs
    (r.1.map fun _ => ⟨a.p, a.ob, a.c, a.o, a.pd, cp, a.er, a.ew, vd, a.s, a.t, a.st, a.ar⟩, r.2)

/-! ## `sorcha run`: sorcha_cmdline/run.py -/

/-- The configuration values `sorcha run` looks at. -/
structure RunConfig where
  ephemeridesType : String
  lcModel : Option String
  cometActivity : Option String
  cameraModel : String
  visitsQuery : Option String
deriving DecidableEq, Repr

/-- Which simulation is started. -/
inductive Start
  | rubin
  | des
deriving DecidableEq, Repr

/-- `cmd_args["complex_physical_parameters"] is None`, run.py:180, 184: the key is only there when the argument was given, so the test
raises `KeyError` or is false. -/
def needComplex (model : Option String) (cp : Option String) : Except Err Unit :=
  match model with
  | none => .ok ()
  | some m => if m.isEmpty then .ok () else
    match cp with
    | none => .error .keyError
    | some _ => .ok ()

/-- `sorchaArguments.validate_arguments`, sorchaArguments.py:93-112; failures leave through `sys.exit`. -/
def validateArguments (isFile isDir : String → Bool) (a : CmdArgs) : Except Err Unit :=
  if !isFile a.paramsinput then .error (.exit "params")
  else if !isFile a.orbinfile then .error (.exit "orbit")
  else if a.inputEphemerisFile.any (fun e => !e.isEmpty && !isFile e) then .error (.exit "ephem_read")
  else if !isFile a.configfile then .error (.exit "config")
  else if !isFile a.pointingDatabase then .error (.exit "pointing_database")
  else if a.arDataPath.any (fun e => !e.isEmpty && !isDir e) then .error (.exit "ar_data_path")
  else .ok ()

/-- The checks of `execute` after the configuration has been read, run.py:175-253. -/
def execute (isFile isDir : String → Bool) (cfg : RunConfig) (a : CmdArgs) : Except Err Start := do
  if cfg.ephemeridesType = "external" ∧ a.inputEphemerisFile = none then .error (.exit "no ephemerides file") else .ok ()
  needComplex cfg.lcModel a.complexParams
  needComplex cfg.cometActivity a.complexParams
  if cfg.cameraModel ≠ "visits_footprint" ∧ a.visitsDatabase ≠ none then .error (.exit "visits-db") else .ok ()
  if (a.visitsDatabase ≠ none ∧ cfg.visitsQuery = none) ∨ (a.visitsDatabase = none ∧ cfg.visitsQuery ≠ none) then
    .error (.exit "visits-db and visits_query") else .ok ()
  if a.surveyname = "rubin_sim" ∨ a.surveyname = "RUBIN_SIM" then do
    validateArguments isFile isDir a
    return Start.rubin
  else if a.surveyname = "LSST" ∨ a.surveyname = "lsst" then .error (.exit "not started")
  else if a.surveyname = "DES" ∨ a.surveyname = "des" then do
    validateArguments isFile isDir a
    return Start.des
  else .error (.exit "survey name")

/-! ## `create-sqlite`: utilities/createResultsSQLDatabase.py -/

/-- A table: column names and rows of values. -/
structure Tab (V : Type) where
  columns : List String
  rows : List (List V)
deriving DecidableEq, Repr

variable {V : Type}

/-- The loop over the result databases, createResultsSQLDatabase.py:72-83. `content` gives the table `sorcha_results` of a database. -/
def insertAll (content : String → Option (Tab V)) (ncols : ℕ) : List String → Except Err (List (List V))
  | [] => .ok []
  | f :: fs =>
    match content f with
    | none => .error .noTable
    | some t =>
      if t.rows.all (fun r => r.length = ncols) then (insertAll content ncols fs).map (t.rows ++ ·)
      else .error .badRow

/-- `create_results_table`, createResultsSQLDatabase.py:18-86, as called at line 143: the excluded path `filename` is the *inputs* directory.
`found` is the answer of `glob`; `out` the path of the new database, which exists since line 136 at the latest. `content` describes the
databases before the call; once the table has been dropped and created (lines 56-64, committed at once by sqlite) a second connection to `out` reads
an empty table until the final commit. -/
def createResults (content : String → Option (Tab V)) (found : List String) (filename out : String) : Except Err (Tab V) := do
  let list := found.erase filename
  match list with
  | [] => .error .noResults
  | first :: _ =>
    match content first with
    | none => .error .noTable
    | some t =>
      let during : String → Option (Tab V) := fun f => if f = out then some ⟨t.columns, []⟩ else content f
      (insertAll during t.columns.length list).map fun rows => ⟨t.columns, rows⟩

/-! ## `check-logs`: utilities/check_output_logs.py -/

/-- `str.splitlines()`; `br` are the line boundaries. -/
def splitGo (br : Char → Bool) : List Char → List Char → List (List Char)
  | acc, [] => if acc.isEmpty then [] else [acc.reverse]
  | acc, c :: cs => if br c then acc.reverse :: splitGo br [] cs else splitGo br (c :: acc) cs

/-- `f.read().splitlines()`, check_output_logs.py:55. -/
def splitlines (br : Char → Bool) (s : List Char) : List (List Char) := splitGo br [] s

/-- The end of a successful log, check_output_logs.py:58. -/
def completion : List Char := "Sorcha process is completed. ".toList

/-- One log: whether it is good, and the line reported; check_output_logs.py:53-63. `lines[-1]` raises on an empty log. -/
def checkLog (br : Char → Bool) (log : List Char) : Except Err (Bool × List Char) :=
  match (splitlines br log).getLast? with
  | none => .error .emptyLog
  | some l => if l.drop (l.length - 29) = completion then .ok (true, [' ']) else .ok (false, l)

/-- `check_all_logs`, check_output_logs.py:29-65. -/
def checkAllLogs (br : Char → Bool) (logs : List (List Char)) : Except Err (List (Bool × List Char)) := logs.mapM (checkLog br)

/-! ## The meta-kernel: utilities/generate_meta_kernel.py -/

/-- `"+' '"`, generate_meta_kernel.py:44. -/
def continuation : List Char := "+' '".toList

/-- The loop `for n in range(n_iter, 0, -1)`, generate_meta_kernel.py:43-44. -/
def splitLoop (split : ℕ) : ℕ → List Char → List Char
  | 0, s => s
  | n + 1, s => splitLoop split n (s.take (split * (n + 1)) ++ continuation ++ s.drop (split * (n + 1)))

/-- `_split_kernel_path_str`, generate_meta_kernel.py:27-45. -/
def splitPath (split : ℕ) (s : List Char) : List Char := splitLoop split (s.length / split) s

/-- `str.replace(old, new)`: occurrences from left to right. -/
def replaceAll (old new : List Char) : ℕ → List Char → List Char
  | 0, s => s
  | _ + 1, [] => []
  | fuel + 1, c :: cs =>
    if old.isPrefixOf (c :: cs) then new ++ replaceAll old new fuel ((c :: cs).drop old.length) else c :: replaceAll old new fuel cs

/-- `_build_file_name`, generate_meta_kernel.py:82-102. -/
def buildFileName (cacheDir path : List Char) : List Char := replaceAll cacheDir "$A".toList (path.length + 1) path

/-- The lines `PATH_VALUES` and `KERNELS_TO_LOAD` of the file, generate_meta_kernel.py:65-79; `fetch` gives the local path of a file. -/
def metaKernel (abspath : List Char) (fetch : String → List Char) (files : List String) : List Char × List (List Char) :=
  (splitPath 79 abspath, files.map fun f => buildFileName abspath (fetch f))

end Sorcha.Cli
