import Verif.Argv.Model
import Verif.Csv.Text
import Verif.History.Model
import Verif.Ini.Model
import Verif.Pipeline.Model

/-!
# `sorcha run` from the command line to the files

The models of the other directories put together: the arguments (`Argv`), the checks of the command line (`Cli`), the configuration file (`Ini`, `Config`), the readers on the
texts of the input files (`Csv.Text`, `Readers`), the rounds (`Pipeline`), the tables written (`Output`) and the files (`History`). Only texts are read, with commas or with
blanks, only CSV and sqlite output is written, only Rubin runs are described; other runs are `Plan.other`.
-/

namespace Sorcha.Whole

open Sorcha.Csv (Str)
open Sorcha.Readers (Rec IdParse)
open Sorcha.Cli (CmdArgs)
open Sorcha.History (Disk Chunk Format)

/-- A reader as `CombinedDataReader` sees it: `read_rows`, `obj_id_table`, `read_objects` (ObjectDataReader.py:52-127, without caching). -/
structure Source where
  rows : ℕ → ℤ → Except Readers.Err (List (Rec Str))
  ids : Except Readers.Err (List String)
  objects : List String → Except Readers.Err (List (Rec Str))

/-- A row with its ID in column `i`. -/
def rowRec (i : ℕ) (r : List Str) : Rec Str := ⟨String.ofList (r.getD i []), r.eraseIdx i⟩

/-- `_process_and_validate_input_table`, ObjectDataReader.py:129-212: the column `ObjID`, whose type is inferred from the rows read together, and the checks of the
columns (`good`; C71 describes them). -/
def process (P : IdParse) (good : Csv.TextTable → Bool) : Except Csv.TextErr Csv.TextTable → Except Readers.Err (List (Rec Str))
  | .error .badNrows => .error .badNrows
  | .error (.header _) => .error .noHeader
  | .error .pandas => .error .emptyData
  | .ok tb =>
    match tb.1.findIdx? (· = "ObjID".toList) with
    | none => .error .emptyData
    | some i => if good tb then .ok (Readers.inferTable P (tb.2.map (rowRec i))) else .error .emptyData

/-- `CSVDataReader` on a text, CSVReader.py:13-281. -/
def source (P : IdParse) (good : Csv.TextTable → Bool) (sep : String) (t : Str) : Source where
  rows start n := process P good (Csv.rowsOf sep t start (some n))
  ids := match Csv.idsOf P sep t with | .error _ => .error .emptyData | .ok ids => .ok ids
  objects ids := process P good (Csv.objectsOf P sep t ids)

/-! ## `CombinedDataReader` -/

/-- `check_aux_object_ids`, CombinedDataReader.py:66-109. -/
def checkIds (ss : List Source) : Except Readers.Err Unit :=
  match ss.mapM (·.ids) with
  | .error e => .error e
  | .ok tables => Readers.checkIdTables tables

/-- The loop over the auxiliary readers in `read_block`, CombinedDataReader.py:178-195. -/
def joinAll (missing : List Str) (ephemIds ids : List String) : List (Rec Str) → List Source → Except Readers.Err (List (Rec Str))
  | acc, [] => .ok acc
  | acc, s :: ss =>
    match s.objects ids with
    | .error e => .error e
    | .ok t => if ephemIds.all (fun i => (t.map (·.id)).contains i) then joinAll missing ephemIds ids (Readers.join missing acc t) ss else .error .missingId

/-- `CombinedDataReader.read_block`, CombinedDataReader.py:136-197. -/
def readBlock (missing : List Str) (ephem orbit : Source) (aux : List Source) (start : ℕ) (size : ℤ) : Except Readers.Err (Option (List (Rec Str)) × ℕ) :=
  match orbit.rows start size with
  | .error e => .error e
  | .ok primary =>
    let ids := (primary.map (·.id)).dedup
    if ids.length = 0 then .ok (none, start + primary.length)
    else
      match ephem.objects ids with
      | .error e => .error e
      | .ok eph =>
        let ephemIds := (eph.map (·.id)).dedup
        if ephemIds.all (fun i => (primary.map (·.id)).contains i) then
          match joinAll missing ephemIds ids (Readers.join missing eph primary) aux with
          | .error e => .error e
          | .ok t => .ok (some t, start + primary.length)
        else .error .missingId

/-- The loop over the auxiliary readers in `read_aux_block`, CombinedDataReader.py:248-268. -/
def joinAllAux (missing : List Str) (ids : List String) : List (Rec Str) → List Source → Except Readers.Err (List (Rec Str))
  | acc, [] => .ok acc
  | acc, s :: ss =>
    match s.objects ids with
    | .error e => .error e
    | .ok t => if t.all (fun x => ids.contains x.id) then joinAllAux missing ids (Readers.join missing acc t) ss else .error .missingId

/-- `CombinedDataReader.read_aux_block`, CombinedDataReader.py:224-270. -/
def readAuxBlock (missing : List Str) (orbit : Source) (aux : List Source) (start : ℕ) (size : ℤ) : Except Readers.Err (Option (List (Rec Str)) × ℕ) :=
  match orbit.rows start size with
  | .error e => .error e
  | .ok primary =>
    let ids := (primary.map (·.id)).dedup
    if ids.length = 0 then .ok (none, start + primary.length)
    else
      match joinAllAux missing ids primary aux with
      | .error e => .error e
      | .ok t => .ok (some t, start + primary.length)

/-- The tables the rounds of the loop work on, sorcha.py:184-194, and whether reading went well to the end. With a chunk size of one or more there are at most `lenf`
rounds; with another one the first round fails. -/
def blocks (read : ℕ → ℤ → Except Readers.Err (Option (List (Rec Str)) × ℕ)) (lenf : ℕ) (size : ℤ) : ℕ → ℤ → ℕ → List (List (Rec Str)) × Bool
  | 0, done, _ => ([], decide ((lenf : ℤ) ≤ done))
  | rounds + 1, done, start =>
    if done < lenf then
      match read start size with
      | .error _ => ([], false)
      | .ok (none, _) => ([], false)
      | .ok (some t, start') => let r := blocks read lenf size rounds (done + size) start'; (t :: r.1, r.2)
    else ([], true)

/-! ## The run -/

variable {G W V : Type}

/-- What is not described by the other models: the libraries, the add-ons, and what is computed for one observation from its columns. -/
structure World (G W V : Type) where
  py : Config.Py
  lightCurves : List String
  activities : List String
  ids : IdParse
  /-- the cells of a row that is not found -/
  missing : List Str
  /-- the checks of the columns of the ephemerides, the orbits, the physical parameters and the complex parameters -/
  goodEphemeris : Csv.TextTable → Bool
  goodOrbits : Csv.TextTable → Bool
  goodParameters : Csv.TextTable → Bool
  goodComplex : Csv.TextTable → Bool
  /-- the pointing database, the footprint, the calculations; `none`: one of them fails -/
  env : Config.Cfg → CmdArgs → Disk → Option (Pipeline.Env G W V)
  /-- the generators at the start -/
  state : Config.Cfg → CmdArgs → Pipeline.State G
  /-- the observation of a row of the combined table -/
  parse : List Str → ℕ × ℚ × W
  /-- the faint object filter and the ephemeris generator -/
  cull : Config.Cfg → CmdArgs → Rec Str → Bool
  ephem : Config.Cfg → CmdArgs → List (Rec Str) → List (Pointing.Obs W)
  /-- the table of ephemerides that is written -/
  ephemFrame : List (Pointing.Obs W) → Output.Frame
  /-- the columns and cells of the table of observations -/
  columns : Config.Cfg → CmdArgs → List String
  cells : Pipeline.Final W V → Output.Row
  dist : Output.Cell → Output.Cell → Output.Cell → Output.Cell
  stats : List (Pipeline.Final W V) → Output.Frame
  /-- the lines of the log -/
  start : List (List Char)
  messages : ℕ → List (List Char)
  stamp : List Char
  glob : Cli.Glob
  lines : History.Lines
  isDir : String → Bool

/-- The configuration values `sorcha run` looks at, run.py:175-215. -/
def runConfig (c : Config.Cfg) : Cli.RunConfig where
  ephemeridesType := c.input.ephemeridesType
  lcModel := c.lightcurve
  cometActivity := c.activity
  cameraModel := match c.fov with | .footprint _ _ => "footprint" | .visits _ => "visits_footprint" | .circle _ _ => "circle" | .none => "none"
  visitsQuery := match c.fov with | .visits q => some q | _ => none

/-- The settings of the output, PPOutput.py:170-241. -/
def outConfig (c : Config.Cfg) : Output.Config where
  columns := match c.output.columns with
    | .listed l => .list l
    | .named s => if s = "basic" then .basic else .all
  keepUnlinked := c.linking.ssp.isSome && !c.linking.dropUnlinked
  positionDecimals := c.output.posDecimals.map Int.toNat
  magnitudeDecimals := c.output.magDecimals.map Int.toNat

/-- The text of a file. -/
def textAt (d : Disk) (p : String) : Option Str :=
  match d.get p with
  | some (.text t) => some t
  | _ => none

/-- The lines of the configuration file without their ends, sorchaConfigs.py:1236. -/
def configLines (t : Str) : List Ini.Line := (Csv.pyLines t [] false).map Tables.dropEol

/-- The auxiliary files besides the orbits, sorcha.py:163-165: the complex parameters are only read with a light curve or an activity model. -/
def auxSources (w : World G W V) (c : Config.Cfg) (a : CmdArgs) (d : Disk) : Option (List Source) :=
  match textAt d a.paramsinput with
  | none => none
  | some p =>
    if c.activity ≠ none ∨ c.lightcurve ≠ none then
      match a.complexParams.bind (textAt d) with
      | none => none
      | some x => some [source w.ids w.goodParameters c.input.auxFormat p, source w.ids w.goodComplex c.input.auxFormat x]
    else some [source w.ids w.goodParameters c.input.auxFormat p]

/-- The observations of the rounds, with the table of ephemerides to be written, and whether reading went well to the end; sorcha.py:143-225. -/
def observations (w : World G W V) (c : Config.Cfg) (a : CmdArgs) (d : Disk) : List (List (Pointing.Obs W) × Option Output.Frame) × Bool :=
  match textAt d a.orbinfile, auxSources w c a d with
  | some o, some aux =>
    let orbit := source w.ids w.goodOrbits c.input.auxFormat o
    match checkIds (orbit :: aux), orbit.ids with
    | .ok (), .ok table =>
      if c.input.ephemeridesType = "external" then
        match a.inputEphemerisFile.bind (textAt d) with
        | none => ([], false)
        | some e =>
          let r := blocks (readBlock w.missing (source w.ids w.goodEphemeris c.input.ephFormat e) orbit aux) table.length c.input.chunk table.length 0 0
          (r.1.map fun b => (b.map (Pipeline.toObs w.parse), none), r.2)
      else
        let r := blocks (readAuxBlock w.missing orbit aux) table.length c.input.chunk table.length 0 0
        (r.1.map fun b =>
          let left := if c.expert.bruteForce then b else b.filter fun x => !w.cull c a x
          if left.length = 0 ∧ !c.expert.bruteForce then ([], none) else (w.ephem c a left, some (w.ephemFrame (w.ephem c a left))), r.2)
    | _, _ => ([], false)
  | _, _ => ([], false)

/-- The rounds, sorcha.py:227-394: what each of them writes, and whether all went well. A round that fails has written its ephemerides before. -/
def rounds (w : World G W V) (E : Pipeline.Env G W V) (c : Config.Cfg) (a : CmdArgs) :
    Pipeline.State G → List (List (Pointing.Obs W) × Option Output.Frame) → List Chunk × Bool
  | _, [] => ([], true)
  | s, (obs, eph) :: rest =>
    match Pipeline.process E c s obs with
    | .error _ => ([⟨w.messages s.round, eph, none⟩], false)
    | .ok (out, s') =>
      if out.length = 0 then
        let r := rounds w E c a s' rest
        (⟨w.messages s.round, eph, none⟩ :: r.1, r.2)
      else
        match Output.outputFrame w.dist (outConfig c) ⟨w.columns c a, out.map w.cells⟩ with
        | .error _ => ([⟨w.messages s.round, eph, none⟩], false)
        | .ok g =>
          let r := rounds w E c a s' rest
          (⟨w.messages s.round, eph, some (g, w.stats out)⟩ :: r.1, r.2)

/-- What the program is going to write: the format, what each round writes, whether it gets to its end. -/
inductive Plan
  | writes (format : Format) (chunks : List Chunk) (finishes : Bool)
  | other

/-- `execute` behind the command line, run.py:171-242, and `runLSSTSimulation`, sorcha.py:83-402; `d` are the files left by the checks of the command line. A run
that stops before its first round writes nothing. -/
def plan (w : World G W V) (a : CmdArgs) (d : Disk) : Plan :=
  match textAt d a.configfile with
  | none => .writes .csv [] false
  | some t =>
    match Ini.configure w.py w.lightCurves w.activities a.surveyname (configLines t) with
    | .error _ => .writes .csv [] false
    | .ok (c, _) =>
      match Cli.execute (fun p => d.paths.contains p) w.isDir (runConfig c) a with
      | .error _ => .writes .csv [] false
      | .ok .des => .other
      | .ok .rubin =>
        if c.input.ephFormat = "hdf5" ∨ c.output.format = "hdf5" then .other
        else
          match w.env c a d with
          | none => .writes .csv [] false
          | some E =>
            let b := observations w c a d
            let r := rounds w E c a (w.state c a) b.1
            .writes (if c.output.format = "csv" then .csv else .sqlite) r.1 (b.2 && r.2)

/-- The files that exist for the checks of the command line: `exist` is `os.path.exists`. -/
def existing (w : World G W V) (d : Disk) (p : String) : Bool := d.paths.contains p || w.isDir p

/-- The disk behind the checks of the command line. -/
def checked (w : World G W V) (args : Cli.Args) (d : Disk) : Disk := d.keep (Cli.commandLine (existing w d) w.isDir w.glob args d.paths).2

/-- `sorcha run argv`, run.py:9-242: from the arguments to the files, the log and the outcome. -/
inductive Invoked (w : World G W V) (argv : List Str) (d : Disk) : Disk → List Char → History.Outcome → Prop
  | usage {e} (h : Argv.parseRun argv = .error e) : Invoked w argv d d [] .refused
  | refused {args v e} (h : Argv.parseRun argv = .ok (args, v)) (hc : (Cli.commandLine (existing w d) w.isDir w.glob args d.paths).1 = .error e) :
      Invoked w argv d (checked w args d) (w.start.flatMap fun l => l ++ ['\n']) .refused
  | ran {args v a fmt chunks s done} (h : Argv.parseRun argv = .ok (args, v))
      (hc : (Cli.commandLine (existing w d) w.isDir w.glob args d.paths).1 = .ok a) (hp : plan w a (checked w args d) = .writes fmt chunks true)
      (he : History.Ends false (History.runEffects w.lines a fmt chunks w.stamp) ⟨checked w args d, w.start.flatMap fun l => l ++ ['\n']⟩ s done) :
      Invoked w argv d s.disk s.log (if done then .finished else .stopped)
  | failed {args v a fmt chunks s done} (h : Argv.parseRun argv = .ok (args, v))
      (hc : (Cli.commandLine (existing w d) w.isDir w.glob args d.paths).1 = .ok a) (hp : plan w a (checked w args d) = .writes fmt chunks false)
      (he : History.Ends false (chunks.flatMap (History.chunkEffects w.lines a fmt)) ⟨checked w args d, w.start.flatMap fun l => l ++ ['\n']⟩ s done) :
      Invoked w argv d s.disk s.log .stopped

end Sorcha.Whole
