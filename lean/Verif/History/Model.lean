import Verif.Cli.Model
import Verif.Output.Model

/-!
# Model of the files of an output directory over several runs

A run is a sequence of effects on the files of the output directory and on its log file. It may end after every one of them or in the middle of one:
it is killed, the machine stops, the disk is full, or an exception leaves the program. The next run finds what the one before has left.

Of the output formats CSV and sqlite are modelled; what an interrupted write leaves of an HDF5 file is not described.
-/

namespace Sorcha.History

open Sorcha.Cli (FS Args CmdArgs Glob)
open Sorcha.Output (Frame Cell CsvLine)

/-- What a file holds: a text, or a database with at most one table (columns and rows) and the names of its indices. -/
inductive Content
  | text (s : List Char)
  | db (table : Option (List String × List (List Cell))) (indices : List String)
deriving DecidableEq, Repr

/-- The files: paths and what they hold. -/
abbrev Disk := List (String × Content)

/-- The paths of the files, for `glob`. -/
def Disk.paths (d : Disk) : FS := d.map (·.1)

/-- The content of a file; `none` if there is no such file. -/
def Disk.get (d : Disk) (p : String) : Option Content := (d.find? fun e => e.1 == p).map (·.2)

/-- Create or replace a file. -/
def Disk.put (d : Disk) (p : String) (c : Content) : Disk := d.filter (fun e => e.1 ≠ p) ++ [(p, c)]

/-- The output formats, `output_format` in sorchaConfigs.py; the suffixes are those of PPOutput.py:245-261. -/
inductive Format
  | csv
  | sqlite
deriving DecidableEq, Repr

/-- The file and the log of the run. -/
structure State where
  disk : Disk
  log : List Char

/-- The ways an effect fails; all of them end the run with an uncaught exception. -/
inductive Err
  | notText        -- CSV rows for something that is not a text file; does not happen
  | notDatabase    -- `sqlite3.DatabaseError: file is not a database`
  | noSuchColumn   -- `sqlite3.OperationalError: table has no column named`
  | noTable        -- `sqlite3.OperationalError: no such table`
  | indexExists    -- `sqlite3.OperationalError: index already exists`
deriving DecidableEq, Repr

/-- One effect of a run. `line` is how a line of the file is written as text, with its line end. -/
inductive Effect
  | csv (path : String) (line : CsvLine → List Char) (f : Frame)
  | sqlite (path : String) (f : Frame)
  | index (path : String)
  | log (line : List Char)

/-- The text `to_csv` adds to a file, PPOutput.py:34-36 and PPStats.py:63-65: the header iff the file does not exist, then the rows. -/
def csvText (line : CsvLine → List Char) (header : Bool) (f : Frame) : List Char :=
  (if header then line (.header f.cols) else []) ++ f.cells.flatMap fun cells => line (.row cells)

/-- The indices made at the end of a run, PPOutput.py:128-132, one statement each. -/
def indexColumns : List String := ["ObjID", "fieldMJD_TAI", "optFilter"]

/-- The three statements `CREATE INDEX c ON sorcha_results (c)`: the names of the indices afterwards. -/
def addIndices (cols : List String) : List String → List String → Except Err (List String)
  | done, [] => .ok done
  | done, c :: cs => if c ∈ done then .error .indexExists else if c ∈ cols then addIndices cols (done ++ [c]) cs else .error .noSuchColumn

/-- `to_sql(if_exists="append")`, PPOutput.py:99-103, on a table that may not exist yet. -/
def appendTo (t : Option (List String × List (List Cell))) (ix : List String) (f : Frame) : Except Err Content :=
  match Output.writeSqlite t f with
  | .error _ => .error .noSuchColumn
  | .ok t' => .ok (.db t' ix)

/-- The content of a database after `PPOutWriteSqlite3`, PPOutput.py:77-105: pandas looks for the table (which creates the file), then creates it or
appends to it in one transaction. -/
def appendTable (old : Option Content) (f : Frame) : Except Err Content :=
  match old with
  | some (.text _) => .error .notDatabase
  | none => appendTo none [] f
  | some (.db t ix) => appendTo t ix f

/-- One effect, completely. `index` does nothing if there is no file, sorcha.py:396-400. -/
def perform : Effect → State → Except Err State
  | .csv p line f, s =>
    match s.disk.get p with
    | none => .ok { s with disk := s.disk.put p (.text (csvText line true f)) }
    | some (.text old) => .ok { s with disk := s.disk.put p (.text (old ++ csvText line false f)) }
    | some (.db _ _) => .error .notText
  | .sqlite p f, s =>
    match appendTable (s.disk.get p) f with
    | .ok c => .ok { s with disk := s.disk.put p c }
    | .error e => .error e
  | .index p, s =>
    match s.disk.get p with
    | none => .ok s
    | some (.text _) => .error .notDatabase
    | some (.db none _) => .error .noTable
    | some (.db (some t) ix) =>
      match addIndices t.1 ix indexColumns with
      | .ok ix' => .ok { s with disk := s.disk.put p (.db (some t) ix') }
      | .error e => .error e
  | .log line, s => .ok { s with log := s.log ++ line ++ ['\n'] }

/-- What an effect may leave when the run ends in the middle of it, by a kill or an exception. A CSV file may end anywhere in the added text. The
transactions of sqlite are all or nothing, but while one is running there is a second file, the rollback journal `….db-journal` (sqlite file format,
section 3); `journal` says whether such endings are considered. -/
inductive Interrupted (journal : Bool) : Effect → State → State → Prop
  | newCsv {p line f s} (part : List Char) (h : s.disk.get p = none) (hp : part <+: csvText line true f) :
      Interrupted journal (.csv p line f) s { s with disk := s.disk.put p (.text part) }
  | oldCsv {p line f s} (old part : List Char) (h : s.disk.get p = some (.text old)) (hp : part <+: csvText line false f) :
      Interrupted journal (.csv p line f) s { s with disk := s.disk.put p (.text (old ++ part)) }
  | newDb {p f s} (h : s.disk.get p = none) : Interrupted journal (.sqlite p f) s { s with disk := s.disk.put p (.db none []) }
  | newJournal {p f s} (j : List Char) (h : s.disk.get p = none) (hj : journal = true) :
      Interrupted journal (.sqlite p f) s { s with disk := (s.disk.put p (.db none [])).put (p ++ "-journal") (.text j) }
  | oldJournal {p f s} (j : List Char) (h : s.disk.get p ≠ none) (hj : journal = true) :
      Interrupted journal (.sqlite p f) s { s with disk := s.disk.put (p ++ "-journal") (.text j) }
  | index {p s t ix} (part : List String) (h : s.disk.get p = some (.db t ix)) (hp : part <+: indexColumns) :
      Interrupted journal (.index p) s { s with disk := s.disk.put p (.db t (ix ++ part)) }
  | indexJournal {p s t ix} (j : List Char) (h : s.disk.get p = some (.db t ix)) (hj : journal = true) :
      Interrupted journal (.index p) s { s with disk := s.disk.put (p ++ "-journal") (.text j) }
  | log {line s} (part : List Char) (hp : part <+: line ++ ['\n']) : Interrupted journal (.log line) s { s with log := s.log ++ part }

/-- How a sequence of effects ends: after all of them, before one of them, or in the middle of one. -/
inductive Ends (journal : Bool) : List Effect → State → State → Bool → Prop
  | finished {s} : Ends journal [] s s true
  | step {e es s s1 s' done} (h : perform e s = .ok s1) (ht : Ends journal es s1 s' done) : Ends journal (e :: es) s s' done
  | stopped {e es s} : Ends journal (e :: es) s s false
  | during {e es s s'} (h : Interrupted journal e s s') : Ends journal (e :: es) s s' false

/-- What the program computes for one chunk of objects: the messages it logs, the ephemerides (`none` if they are read from a file), and, if any
observation is left, the table of results (after the selection of columns, `Output.outputFrame`) and the table of statistics. -/
structure Chunk where
  messages : List (List Char)
  ephemeris : Option Frame
  results : Option (Frame × Frame)

/-- How lines are written as text in the three kinds of CSV files. -/
structure Lines where
  ephemeris : CsvLine → List Char
  output : CsvLine → List Char
  stats : CsvLine → List Char

/-- The path of the results, PPOutput.py:245-255. -/
def outputPath (a : CmdArgs) : Format → String
  | .csv => a.outpath ++ "/" ++ a.outfilestem ++ ".csv"
  | .sqlite => a.outpath ++ "/" ++ a.outfilestem ++ ".db"

/-- The effects of writing the results, PPOutput.py:245-255. -/
def writeOutput (ls : Lines) (a : CmdArgs) (fmt : Format) (f : Frame) : Effect :=
  match fmt with
  | .csv => .csv (outputPath a .csv) ls.output f
  | .sqlite => .sqlite (outputPath a .sqlite) f

/-- Writing the ephemerides, simulation_driver.py:120-122, 227-230, 364-368; an empty name counts as none. -/
def writeEphemeris (ls : Lines) (a : CmdArgs) (f : Frame) : List Effect :=
  match a.outputEphemerisFile with
  | none => []
  | some n => if n.isEmpty then [] else [.csv (a.outpath ++ "/" ++ n ++ ".csv") ls.ephemeris f]

/-- Writing the statistics, sorcha.py:387-388, PPStats.py:34, 63-65. -/
def writeStats (ls : Lines) (a : CmdArgs) (f : Frame) : List Effect :=
  match a.stats with
  | none => []
  | some n => [.csv (a.outpath ++ "/" ++ n ++ ".csv") ls.stats f]

/-- Writing the results and the statistics of a chunk, sorcha.py:374-390, des.py:372-388. -/
def writeResults (ls : Lines) (a : CmdArgs) (fmt : Format) (r : Frame × Frame) : List Effect :=
  writeOutput ls a fmt r.1 :: writeStats ls a r.2

/-- The effects of one chunk: the log, the ephemerides, the results and the statistics. The messages of a chunk are all put before its files. -/
def chunkEffects (ls : Lines) (a : CmdArgs) (fmt : Format) (c : Chunk) : List Effect :=
  c.messages.map .log ++ c.ephemeris.toList.flatMap (writeEphemeris ls a) ++ c.results.toList.flatMap (writeResults ls a fmt)

/-- The indices, sorcha.py:396-400, des.py:394-398. -/
def makeIndex (a : CmdArgs) : Format → List Effect
  | .csv => []
  | .sqlite => [.index (outputPath a .sqlite)]

/-- The effects of a run, sorcha.py:184-402, des.py:175-400: the chunks one after the other, the indices of an sqlite output, the completion message
(with its stamp, sorchaGetLogger.py:9, 45, 58-66). -/
def runEffects (ls : Lines) (a : CmdArgs) (fmt : Format) (chunks : List Chunk) (stamp : List Char) : List Effect :=
  chunks.flatMap (chunkEffects ls a fmt) ++ makeIndex a fmt ++ [.log (stamp ++ "Sorcha process is completed. ".toList)]

/-- What is asked of one run: the command line, the format in the configuration, and what the program computes from the input files and the seed. -/
structure Job where
  args : Args
  format : Format
  chunks : List Chunk
  stamp : List Char
  start : List (List Char)

/-- How a run ends. -/
inductive Outcome
  | refused
  | stopped
  | finished
deriving DecidableEq, Repr

/-- The files after the checks of the command line: those it has removed are gone. -/
def Disk.keep (d : Disk) (fs : FS) : Disk := d.filter fun e => fs.contains e.1

/-- The messages logged before the first chunk as one text. -/
def startLog (j : Job) : List Char := j.start.flatMap fun l => l ++ ['\n']

/-- `sorcha run`, run.py:136-242: the files before, the files after, the log and the outcome. Every run has a log file of its own, whose name is not
among the outputs (sorchaGetLogger.py:52-56). A run that stops between the command line and the first chunk, say because of the configuration, is one
that stops before its first effect. -/
inductive Runs (journal : Bool) (exist isDir : String → Bool) (g : Glob) (ls : Lines) (j : Job) : Disk → Disk → List Char → Outcome → Prop
  | refused {d e} (h : (Cli.commandLine exist isDir g j.args d.paths).1 = .error e) :
      Runs journal exist isDir g ls j d (d.keep (Cli.commandLine exist isDir g j.args d.paths).2) (startLog j) .refused
  | ran {d c s done} (h : (Cli.commandLine exist isDir g j.args d.paths).1 = .ok c)
      (he : Ends journal (runEffects ls c j.format j.chunks j.stamp) ⟨d.keep (Cli.commandLine exist isDir g j.args d.paths).2, startLog j⟩ s done) :
      Runs journal exist isDir g ls j d s.disk s.log (if done then .finished else .stopped)

/-- Any number of runs one after the other, each finding the files the one before has left. -/
inductive Series (journal : Bool) (exist isDir : String → Bool) (g : Glob) (ls : Lines) : List Job → Disk → Disk → Prop
  | nil {d} : Series journal exist isDir g ls [] d d
  | cons {j js d d1 d2 log out} (h : Runs journal exist isDir g ls j d d1 log out) (ht : Series journal exist isDir g ls js d1 d2) :
      Series journal exist isDir g ls (j :: js) d d2

end Sorcha.History
