import Verif.Whole.SpecParts
import Verif.Sqlite.Model
import Verif.Cmd.Model

/-!
# Model of `sorcha outputs create-sqlite` on the files of runs

src/sorcha_cmdline/outputs.py:8-31, with `Verif.Sqlite` for the database it makes.
-/

namespace Sorcha.Whole

open Sorcha.History (Disk)
open Sorcha.Output (Cell)

/-- What the command is given by its surroundings: `os.path.abspath`, `os.path.isdir`, `glob.glob(…, recursive=True)` on the files there are once the new database is opened,
the lines of a file, and what pandas and sqlite do with the input files. -/
structure Shell where
  abspath : String → String
  isDir : Disk → String → Bool
  glob : Disk → String → List String
  lines : Disk → String → List Sqlite.Line
  lib : Sqlite.Lib Cell

/-- How the command stops. -/
inductive CombineErr
  | noDirectory (p : String)       -- `FindDirectoryOrExit`, fileAccessUtils.py:34-62
  | database (e : Sqlite.Err)

/-- `SELECT * FROM sorcha_results`, createResultsSQLDatabase.py:76 and 178: the table of a database that a run has made. -/
def tableAt (d : Disk) (p : String) : Option (Cli.Tab Cell) :=
  match d.get p with
  | some (.db (some (cols, rows)) _) => some ⟨cols, rows⟩
  | _ => none

/-- `os.path.join(output_path, "**", output_stem + "*.db")`, createResultsSQLDatabase.py:45: a stem that begins with a slash replaces the directory. -/
def pattern (dir stem : String) : String :=
  if stem.toList.head? = some '/' then stem ++ "*.db" else Setup.join dir ("**/" ++ (stem ++ "*.db"))

/-- `glob.glob(input_path + "/" + table_type + "*", recursive=True)`, createResultsSQLDatabase.py:107, and the lines of the files. -/
def inputFiles (S : Shell) (d : Disk) (inputs name : String) : List (List Sqlite.Line) := (S.glob d (inputs ++ "/" ++ name ++ "*")).map (S.lines d)

/-- `cmd_outputs_create_sqlite`, outputs.py:8-31, and `create_results_database`, createResultsSQLDatabase.py:126-155 (a stem that is not given or empty counts as empty,
lines 144-147). `db` is what the new database has before. -/
def createSqlite (S : Shell) (a : Cmd.SqlArgs) (d : Disk) (db : Sqlite.Db Cell) : Except CombineErr (Sqlite.Db Cell) :=
  if !S.isDir d (S.abspath a.inputs) then .error (.noDirectory (S.abspath a.inputs))
  else if !S.isDir d (S.abspath a.results) then .error (.noDirectory (S.abspath a.results))
  else (Sqlite.createDatabase S.lib (tableAt d) (S.glob d (pattern (S.abspath a.results) (a.stem.getD ""))) (S.abspath a.inputs) (S.abspath a.output) db
    (inputFiles S d (S.abspath a.inputs) "params") (inputFiles S d (S.abspath a.inputs) "orbits")
    (if a.complex then some (inputFiles S d (S.abspath a.inputs) "complex") else none)).mapError .database

/-- `sorcha outputs create-sqlite` with its arguments, outputs.py:69-153; `none`: they ask for something else, or the parser exits. -/
def outputsCombine (S : Shell) (argv : List Argv.Str) (d : Disk) (db : Sqlite.Db Cell) : Option (Except CombineErr (Sqlite.Db Cell)) :=
  match Cmd.outputsArgs argv with
  | .ok (.some (.createSqlite a)) => some (createSqlite S a d db)
  | _ => none

end Sorcha.Whole
