import Verif.Cli.Model
import Mathlib.Data.List.Infix

/-!
# Model of the commands that prepare a simulation and look after it

`sorcha init`, `sorcha demo prepare`, `sorcha outputs check-logs` and `sorcha bootstrap`, with the files they find and leave, also when they are ended
in the middle: by a kill, a full disk or an exception.
-/

namespace Sorcha.Setup

/-- What a path leads to. Links and permissions are not modelled. -/
inductive Node
  | file (text : List Char)
  | dir
deriving DecidableEq, Repr

/-- The files and directories. -/
abbrev Disk := String → Option Node

/-- Create or replace a file. -/
def Disk.put (d : Disk) (p : String) (s : List Char) : Disk := Function.update d p (some (.file s))

/-- Remove a file. -/
def Disk.remove (d : Disk) (p : String) : Disk := Function.update d p none

/-- `os.path.isdir`. -/
def Disk.isDir (d : Disk) (p : String) : Bool := d p = some .dir

/-- `os.path.isfile`. -/
def Disk.isFile (d : Disk) (p : String) : Bool :=
  match d p with
  | some (.file _) => true
  | _ => false

/-- `os.path.exists`. -/
def Disk.has (d : Disk) (p : String) : Bool := (d p).isSome

/-- The ways a command ends early. -/
inductive Err
  | notDir                 -- `sys.exit`, fileAccessUtils.py:57-58
  | fileExists             -- `sys.exit`, sorcha_copy_configs.py:56-58, sorcha_copy_demo_files.py:43-45
  | notANumber             -- `sys.exit`, init.py:28
  | notInMenu              -- `sys.exit`, init.py:31
  | notRecognised          -- `sys.exit`, sorcha_copy_configs.py:48-52
  | isADirectory           -- uncaught `IsADirectoryError` (or `PermissionError`, by operating system)
  | noLogs                 -- `sys.exit`, check_output_logs.py:89-91
  | emptyLog               -- uncaught `IndexError`, check_output_logs.py:56
  | download               -- uncaught exception of pooch
deriving DecidableEq, Repr

/-- A command that has run: every state of the disk in which it could have been ended, how it ended and what it left. -/
structure Ran (α : Type) where
  passed : List Disk
  result : Except Err α
  disk : Disk

/-- `os.path.join(directory, name)` for an absolute directory and a plain name. -/
def join (dir name : String) : String := if dir.toList.getLast? = some '/' then dir ++ name else dir ++ "/" ++ name

/-- The states of the disk while the text of a file is written: it is truncated first, then grows. -/
def writing (d : Disk) (p : String) (s : List Char) : List Disk := s.inits.map fun part => d.put p part

/-! ## `sorcha init` and `sorcha demo prepare` -/

/-- `for fn in config_locations`, sorcha_copy_configs.py:54-61, and `for fn in demo_files`, sorcha_copy_demo_files.py:41-48. `package` gives the text of
the file that comes with the package. A directory of that name makes `shutil.copy` raise. -/
def copyAll (package : String → List Char) (dir : String) (force : Bool) : List String → Disk → Ran Unit
  | [], d => ⟨[d], .ok (), d⟩
  | fn :: rest, d =>
    if !force && d.isFile (join dir fn) then ⟨[d], .error .fileExists, d⟩
    else if d.isDir (join dir fn) then ⟨[d], .error .isADirectory, d⟩
    else
      let r := copyAll package dir force rest (d.put (join dir fn) (package fn))
      ⟨d :: writing d (join dir fn) (package fn) ++ r.passed, r.result, r.disk⟩

/-- `copy_demo_configs`, sorcha_copy_configs.py:11-63. -/
def copyConfigs (package : String → List Char) (dir which : String) (force : Bool) (d : Disk) : Ran Unit :=
  if !d.isDir dir then ⟨[d], .error .notDir, d⟩
  else if which = "rubin_circle" then copyAll package dir force ["Rubin_circular_approximation.ini"] d
  else if which = "rubin_footprint" then copyAll package dir force ["Rubin_full_footprint.ini"] d
  else if which = "rubin_known" then copyAll package dir force ["Rubin_known_object_prediction.ini"] d
  else if which = "des_configs" then copyAll package dir force ["DES_config_file.ini"] d
  else if which = "all" then copyAll package dir force
    ["Rubin_circular_approximation.ini", "Rubin_full_footprint.ini", "Rubin_known_object_prediction.ini", "DES_config_file.ini"] d
  else ⟨[d], .error .notRecognised, d⟩

/-- `parse_file_selection`, init.py:9-43; `int` is Python's conversion of a text. -/
def parseSelection (int : String → Option ℤ) (answer : String) : Except Err String :=
  match int answer with
  | none => .error .notANumber
  | some n =>
    if n = 1 then .ok "rubin_circle" else if n = 2 then .ok "rubin_footprint" else if n = 3 then .ok "rubin_known"
    else if n = 4 then .ok "des_configs" else if n = 5 then .ok "all" else .error .notInMenu

/-- `sorcha init`, init.py:46-72; `dir` is the absolute path of `--path`. -/
def sorchaInit (int : String → Option ℤ) (package : String → List Char) (dir answer : String) (force : Bool) (d : Disk) : Ran Unit :=
  match parseSelection int answer with
  | .error e => ⟨[d], .error e, d⟩
  | .ok which => copyConfigs package dir which force d

/-- `sorcha demo prepare`, demo.py:8-22 and `copy_demo_files`, sorcha_copy_demo_files.py:12-52. -/
def demoPrepare (package : String → List Char) (dir : String) (force : Bool) (d : Disk) : Ran Unit :=
  if !d.isDir dir then ⟨[d], .error .notDir, d⟩
  else copyAll package dir force ["sorcha_config_demo.ini", "sspp_testset_colours.txt", "sspp_testset_orbits.des", "baseline_v2.0_1yr.db"] d

/-- A command that copies files: `sorcha init`, with the answer typed in, or `sorcha demo prepare`. -/
inductive Command
  | init (dir answer : String) (force : Bool)
  | demo (dir : String) (force : Bool)

/-- Run such a command; init.py:46-72, demo.py:8-22. -/
def Command.run (int : String → Option ℤ) (package : String → List Char) : Command → Disk → Ran Unit
  | .init dir answer force => sorchaInit int package dir answer force
  | .demo dir force => demoPrepare package dir force

/-- `get_demo_command`, sorcha_demo_command.py:1-17, as the words a shell makes of it. -/
def demoCommand : List String :=
  ["sorcha", "run", "-c", "sorcha_config_demo.ini", "-p", "sspp_testset_colours.txt", "--orbits", "sspp_testset_orbits.des",
    "--pointing-db", "baseline_v2.0_1yr.db", "-o", "./", "-t", "testrun_e2e", "--stats", "testrun_stats"]

/-! ## `sorcha outputs check-logs` -/

/-- `os.walk(root)`: pairs of a directory and the names of the files in it. -/
abbrev Walk := String → Disk → List (String × List String)

/-- `f.endswith("sorcha.log")`, check_output_logs.py:24. -/
def isLogName (name : String) : Bool := "sorcha.log".toList.isSuffixOf name.toList

/-- `find_all_log_files`, check_output_logs.py:6-27. Python compares texts by code points, as `String` does. -/
def findLogs (walk : Walk) (root : String) (d : Disk) : List String :=
  ((walk root d).flatMap fun e => (e.2.filter isLogName).map fun name => join e.1 name).insertionSort (· ≤ ·)

/-- The text of a file that was just listed. -/
def Disk.text (d : Disk) (p : String) : List Char :=
  match d p with
  | some (.file s) => s
  | _ => []

/-- One row of the report, check_output_logs.py:95-97. -/
structure LogRow where
  filename : String
  successful : Bool
  lastline : List Char
deriving DecidableEq, Repr

/-- `check_all_logs` and the table made of it, check_output_logs.py:93-97. -/
def logTable (br : Char → Bool) (logs : List String) (d : Disk) : Except Err (List LogRow) :=
  match Cli.checkAllLogs br (logs.map d.text) with
  | .error _ => .error .emptyLog
  | .ok rs => .ok ((logs.zip rs).map fun e => ⟨e.1, e.2.1, e.2.2⟩)

/-- How the command tells its result. -/
inductive Told
  | refused                          -- "File already found", outputs.py:50-55
  | allGood                          -- check_output_logs.py:113-115
  | printed (failed : List LogRow)   -- check_output_logs.py:107-110
  | saved                            -- check_output_logs.py:103-105
deriving DecidableEq, Repr

/-- `check_output_logs`, check_output_logs.py:68-117; `csv` is the text `to_csv` writes for a table. -/
def checkLogs (walk : Walk) (br : Char → Bool) (csv : List LogRow → List Char) (root : String) (output : Option String) (d : Disk) : Ran Told :=
  if (findLogs walk root d).isEmpty then ⟨[d], .error .noLogs, d⟩
  else
    match logTable br (findLogs walk root d) d with
    | .error e => ⟨[d], .error e, d⟩
    | .ok rows =>
      if (rows.filter fun r => !r.successful).isEmpty then ⟨[d], .ok .allGood, d⟩
      else
        match output with
        | none => ⟨[d], .ok (.printed (rows.filter fun r => !r.successful)), d⟩
        | some p =>
          if d.isDir p then ⟨[d], .error .isADirectory, d⟩
          else ⟨d :: writing d p (csv rows), .ok .saved, d.put p (csv rows)⟩

/-- `if args.outpath[-4:] != ".csv"`, outputs.py:59-60. -/
def withSuffix (p : String) : String := if ".csv".toList.isSuffixOf p.toList then p else p ++ ".csv"

/-- The command before the check has removed something: the states are put in front. -/
def Ran.after {α : Type} (d : Disk) (r : Ran α) : Ran α := ⟨d :: r.passed, r.result, r.disk⟩

/-- `cmd_outputs_check_logs`, outputs.py:37-62. `root` and `out` are absolute paths (lines 42, 46), `out = none` for no or an empty `-o`; `dirname` is
`os.path.dirname`. -/
def cmdCheckLogs (walk : Walk) (br : Char → Bool) (csv : List LogRow → List Char) (dirname : String → String) (root : String)
    (out : Option String) (force : Bool) (d : Disk) : Ran Told :=
  if !d.isDir root then ⟨[d], .error .notDir, d⟩
  else
    match out with
    | none => checkLogs walk br csv root none d
    | some p =>
      if !d.isDir (dirname p) then ⟨[d], .error .notDir, d⟩
      else if d.has p && !force then ⟨[d], .ok .refused, d⟩
      else if d.isDir p then ⟨[d], .error .isADirectory, d⟩
      else if d.has p then (checkLogs walk br csv root (some (withSuffix p)) (d.remove p)).after d
      else checkLogs walk br csv root (some (withSuffix p)) d

end Sorcha.Setup
