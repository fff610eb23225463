import Verif.Whole.Parallel
import Verif.Whole.Session

/-!
# Model: the logs of runs at the same time, on the disk
-/

namespace Sorcha.Whole

open Sorcha.Csv (Str)
open Sorcha.History (Disk)

/-- What makes the names of a process's logs its own: the time of its start and its number, sorchaGetLogger.py:52-56. -/
structure Ident where
  stamp : String
  pid : String

/-- The log, sorchaGetLogger.py:11, 52-56. -/
def Ident.log (n : Ident) (a : Cli.Args) : String := loggedAt a.o a.t n.stamp n.pid "sorcha.log"
/-- The log of errors, sorchaGetLogger.py:12, 52-56. -/
def Ident.err (n : Ident) (a : Cli.Args) : String := loggedAt a.o a.t n.stamp n.pid "sorcha.err"

/-- What the process has logged so far. Every record is written out when it is logged (`FileHandler` of Python's logging flushes after each). -/
def Proc.logged (x : Proc) : Phase → List Char
  | .waiting => []
  | .accepted _ => x.startLog
  | .running _ log _ => log
  | .over log _ => log

/-- The logs on the disk. What is in the log of errors is left open. -/
def Ident.put (n : Ident) (a : Cli.Args) (log errors : List Char) (d : Disk) : Disk := (d.put (n.log a) (.text log)).put (n.err a) (.text errors)

/-- Any number of steps of processes in any order, from the files `d`, with their logs on the disk. `none` is a process that has not been started; starting it, after its arguments were
understood, opens its logs anew (`mode="w"`), run.py:160-161, sorchaGetLogger.py:58-66. Then come the steps of `Step`; what a step logs is in the log after it. Simplified: a step and what it
logs are one. Processes whose arguments are not understood have no logs and do nothing; they count as not started. -/
inductive LoggedSchedule {ι : Type} [DecidableEq ι] (procs : ι → Proc) (args : ι → Cli.Args) (names : ι → Ident) (d : Disk) : (ι → Option Phase) → Disk → Prop
  | nil : LoggedSchedule procs args names d (fun _ => none) d
  | start {ph d1} (i : ι) {v : Bool} (h : LoggedSchedule procs args names d ph d1) (hi : ph i = none) (hu : Argv.parseRun (procs i).argv = .ok (args i, v)) :
      LoggedSchedule procs args names d (Function.update ph i (some .waiting)) ((names i).put (args i) [] [] d1)
  | step {ph d1 d2} (i : ι) {p q : Phase} (errors : List Char) (h : LoggedSchedule procs args names d ph d1) (hi : ph i = some p) (hs : Step (procs i) p d1 q d2) :
      LoggedSchedule procs args names d (Function.update ph i (some q)) ((names i).put (args i) ((procs i).logged q) errors d2)

end Sorcha.Whole
