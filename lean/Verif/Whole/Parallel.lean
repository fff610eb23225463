import Verif.Whole.Des
import Verif.Whole.SpecParallel

/-!
# Model: runs at the same time

Any number of processes `sorcha run` on the same files. Their steps come in any order.
-/

namespace Sorcha.Whole

open Sorcha.Csv (Str)
open Sorcha.Cli (CmdArgs)
open Sorcha.History (Disk Effect Outcome)

/-- A process: its arguments, and what it uses besides. -/
structure Proc where
  argv : List Str
  glob : Cli.Glob
  isDir : String → Bool
  lines : History.Lines
  stamp : List Char
  start : List (List Char)
  plan : CmdArgs → Disk → Plan

variable {G W V : Type}

/-- `sorcha run argv` for the Rubin survey. -/
def rubin (w : World G W V) (argv : List Str) : Proc := ⟨argv, w.glob, w.isDir, w.lines, w.stamp, w.start, plan w⟩

/-- `sorcha run argv` for both surveys. -/
noncomputable def eitherSurvey (w : DesWorld G W V) (argv : List Str) : Proc :=
  ⟨argv, w.base.glob, w.base.isDir, w.base.lines, w.base.stamp, w.base.start, desPlan w⟩

/-- The checks of the command line, sorchaCommandLineParser.py:39-119. -/
def Proc.commandLine (x : Proc) (args : Cli.Args) (d : Disk) : Except Cli.Err CmdArgs × Cli.FS :=
  Cli.commandLine (fun p => d.paths.contains p || x.isDir p) x.isDir x.glob args d.paths

/-- The first lines of the log. -/
def Proc.startLog (x : Proc) : List Char := x.start.flatMap fun l => l ++ ['\n']

/-- What is written in the course of the run, sorcha.py:184-402, des.py:175-400: everything with the completion message, or what is written before it fails. -/
def Proc.effects (x : Proc) (a : CmdArgs) (fmt : History.Format) (chunks : List History.Chunk) (finishes : Bool) : List Effect :=
  if finishes then History.runEffects x.lines a fmt chunks x.stamp else chunks.flatMap (History.chunkEffects x.lines a fmt)

/-- Where a process is: not started; behind the checks of the command line; with some effects still to come, its log so far, and the outcome if it gets to its end; over, with its
log and outcome. Every process has a log of its own (C96). -/
inductive Phase
  | waiting
  | accepted (a : CmdArgs)
  | running (es : List Effect) (log : List Char) (out : Outcome)
  | over (log : List Char) (out : Outcome)

/-- One step of a process on the files: the checks of the command line, with the removal of old outputs (run.py:171); reading the inputs (run.py:175-242, sorcha.py:83-225); one effect;
the end. It may be killed before or in the middle of every effect. Simplified: the checks are one step, the inputs are read in one step, and what is written of a table is seen by the
others when it is complete or its process is over. -/
inductive Step (x : Proc) : Phase → Disk → Phase → Disk → Prop
  | usage {d e} (h : Argv.parseRun x.argv = .error e) : Step x .waiting d (.over [] .refused) d
  | refused {d args v e} (h : Argv.parseRun x.argv = .ok (args, v)) (hc : (x.commandLine args d).1 = .error e) :
      Step x .waiting d (.over x.startLog .refused) (d.keep (x.commandLine args d).2)
  | check {d args v a} (h : Argv.parseRun x.argv = .ok (args, v)) (hc : (x.commandLine args d).1 = .ok a) :
      Step x .waiting d (.accepted a) (d.keep (x.commandLine args d).2)
  | read {d a fmt chunks finishes} (hp : x.plan a d = .writes fmt chunks finishes) :
      Step x (.accepted a) d (.running (x.effects a fmt chunks finishes) x.startLog (if finishes then .finished else .stopped)) d
  | effect {d e es log out s} (h : History.perform e ⟨d, log⟩ = .ok s) : Step x (.running (e :: es) log out) d (.running es s.log out) s.disk
  | stop {d e es log out} : Step x (.running (e :: es) log out) d (.over log .stopped) d
  | during {d e es log out s} (h : History.Interrupted false e ⟨d, log⟩ s) : Step x (.running (e :: es) log out) d (.over s.log .stopped) s.disk
  | done {d log out} : Step x (.running [] log out) d (.over log out) d

/-- Any number of steps of the processes, in any order. -/
inductive Schedule {ι : Type} [DecidableEq ι] (procs : ι → Proc) : (ι → Phase) → Disk → (ι → Phase) → Disk → Prop
  | nil {ph d} : Schedule procs ph d ph d
  | snoc {ph d ph1 d1 d2} (i : ι) {p : Phase} (h : Schedule procs ph d ph1 d1) (hs : Step (procs i) (ph1 i) d1 p d2) :
      Schedule procs ph d (Function.update ph1 i p) d2

/-- No process has started. -/
def allWaiting {ι : Type} : ι → Phase := fun _ => .waiting

end Sorcha.Whole
