import Verif.Argv.Model
import Verif.Setup.Model

/-!
# Model of the command lines of the other commands

`sorcha init`, `demo`, `bootstrap`, `cite` and `outputs`: how they read their arguments, up to the call that does the work. That work is modelled in `Verif.Setup`,
`Verif.Cli` and `Verif.Sqlite`; the file that `sorcha cite` writes is modelled here. Reading the arguments uses the model of `argparse` in `Verif.Argv`.

`os.path.abspath`, the working directory and pooch's directory for the cache are parameters.
-/

namespace Sorcha.Cmd
open Argv (Str Act Table Exit Kind St)

variable {D : Type} [DecidableEq D]

/-- `parse_known_args` of a parser that has only options: the settings made, in order, and whether arguments were left over (argparse:1918-2182). -/
def parseKnown (T : Table D) (required : List D) (argv : List Str) : Except Exit (St D) :=
  match Argv.kinds T argv with
  | .error e => .error e
  | .ok ks =>
    match Argv.go T ks ⟨[], false⟩ with
    | .error e => .error e
    | .ok st => if required.all fun d => d ∈ st.given.map Prod.fst then .ok st else .error .usage

/-- `parse_args`, argparse:1873-1878. -/
def parseArgs (T : Table D) (required : List D) (argv : List Str) : Except Exit (List (D × Str)) :=
  match parseKnown T required argv with
  | .error e => .error e
  | .ok st => if st.extras then .error .usage else .ok st.given

/-! ## `sorcha init` -/

inductive InitDest
  | verbose | path | force
deriving DecidableEq, Repr

/-- init.py:85-99. -/
def initTable : Table InitDest := [
  ("-h".toList, .help), ("--help".toList, .help),
  ("-v".toList, .flag .verbose), ("--verbose".toList, .flag .verbose),
  ("-p".toList, .value .path), ("--path".toList, .value .path),
  ("-f".toList, .flag .force), ("--force".toList, .flag .force)]

/-- The namespace of `sorcha init` with its defaults. -/
structure InitArgs where
  verbose : Bool := false
  path : String := "./"
  force : Bool := false
deriving DecidableEq, Repr

/-- The actions `store_true` and `store` of init.py:85-99. -/
def InitArgs.set (a : InitArgs) : InitDest × Str → InitArgs
  | (.verbose, _) => { a with verbose := true }
  | (.path, v) => { a with path := String.ofList v }
  | (.force, _) => { a with force := true }

/-- `main`, init.py:80-102, up to `execute`. -/
def initArgs (argv : List Str) : Except Exit InitArgs :=
  match parseArgs initTable [] argv with
  | .error e => .error e
  | .ok given => .ok (given.foldl InitArgs.set {})

/-! ## `sorcha bootstrap` -/

inductive BootDest
  | cache | force
deriving DecidableEq, Repr

/-- bootstrap.py:15-26. -/
def bootTable : Table BootDest := [
  ("-h".toList, .help), ("--help".toList, .help),
  ("--cache".toList, .value .cache),
  ("-f".toList, .flag .force), ("--force".toList, .flag .force)]

structure BootArgs where
  cache : String
  force : Bool := false
deriving DecidableEq, Repr

/-- The actions of bootstrap.py:15-26. -/
def BootArgs.set (a : BootArgs) : BootDest × Str → BootArgs
  | (.cache, v) => { a with cache := String.ofList v }
  | (.force, _) => { a with force := true }

/-- `main`, bootstrap.py:8-29; `osCache` is `pooch.os_cache("sorcha")`. -/
def bootArgs (osCache : String) (argv : List Str) : Except Exit BootArgs :=
  match parseArgs bootTable [] argv with
  | .error e => .error e
  | .ok given => .ok (given.foldl BootArgs.set { cache := osCache })

/-! ## `sorcha cite` -/

inductive CiteDest
  | o | p
deriving DecidableEq, Repr

/-- cite.py:16-33. -/
def citeTable : Table CiteDest := [
  ("-h".toList, .help), ("--help".toList, .help),
  ("-o".toList, .value .o), ("--outfile".toList, .value .o),
  ("-p".toList, .flag .p), ("--print".toList, .flag .p)]

structure CiteArgs where
  o : String
  p : Bool := false
deriving DecidableEq, Repr

/-- The actions of cite.py:16-33. -/
def CiteArgs.set (a : CiteArgs) : CiteDest × Str → CiteArgs
  | (.o, v) => { a with o := String.ofList v }
  | (.p, _) => { a with p := true }

/-- `main`, cite.py:9-37; `cwd` is `os.getcwd()`. -/
def citeArgs (cwd : String) (argv : List Str) : Except Exit CiteArgs :=
  match parseArgs citeTable [] argv with
  | .error e => .error e
  | .ok given => .ok (given.foldl CiteArgs.set { o := cwd })

/-- What `sorcha cite` shows. -/
inductive Cited
  | printed   -- the text of the citations on the terminal, cite.py:44-45
  | saved     -- "Citations have been written into", cite.py:58
deriving DecidableEq, Repr

/-- `execute`, cite.py:40-58. `abspath` finds what a path leads to: `os.path.isdir(args.o)` and `open(os.path.join(args.o, ...))` are those of the absolute path. The
text is a parameter. -/
def cite (abspath : String → String) (text : List Char) (a : CiteArgs) (d : Setup.Disk) : Setup.Ran Cited :=
  if a.p then ⟨[d], .ok .printed, d⟩
  else if !d.isDir (abspath a.o) then ⟨[d], .error .notDir, d⟩
  else if d.isDir (Setup.join (abspath a.o) "sorcha_citation.txt") then ⟨[d], .error .isADirectory, d⟩
  else ⟨d :: Setup.writing d (Setup.join (abspath a.o) "sorcha_citation.txt") text, .ok .saved, d.put (Setup.join (abspath a.o) "sorcha_citation.txt") text⟩

/-! ## Parsers with commands -/

/-- The parsers of `sorcha demo` and `sorcha outputs` have no options but help, demo.py:52-60, outputs.py:72-75. -/
def topTable : Table Empty := [("-h".toList, .help), ("--help".toList, .help)]

/-- The result of reading a command line with a command. -/
inductive Sub (α : Type)
  | none            -- no command: the help text, demo.py:90-91, outputs.py:152-153
  | some (a : α)
deriving DecidableEq, Repr

/-- The loop over the arguments (argparse:2094-2135): options up to the first positional argument, which takes everything that is left (argparse:2368-2369): the first
of them is the command, also if it is `--` (argparse:2477, 2515), which is no command, and the rest is for its parser. `sub` reads the arguments of a command, `none` if there is no such
command; arguments that are left over come to light in the end. -/
def subGo {α : Type} (sub : Str → Option (List Str → Except Exit (α × Bool))) : List (Str × Kind Empty) → Bool → Except Exit (Sub α)
  | [], extras => if extras then .error .usage else .ok .none
  | (_, .option a short e) :: rest, extras =>
    match Argv.consume topTable a short e rest.head? with
    | .error x => .error x
    | .ok (acts, _, extra) =>
      match Argv.perform acts ⟨[], extras || extra⟩ with
      | .error x => .error x
      | .ok st => subGo sub rest st.extras
  | (_, .unknown) :: rest, _ => subGo sub rest true
  | (s, .arg) :: rest, extras =>
    match sub s with
    | none => .error .usage
    | some f =>
      match f (rest.map Prod.fst) with
      | .error x => .error x
      | .ok (a, extra) => if extras || extra then .error .usage else .ok (.some a)
  | (_, .dashes) :: _, _ => .error .usage

/-- `parse_args` of a parser with commands. -/
def parseSub {α : Type} (sub : Str → Option (List Str → Except Exit (α × Bool))) (argv : List Str) : Except Exit (Sub α) :=
  match Argv.kinds topTable argv with
  | .error e => .error e
  | .ok ks => subGo sub ks false

/-- The parser of a command that has only options, as the parser above it calls it (argparse:1246-1252): the namespace filled in, and whether arguments were left over. -/
def subArgs {A α : Type} (T : Table D) (required : List D) (set : A → D × Str → A) (start : A) (wrap : A → α) (argv : List Str) : Except Exit (α × Bool) :=
  match parseKnown T required argv with
  | .error e => .error e
  | .ok st => .ok (wrap (st.given.foldl set start), st.extras)

/-! ## `sorcha demo` -/

inductive DemoDest
  | path | force
deriving DecidableEq, Repr

/-- demo.py:67-79. -/
def demoTable : Table DemoDest := [
  ("-h".toList, .help), ("--help".toList, .help),
  ("-p".toList, .value .path), ("--path".toList, .value .path),
  ("-f".toList, .flag .force), ("--force".toList, .flag .force)]

structure DemoArgs where
  path : String := "./"
  force : Bool := false
deriving DecidableEq, Repr

/-- The actions of demo.py:67-79. -/
def DemoArgs.set (a : DemoArgs) : DemoDest × Str → DemoArgs
  | (.path, v) => { a with path := String.ofList v }
  | (.force, _) => { a with force := true }

/-- The functions `cmd_demo_prepare` and `cmd_demo_howto`, demo.py:66, 83. -/
inductive DemoDo
  | prepare (a : DemoArgs)
  | howto
deriving DecidableEq, Repr

/-- The commands of `sorcha demo`, demo.py:62-83; `howto` has no options. -/
def demoSub (name : Str) : Option (List Str → Except Exit (DemoDo × Bool)) :=
  if name = "prepare".toList then some (subArgs demoTable [] DemoArgs.set {} .prepare)
  else if name = "howto".toList then some (subArgs topTable [] (fun (_ : Unit) _ => ()) () fun _ => .howto)
  else none

/-- `main`, demo.py:50-91, up to `args.func(args)`. -/
def demoArgs (argv : List Str) : Except Exit (Sub DemoDo) := parseSub demoSub argv

/-! ## `sorcha outputs` -/

inductive SqlDest
  | output | inputs | results | stem | complex
deriving DecidableEq, Repr

/-- outputs.py:83-116. -/
def sqlTable : Table SqlDest := [
  ("-h".toList, .help), ("--help".toList, .help),
  ("-o".toList, .value .output), ("--output".toList, .value .output),
  ("-i".toList, .value .inputs), ("--inputs".toList, .value .inputs),
  ("-r".toList, .value .results), ("--results".toList, .value .results),
  ("-s".toList, .value .stem), ("--stem".toList, .value .stem),
  ("-c".toList, .flag .complex), ("--complex".toList, .flag .complex)]

structure SqlArgs where
  output : String := ""
  inputs : String := ""
  results : String := ""
  stem : Option String := none
  complex : Bool := false
deriving DecidableEq, Repr

/-- The actions of outputs.py:83-116; the first three are required, so that their defaults are not used. -/
def SqlArgs.set (a : SqlArgs) : SqlDest × Str → SqlArgs
  | (.output, v) => { a with output := String.ofList v }
  | (.inputs, v) => { a with inputs := String.ofList v }
  | (.results, v) => { a with results := String.ofList v }
  | (.stem, v) => { a with stem := some (String.ofList v) }
  | (.complex, _) => { a with complex := true }

inductive LogsDest
  | filepath | outpath | force
deriving DecidableEq, Repr

/-- outputs.py:125-144. -/
def logsTable : Table LogsDest := [
  ("-h".toList, .help), ("--help".toList, .help),
  ("-f".toList, .value .filepath), ("--filepath".toList, .value .filepath),
  ("-o".toList, .value .outpath), ("--outpath".toList, .value .outpath),
  ("--force".toList, .flag .force)]

structure LogsArgs where
  filepath : String := ""
  outpath : Option String := none
  force : Bool := false
deriving DecidableEq, Repr

/-- The actions of outputs.py:125-144; the first is required; the default of `--outpath` is `False`. -/
def LogsArgs.set (a : LogsArgs) : LogsDest × Str → LogsArgs
  | (.filepath, v) => { a with filepath := String.ofList v }
  | (.outpath, v) => { a with outpath := some (String.ofList v) }
  | (.force, _) => { a with force := true }

/-- The functions `cmd_outputs_create_sqlite` and `cmd_outputs_check_logs`, outputs.py:81, 123. -/
inductive OutputsDo
  | createSqlite (a : SqlArgs)
  | checkLogs (a : LogsArgs)
deriving DecidableEq, Repr

/-- The commands of `sorcha outputs`, outputs.py:77-144. -/
def outputsSub (name : Str) : Option (List Str → Except Exit (OutputsDo × Bool)) :=
  if name = "create-sqlite".toList then some (subArgs sqlTable [.output, .inputs, .results] SqlArgs.set {} .createSqlite)
  else if name = "check-logs".toList then some (subArgs logsTable [.filepath] LogsArgs.set {} .checkLogs)
  else none

/-- `main`, outputs.py:70-153, up to `args.func(args)`. -/
def outputsArgs (argv : List Str) : Except Exit (Sub OutputsDo) := parseSub outputsSub argv

/-! ## The commands -/

/-- How a command ends: with the parser, which exits, with the help text for want of a command, with a printed text, or after the work. -/
inductive Did (α : Type)
  | exit (x : Exit)
  | helped
  | printed
  | worked (r : Setup.Ran α)

/-- `sorcha init`, init.py:46-102, with the answer typed in. -/
def init (int : String → Option ℤ) (package : String → List Char) (abspath : String → String) (answer : String) (argv : List Str) (d : Setup.Disk) : Did Unit :=
  match initArgs argv with
  | .error x => .exit x
  | .ok a => .worked (Setup.sorchaInit int package (abspath a.path) answer a.force d)

/-- `sorcha demo`, demo.py:8-91. -/
def demo (package : String → List Char) (abspath : String → String) (argv : List Str) (d : Setup.Disk) : Did Unit :=
  match demoArgs argv with
  | .error x => .exit x
  | .ok .none => .helped
  | .ok (.some .howto) => .printed
  | .ok (.some (.prepare a)) => .worked (Setup.demoPrepare package (abspath a.path) a.force d)

/-- `sorcha cite`, cite.py:9-58. -/
def sorchaCite (abspath : String → String) (cwd : String) (text : List Char) (argv : List Str) (d : Setup.Disk) : Did Cited :=
  match citeArgs cwd argv with
  | .error x => .exit x
  | .ok a => .worked (cite abspath text a d)

/-- `sorcha outputs check-logs`, outputs.py:37-62: `args.outpath` counts as not given if it is empty (line 45). -/
def checkLogs (walk : Setup.Walk) (br : Char → Bool) (csv : List Setup.LogRow → List Char) (dirname abspath : String → String) (a : LogsArgs) (d : Setup.Disk) :
    Setup.Ran Setup.Told :=
  Setup.cmdCheckLogs walk br csv dirname (abspath a.filepath) (match a.outpath with
    | none => none
    | some p => if p = "" then none else some (abspath p)) a.force d

/-- `sorcha outputs`, outputs.py:7-153; `sqlite` is the work of `create-sqlite`, modelled in `Verif.Sqlite`. -/
def outputs (walk : Setup.Walk) (br : Char → Bool) (csv : List Setup.LogRow → List Char) (dirname abspath : String → String)
    (sqlite : SqlArgs → Setup.Disk → Setup.Ran Setup.Told) (argv : List Str) (d : Setup.Disk) : Did Setup.Told :=
  match outputsArgs argv with
  | .error x => .exit x
  | .ok .none => .helped
  | .ok (.some (.checkLogs a)) => .worked (checkLogs walk br csv dirname abspath a d)
  | .ok (.some (.createSqlite a)) => .worked (sqlite a d)

end Sorcha.Cmd
