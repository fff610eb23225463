import Verif.Argv.Spec
import Verif.Setup.Spec
import Verif.Cmd.Model

/-!
# Specification: what the arguments of the other commands say

How a setting is written is in `Verif.Argv.Spec`; here are the names of the settings of each command. Of the model only the kinds of results are used.
-/

namespace Sorcha.Cmd.Spec
open Argv.Spec

/-! ## Settings -/

inductive InitSetting
  | verbose | path | force
deriving DecidableEq, Repr

def initNames : List (String × InitSetting) :=
  [("-v", .verbose), ("--verbose", .verbose), ("-p", .path), ("--path", .path), ("-f", .force), ("--force", .force)]

/-- The arguments of `sorcha init` say these settings. -/
abbrev InitSays : List (List Char) → List (InitSetting × List Char) → Prop := SaysIn initNames (fun s => s = .verbose ∨ s = .force)

inductive BootSetting
  | cache | force
deriving DecidableEq, Repr

def bootNames : List (String × BootSetting) := [("--cache", .cache), ("-f", .force), ("--force", .force)]

/-- The arguments of `sorcha bootstrap` say these settings. -/
abbrev BootSays : List (List Char) → List (BootSetting × List Char) → Prop := SaysIn bootNames (fun s => s = .force)

inductive CiteSetting
  | dir | print
deriving DecidableEq, Repr

def citeNames : List (String × CiteSetting) := [("-o", .dir), ("--outfile", .dir), ("-p", .print), ("--print", .print)]

/-- The arguments of `sorcha cite` say these settings. -/
abbrev CiteSays : List (List Char) → List (CiteSetting × List Char) → Prop := SaysIn citeNames (fun s => s = .print)

inductive DemoSetting
  | path | force
deriving DecidableEq, Repr

def demoNames : List (String × DemoSetting) := [("-p", .path), ("--path", .path), ("-f", .force), ("--force", .force)]

/-- The arguments of `sorcha demo prepare` say these settings. -/
abbrev DemoSays : List (List Char) → List (DemoSetting × List Char) → Prop := SaysIn demoNames (fun s => s = .force)

inductive SqlSetting
  | output | inputs | results | stem | complex
deriving DecidableEq, Repr

def sqlNames : List (String × SqlSetting) := [
  ("-o", .output), ("--output", .output), ("-i", .inputs), ("--inputs", .inputs), ("-r", .results), ("--results", .results),
  ("-s", .stem), ("--stem", .stem), ("-c", .complex), ("--complex", .complex)]

/-- The arguments of `sorcha outputs create-sqlite` say these settings. -/
abbrev SqlSays : List (List Char) → List (SqlSetting × List Char) → Prop := SaysIn sqlNames (fun s => s = .complex)

inductive LogsSetting
  | dir | report | force
deriving DecidableEq, Repr

def logsNames : List (String × LogsSetting) :=
  [("-f", .dir), ("--filepath", .dir), ("-o", .report), ("--outpath", .report), ("--force", .force)]

/-- The arguments of `sorcha outputs check-logs` say these settings. -/
abbrev LogsSays : List (List Char) → List (LogsSetting × List Char) → Prop := SaysIn logsNames (fun s => s = .force)

/-- A setting is given. -/
def Given {S : Type} [DecidableEq S] (gs : List (S × List Char)) (s : S) : Prop := ∃ v, (s, v) ∈ gs

/-! ## What a command leaves -/

/-- A disk on which the command may leave things, if it is ended at some moment or ends by itself. -/
def Leaves {α : Type} (o : Did α) (d s : Setup.Disk) : Prop :=
  match o with
  | .worked r => Setup.Spec.Seen r s
  | _ => s = d

end Sorcha.Cmd.Spec
