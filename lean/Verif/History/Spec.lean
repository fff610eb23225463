import Verif.History.Model
import Verif.Cli.Spec

/-!
# Specification: the files runs leave behind
-/

namespace Sorcha.History.Spec

open Sorcha.Cli (Args)
open Sorcha.Cli.Spec (BelongsTo)
open Sorcha.Output (Frame Cell CsvLine)

/-- Two commands write their outputs to the same place under the same names. -/
def SameNames (a b : Args) : Prop := a.o = b.o ∧ a.t = b.t ∧ a.ew = b.ew ∧ a.st = b.st

/-- `p` is an ephemeris file of the command; an empty name counts as none. -/
def IsEphemeris (a : Args) (p : String) : Prop := ∃ n, a.ew = some n ∧ n ≠ "" ∧ BelongsTo a.o n p

/-- `p` is the statistics file of the command. -/
def IsStats (a : Args) (p : String) : Prop := ∃ n, a.st = some n ∧ p = a.o ++ "/" ++ n ++ ".csv"

/-- `p` is a file of results of the command. -/
def IsResults (a : Args) (p : String) : Prop := BelongsTo a.o a.t p

/-- The three kinds of outputs have different names. -/
def NamesDiffer (a : Args) : Prop :=
  (∀ p, ¬ (IsResults a p ∧ IsEphemeris a p)) ∧ (∀ p, ¬ (IsResults a p ∧ IsStats a p)) ∧ ∀ p, ¬ (IsEphemeris a p ∧ IsStats a p)

/-- At most one file of results and one ephemeris file exist. -/
def AtMostOne (a : Args) (d : Disk) : Prop :=
  (∀ p q, d.get p ≠ none → d.get q ≠ none → IsResults a p → IsResults a q → p = q) ∧
  ∀ p q, d.get p ≠ none → d.get q ≠ none → IsEphemeris a p → IsEphemeris a q → p = q

/-- Tables as one CSV text: the header of the first, then the rows of all of them in order. No file for no table. -/
def csvOf (line : CsvLine → List Char) : List Frame → Option Content
  | [] => none
  | f :: fs => some (.text (line (.header f.cols) ++ (f :: fs).flatMap fun g => g.cells.flatMap fun cells => line (.row cells)))

/-- A column that is never written to a database. -/
def dbColumns (f : Frame) : List String := f.cols.filter (· ≠ "level_0")

/-- Tables as one database table: the columns of the first, the rows of all of them in order, empty where a table lacks the column. -/
def tableOf : List Frame → Option (List String × List (List Cell))
  | [] => none
  | f :: fs => some (dbColumns f, (f :: fs).flatMap fun g => g.rows.map fun r => (dbColumns f).map fun c => if c ∈ dbColumns g then r c else .null)

/-- The finished database: with its three indices. No file for no table. -/
def dbOf (fs : List Frame) : Option Content :=
  match fs with
  | [] => none
  | fs => some (.db (tableOf fs) ["ObjID", "fieldMJD_TAI", "optFilter"])

/-- The tables of a job. -/
def ephemerides (j : Job) : List Frame := j.chunks.filterMap (·.ephemeris)
def results (j : Job) : List Frame := j.chunks.filterMap fun c => c.results.map (·.1)
def statistics (j : Job) : List Frame := j.chunks.filterMap fun c => c.results.map (·.2)

/-- The path of the file of results. -/
def resultsPath (j : Job) : String :=
  j.args.o ++ "/" ++ j.args.t ++ (match j.format with | .csv => ".csv" | .sqlite => ".db")

/-- The file the job is to leave at the path `p`; `none` for no file. Files that are no outputs of the job are as before, in `d`. -/
inductive Wanted (ls : Lines) (j : Job) (d : Disk) : String → Option Content → Prop
  | results (h : j.format = .csv) : Wanted ls j d (resultsPath j) (csvOf ls.output (results j))
  | database (h : j.format = .sqlite) : Wanted ls j d (resultsPath j) (dbOf (results j))
  | ephemeris (n : String) (hn : j.args.ew = some n) (hne : n ≠ "") :
      Wanted ls j d (j.args.o ++ "/" ++ n ++ ".csv") (csvOf ls.ephemeris (ephemerides j))
  | stats (n : String) (hn : j.args.st = some n) : Wanted ls j d (j.args.o ++ "/" ++ n ++ ".csv") (csvOf ls.stats (statistics j))
  | otherResults (p : String) (h : IsResults j.args p) (hp : p ≠ resultsPath j) : Wanted ls j d p none
  | otherEphemeris (p n : String) (hn : j.args.ew = some n) (hne : n ≠ "") (h : BelongsTo j.args.o n p)
      (hp : p ≠ j.args.o ++ "/" ++ n ++ ".csv") : Wanted ls j d p none
  | rest (p : String) (hr : ¬ IsResults j.args p) (he : ¬ IsEphemeris j.args p) (hs : ¬ IsStats j.args p) : Wanted ls j d p (d.get p)

/-- The files are those the job is to leave. -/
def Complete (ls : Lines) (j : Job) (before after : Disk) : Prop := ∀ p c, Wanted ls j before p c → after.get p = c

/-- `part` is an early stage of the text file `whole`: not there yet, or an initial part of the text. -/
def TextStage (part whole : Option Content) : Prop :=
  part = none ∨ ∃ s t, part = some (.text s) ∧ whole = some (.text t) ∧ s <+: t

/-- `part` is an early stage of the database for the given tables: not there yet, or exactly the rows of the first few of them; with indices only if
all of them are there. -/
def TableStage (tables : List Frame) (part : Option Content) : Prop :=
  part = none ∨ ∃ k ix, part = some (.db (tableOf (tables.take k)) ix) ∧ ix <+: ["ObjID", "fieldMJD_TAI", "optFilter"] ∧ (ix ≠ [] → tables.length ≤ k)

/-- Every table has only columns of the first one, and the first has the columns that are indexed. -/
def Indexable (fs : List Frame) : Prop :=
  ∀ f rest, fs = f :: rest → (∀ h ∈ rest, ∀ c ∈ dbColumns h, c ∈ dbColumns f) ∧
    ∀ c ∈ ["ObjID", "fieldMJD_TAI", "optFilter"], c ∈ dbColumns f

/-- The completion message. -/
def completed : List Char := "Sorcha process is completed. ".toList

/-- The completion message is only logged at the end. -/
def QuietLog (j : Job) : Prop :=
  (∀ l ∈ j.start, ¬ Cli.Spec.Occurs completed l) ∧ ∀ c ∈ j.chunks, ∀ l ∈ c.messages, ¬ Cli.Spec.Occurs completed l

end Sorcha.History.Spec
