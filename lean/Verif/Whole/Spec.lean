import Verif.Csv.Spec
import Verif.History.Spec
import Verif.Output.Props
import Verif.Pipeline.Spec
import Verif.Readers.Spec

/-!
# Specification: what a file of results holds

Nothing here refers to the functions of `Whole/Model.lean`.
-/

namespace Sorcha.Whole.Spec

open Sorcha.Readers (Rec IdParse)
open Sorcha.History (Disk)
open Sorcha.Output (Cell)

abbrev Str := List Char

/-- The file at `p` is the text of an input table in the given format with the rows `recs`: the IDs in the first column and the other fields. The IDs are not altered by being read. -/
def Table (P : IdParse) (format : String) (d : Disk) (p : String) (recs : List (Rec Str)) : Prop :=
  ∃ t names rows, d.get p = some (.text t) ∧ Csv.Spec.InputText format t names rows ∧ recs = rows.map (fun r => ⟨String.ofList (r.headD []), r.tail⟩) ∧ Readers.Spec.StableIds P recs

/-- The orbits, each object once, and the other tables of objects: the physical parameters, and the complex ones if there is a light curve or an activity model. They
list the same objects in any order. -/
structure Objects (P : IdParse) (d : Disk) (a : Cli.Args) (c : Config.Cfg) (orb : List (Rec Str)) (others : List (List (Rec Str))) : Prop where
  orbits : Table P c.input.auxFormat d a.ob orb
  unique : (orb.map (·.id)).Nodup
  given : (c.activity = none ∧ c.lightcurve = none ∧ ∃ phys, others = [phys] ∧ Table P c.input.auxFormat d a.p phys) ∨
    ((c.activity ≠ none ∨ c.lightcurve ≠ none) ∧ ∃ phys cx p, others = [phys, cx] ∧ a.cp = some p ∧ Table P c.input.auxFormat d a.p phys ∧ Table P c.input.auxFormat d p cx)
  same : ∀ t ∈ others, (t.map (·.id)).Perm (orb.map (·.id))

/-- The settings of the output in the configuration file. -/
def output (c : Config.Cfg) : Output.Config :=
  ⟨match c.output.columns with | .listed l => .list l | .named s => if s = "basic" then .basic else .all,
    c.linking.ssp.isSome && !c.linking.dropUnlinked, c.output.posDecimals.map Int.toNat, c.output.magDecimals.map Int.toNat⟩

/-- `cells` are the cells of a line for a row with the given values: one for each wanted column, the value or the computed distance to the Sun, rounded if the column is
one of those that are rounded. -/
def LineOf (dist : Cell → Cell → Cell → Cell) (oc : Output.Config) (names : List String) (r : Output.Row) (cells : List Cell) : Prop :=
  List.Forall₂ (fun c out => match Output.Spec.decimalsOf oc c with
    | none => out = Output.Props.rawCell dist r c
    | some d => Output.Spec.CellRounded d (Output.Props.rawCell dist r c) out) names cells

/-- A row of the combined tables as an observation: the ID, and what its other cells say. -/
def obsOf {W : Type} (parse : List Str → ℕ × ℚ × W) (r : Rec Str) : Pointing.Obs W := ⟨r.id, (parse r.cells).1, (parse r.cells).2.1, (parse r.cells).2.2⟩

/-- The rows of the ephemeris file that belong to objects of the orbit file, each with the cells of its object in the other tables. -/
def observed {W : Type} (parse : List Str → ℕ × ℚ × W) (eph orb : List (Rec Str)) (others : List (List (Rec Str))) : List (Pointing.Obs W) :=
  (eph.filter fun r => r.id ∈ orb.map (·.id)).map fun r => obsOf parse (Readers.Spec.extend (orb :: others) r)

/-- The objects of the orbit file with the cells of the other tables, without the faint ones (`faint`), if those are to be left out. -/
def bright (c : Config.Cfg) (faint : Rec Str → Bool) (orb : List (Rec Str)) (others : List (List (Rec Str))) : List (Rec Str) :=
  (orb.map (Readers.Spec.extend others)).filter fun r => c.expert.bruteForce || !faint r

/-- The content of a file of results for the given rows (`none`: no file): no file for no rows; else a text that is read back as the header and one line for each of the
rows, in some order. -/
def ResultsFile {W V : Type} (dist : Cell → Cell → Cell → Cell) (shown : Cell → Str) (read : Str → Option (List (List Str))) (c : Config.Cfg) (columns : List String)
    (cells : Pipeline.Row W V → Output.Row) (rows : List (Pipeline.Row W V)) (file : Option History.Content) : Prop :=
  let header := Output.Spec.wantedColumns (output c).columns (output c).keepUnlinked columns
  (rows = [] ∧ file = none) ∨
  (rows ≠ [] ∧ ∃ t order lines, file = some (.text t) ∧ order.Perm rows ∧ List.Forall₂ (fun r line => LineOf dist (output c) header (cells r) line) order lines ∧
    read t = some (header.map String.toList :: lines.map fun l => l.map shown))

/-- Both files are missing, or both are texts that are read back as the same header and the same lines, in some order. -/
def SameLines (read : Str → Option (List (List Str))) (file file' : Option History.Content) : Prop :=
  (file = none ∧ file' = none) ∨
  ∃ t t' header lines lines', file = some (.text t) ∧ file' = some (.text t') ∧ read t = some (header :: lines) ∧ read t' = some (header :: lines') ∧ lines.Perm lines'

/-- What a run that was stopped may have left: no file; or a text that cannot be read; or one that is read as the first of the lines (header, and a line for each of some
of the rows), with at most one more line, cut short. -/
def PartFile {W V : Type} (dist : Cell → Cell → Cell → Cell) (shown : Cell → Str) (read : Str → Option (List (List Str))) (c : Config.Cfg) (columns : List String)
    (cells : Pipeline.Row W V → Output.Row) (rows : List (Pipeline.Row W V)) (file : Option History.Content) : Prop :=
  let header := Output.Spec.wantedColumns (output c).columns (output c).keepUnlinked columns
  file = none ∨ ∃ t, file = some (.text t) ∧
    (read t = none ∨ ∃ some' lines done rest, some'.Subperm rows ∧ List.Forall₂ (fun r line => LineOf dist (output c) header (cells r) line) some' lines ∧
      (header.map String.toList :: lines.map fun l => l.map shown) = done ++ rest ∧
      (read t = some done ∨ ∃ row rest' part, rest = row :: rest' ∧ Csv.Spec.CutShort part row ∧ read t = some (done ++ [part])))

/-! ## The same run again -/

/-- `p` is a place of an output of the command: a file of results, of ephemerides or of statistics. -/
def IsOutput (a : Cli.Args) (p : String) : Prop := History.Spec.IsResults a p ∨ History.Spec.IsEphemeris a p ∨ History.Spec.IsStats a p

/-- The files are the same but for outputs of the command. -/
def SameOutside (a : Cli.Args) (d e : Disk) : Prop := ∀ p, ¬ IsOutput a p → d.get p = e.get p

/-- `part` is an early stage of the file `whole`: not there yet; or the beginning of its text; or a database without table, or with the first of its rows. -/
def Stage (part whole : Option History.Content) : Prop :=
  part = none ∨ (∃ s t, part = some (.text s) ∧ whole = some (.text t) ∧ s <+: t) ∨
  (∃ ix, part = some (.db none ix)) ∨
  ∃ cols rows more ix ix', part = some (.db (some (cols, rows)) ix) ∧ whole = some (.db (some (cols, rows ++ more)) ix')

/-- The two commands are the same but for `-f`. -/
def SameButForce (a b : Cli.Args) : Prop := { b with f := a.f } = a

/-- No input of the command is in a place of its outputs. -/
def InputsApart (a : Cli.Args) : Prop := ∀ p ∈ [a.p, a.ob, a.c, a.o, a.pd] ++ a.cp.toList ++ a.vd.toList, ¬ IsOutput a p

/-! ## Saved ephemerides -/

/-- Tables of ephemerides are written with the IDs in the first column, and the given names and fields in the others. -/
structure Saves {W : Type} (shown : Cell → Str) (table : List (Pointing.Obs W) → Output.Frame) (names : List Str) (fields : Pointing.Obs W → List Str) : Prop where
  header : ∀ obs, (table obs).cols.map String.toList = "ObjID".toList :: names
  more : names ≠ []
  rows : ∀ obs, (table obs).rows.map (fun r => (table obs).cols.map fun x => shown (r x)) = obs.map fun o => o.obj.toList :: fields o
  width : ∀ o, (fields o).length = names.length

/-- A table of ephemerides can be read back from the format in which it is saved: always with commas; with blanks if no ID, name or value is empty or has a tab in it, and the
names have letters or digits and no line ends. -/
def Readable {W : Type} (format : String) (ids : List String) (names : List Str) (fields : Pointing.Obs W → List Str) : Prop :=
  format = "csv" ∨ format = "whitespace" ∧ (∀ id ∈ ids, '\t' ∉ id.toList) ∧ (∀ n ∈ names, '\t' ∉ n ∧ '\n' ∉ n ∧ '\r' ∉ n ∧ ∃ c ∈ n, c.isAlphanum = true) ∧
    ∀ o, ∀ f ∈ fields o, f ≠ [] ∧ '\t' ∉ f

/-- The settings with ephemerides from a file instead of generated ones. -/
def fromFile (c : Config.Cfg) : Config.Cfg := { c with input := { c.input with ephemeridesType := "external" }, simulation := none }

/-- The place of the results of a command. -/
def resultsAt (a : Cli.Args) (c : Config.Cfg) : String := a.o ++ "/" ++ a.t ++ (if c.output.format = "csv" then ".csv" else ".db")

end Sorcha.Whole.Spec
