import Verif.Whole.SpecDb
import Verif.Whole.Stats

/-!
# Specification: what a file of statistics holds

From `Whole/Stats.lean` only the type `Seen` is used: the values of a row that enter the statistics.
-/

namespace Sorcha.Whole.Spec

open Sorcha.Output (Cell)

/-- The columns of the statistics. With the linking filter there is the date, and if the unlinked objects are kept whether the object is linked. -/
def statisticsColumns (c : Config.Cfg) : List String :=
  ["ObjID", "optFilter", "number_obs", "min_apparent_mag", "max_apparent_mag", "median_apparent_mag", "min_phase", "max_phase"] ++
    match c.linking.ssp, c.linking.dropUnlinked with
    | none, _ => []
    | some _, true => ["date_linked_MJD"]
    | some _, false => ["object_linked", "date_linked_MJD"]

/-- A cell with a number, or an empty one. -/
inductive Value : Option ℚ → Cell → Prop
  | missing : Value none .null
  | number (q : ℚ) : Value (some q) (.num (.fin q))

/-- The magnitudes of the rows that are known. -/
def magnitudes (g : List Seen) : List ℚ := g.filterMap fun r => match r.mag with | .fin q => some q | _ => none

/-- No magnitude is infinite. -/
def FiniteMags (g : List Seen) : Prop := ∀ r ∈ g, r.mag ≠ .pinf ∧ r.mag ≠ .ninf

/-- The dates of linking, where there is one. -/
def linkDates (g : List Seen) : List (Option ℚ) := g.map fun r => (r.link.bind (·.2)).map fun n => (n : ℚ)

/-- `cell` is right in the given column of the line for an object and a filter, of which `g` are all rows. -/
structure StatCell (id f : String) (g : List Seen) (column : String) (cell : Cell) : Prop where
  object : column = "ObjID" → cell = .text id
  filter : column = "optFilter" → cell = .text f
  number : column = "number_obs" → cell = .text (toString g.length)
  minMag : column = "min_apparent_mag" → FiniteMags g → ∃ o, Value o cell ∧ Output.Spec.IsMin (magnitudes g) o
  maxMag : column = "max_apparent_mag" → FiniteMags g → ∃ o, Value o cell ∧ Output.Spec.IsMax (magnitudes g) o
  medianMag : column = "median_apparent_mag" → FiniteMags g → ∃ o, Value o cell ∧ Output.Spec.IsMedian (magnitudes g) o
  minPhase : column = "min_phase" → ∃ o, Value o cell ∧ Output.Spec.IsMin (g.filterMap (·.phase)) o
  maxPhase : column = "max_phase" → ∃ o, Value o cell ∧ Output.Spec.IsMax (g.filterMap (·.phase)) o
  linked : column = "object_linked" → (g = [] → cell = .null) ∧ (g ≠ [] → (∀ r ∈ g, ∃ x, r.link = some (true, x)) → cell = .flag true) ∧
    ((∃ r ∈ g, ∃ x, r.link = some (false, x)) → cell = .flag false)
  date : column = "date_linked_MJD" → ∃ o, Value o cell ∧ Output.Spec.IsFirst (linkDates g) o

/-- The rows of an object in a filter. -/
def groupOf (rows : List Seen) (id f : String) : List Seen := rows.filter fun r => r.objId = id ∧ r.filter = f

/-- The file of statistics for the given rows (`none`: no file): no file for no rows; else a text that is read back as the header and one line for each object with rows
and each of the filters, with the right cells; and each row is counted in just one of the lines. -/
def StatisticsFile (shown : Cell → Str) (read : Str → Option (List (List Str))) (c : Config.Cfg) (filters : List String) (rows : List Seen) (file : Option History.Content) : Prop :=
  (rows = [] ∧ file = none) ∨
  (rows ≠ [] ∧ ∃ t keys lines, file = some (.text t) ∧
    read t = some ((statisticsColumns c).map String.toList :: lines.map fun l => l.map shown) ∧
    keys.Nodup ∧ (∀ id f, (id, f) ∈ keys ↔ (∃ r ∈ rows, r.objId = id) ∧ f ∈ filters) ∧
    List.Forall₂ (fun k line => List.Forall₂ (StatCell k.1 k.2 (groupOf rows k.1 k.2)) (statisticsColumns c) line) keys lines ∧
    (keys.map fun k => (groupOf rows k.1 k.2).length).sum = rows.length)

/-- The file of results for the given rows, in their order: no file for no rows; else a text that is read back as the header and a line for each of them, or a database
with these lines. -/
def Lists {R : Type} (dist : Cell → Cell → Cell → Cell) (shown : Cell → Str) (read : Str → Option (List (List Str))) (c : Config.Cfg) (columns : List String)
    (cells : R → Output.Row) (rows : List R) (file : Option History.Content) : Prop :=
  let header := Output.Spec.wantedColumns (output c).columns (output c).keepUnlinked columns
  (rows = [] ∧ file = none) ∨
  (rows ≠ [] ∧ c.output.format = "csv" ∧ ∃ t lines, file = some (.text t) ∧ List.Forall₂ (fun r line => LineOf dist (output c) header (cells r) line) rows lines ∧
    read t = some (header.map String.toList :: lines.map fun l => l.map shown)) ∨
  (rows ≠ [] ∧ c.output.format ≠ "csv" ∧ ∃ lines, List.Forall₂ (fun r line => LineOf dist (output c) (databaseColumns c columns) (cells r) line) rows lines ∧
    file = some (.db (some (databaseColumns c columns, lines)) ["ObjID", "fieldMJD_TAI", "optFilter"]))

end Sorcha.Whole.Spec
