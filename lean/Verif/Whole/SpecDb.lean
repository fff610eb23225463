import Verif.Whole.Spec

/-!
# Specification: what a database of results holds

Nothing here refers to the functions of `Whole/Model.lean`.
-/

namespace Sorcha.Whole.Spec

open Sorcha.Output (Cell)

/-- The columns of a table of results in a database: the wanted ones, but never one with the name `level_0`. -/
def databaseColumns (c : Config.Cfg) (columns : List String) : List String :=
  (Output.Spec.wantedColumns (output c).columns (output c).keepUnlinked columns).filter (· ≠ "level_0")

/-- The database of results for the given rows (`none`: no file): no file for no rows; else a table with the wanted columns and one line for each of the rows, in some
order, and the three indices. -/
def ResultsTable {W V : Type} (dist : Cell → Cell → Cell → Cell) (c : Config.Cfg) (columns : List String) (cells : Pipeline.Row W V → Output.Row)
    (rows : List (Pipeline.Row W V)) (file : Option History.Content) : Prop :=
  (rows = [] ∧ file = none) ∨
  (rows ≠ [] ∧ ∃ order lines, order.Perm rows ∧ List.Forall₂ (fun r line => LineOf dist (output c) (databaseColumns c columns) (cells r) line) order lines ∧
    file = some (.db (some (databaseColumns c columns, lines)) ["ObjID", "fieldMJD_TAI", "optFilter"]))

/-- Both files are missing, or both are databases with the same columns, the same lines, in some order, and the three indices. -/
def SameTable (file file' : Option History.Content) : Prop :=
  (file = none ∧ file' = none) ∨
  ∃ cols lines lines', file = some (.db (some (cols, lines)) ["ObjID", "fieldMJD_TAI", "optFilter"]) ∧
    file' = some (.db (some (cols, lines')) ["ObjID", "fieldMJD_TAI", "optFilter"]) ∧ lines.Perm lines'

/-- What a run that was stopped may have left: no file, or a database without table, or one whose table has a complete line for each of some of the rows. -/
def PartTable {W V : Type} (dist : Cell → Cell → Cell → Cell) (c : Config.Cfg) (columns : List String) (cells : Pipeline.Row W V → Output.Row)
    (rows : List (Pipeline.Row W V)) (file : Option History.Content) : Prop :=
  file = none ∨ (∃ ix, file = some (.db none ix)) ∨ ∃ some' lines ix, some'.Subperm rows ∧
    List.Forall₂ (fun r line => LineOf dist (output c) (databaseColumns c columns) (cells r) line) some' lines ∧
    file = some (.db (some (databaseColumns c columns, lines)) ix)

end Sorcha.Whole.Spec
