import Verif.Sqlite.Model

/-!
# What the tables of the combined database should hold
-/

namespace Sorcha.Sqlite.Spec
variable {V : Type}

/-- Blanks and tabs only. -/
def Gap (g : Line) : Prop := ∀ c ∈ g, c = ' ' ∨ c = '\t'

/-- A piece of text without blanks or tabs. -/
def Piece (w : Line) : Prop := w ≠ [] ∧ ∀ c ∈ w, c ≠ ' ' ∧ c ≠ '\t'

/-- A line with these pieces: blanks may stand before and after, and do stand between them. -/
inductive Written : List Line → Line → Prop
  | done (g : Line) : Gap g → Written [] g
  | last (g w g' : Line) : Gap g → Piece w → Gap g' → Written [w] (g ++ w ++ g')
  | more (g w : Line) (c : Char) (ws : List Line) (rest : Line) : Gap g → Piece w → c = ' ' ∨ c = '\t' → ws ≠ [] → Written ws rest →
      Written (w :: ws) (g ++ w ++ c :: rest)

/-- An input file: its header and its rows, as pieces of text. -/
structure File where
  header : List Line
  rows : List (List Line)

/-- The file as a table: different names, no row longer than the header. -/
structure Regular (f : File) : Prop where
  nonempty : f.header ≠ []
  names : f.header.Nodup
  rows : ∀ r ∈ f.rows, r ≠ [] ∧ r.length ≤ f.header.length

/-- The lines of a file, empty lines left aside. -/
def Lines (f : File) (lines : List Line) : Prop := List.Forall₂ Written (f.header :: f.rows) (lines.filter fun l => ¬ l.all fun c => c = ' ' ∨ c = '\t')

/-- The name of a column in the database. -/
def called (w : Line) : String := if String.ofList w = "INDEX" then "orig_index" else String.ofList w

/-- The names of a file's columns in the database. -/
def File.names (f : File) : List String := f.header.map called

/-- The name under which row numbers are stored. -/
def rowNumber (f : File) : String := if "index" ∈ f.names then "level_0" else "index"

/-- Column `j` of a file. -/
def File.column (f : File) (j : ℕ) : List (Option Line) := f.rows.map fun r => r[j]?

/-- The stored row `r` of a table with these columns is row `i` of the file: under each of the file's names there is the converted value, under the other
names nothing, and the row's number. -/
structure Stored (L : Lib V) (columns : List String) (f : File) (i : ℕ) (r : List V) : Prop where
  length : r.length = columns.length
  value : ∀ j w, f.header[j]? = some w → ∀ k : ℕ, columns[k]? = some (called w) → r[k]? = some ((L.conv (f.column j))[i]?.getD L.null)
  number : ∀ k : ℕ, columns[k]? = some (rowNumber f) → r[k]? = some (L.num i)
  other : ∀ (k : ℕ) (c : String), columns[k]? = some c → c ∉ f.names → c ≠ rowNumber f → r[k]? = some L.null

/-- The rows of all files, in order: the file and the number of the row in it. -/
def allRows (files : List File) : List (File × ℕ) := files.flatMap fun f => (List.range f.rows.length).map fun i => (f, i)

/-- No two of the names are the same up to case. -/
def CaseApart (L : Lib V) (files : List File) : Prop :=
  ∀ f ∈ files, ∀ g ∈ files, ∀ a ∈ rowNumber f :: f.names, ∀ b ∈ rowNumber g :: g.names, L.fold a = L.fold b → a = b

/-- The table of an input: the columns of the first file after the row number, and all rows of all files. -/
def Holds (L : Lib V) (files : List File) (t : Cli.Tab V) : Prop :=
  (∃ f fs, files = f :: fs ∧ t.columns = rowNumber f :: f.names) ∧ List.Forall₂ (fun e r => Stored L t.columns e.1 e.2 r) (allRows files) t.rows

/-- Every file has different names for its columns, and only names that the first file has. -/
def Fitting (files : List File) : Prop :=
  ∃ f fs, files = f :: fs ∧ ∀ g ∈ files, (rowNumber g :: g.names).Nodup ∧ ∀ a ∈ rowNumber g :: g.names, a ∈ rowNumber f :: f.names

/-- These lines are those of regular files. -/
def Reading (files : List File) (lines : List (List Line)) : Prop := List.Forall₂ (fun f l => Regular f ∧ Lines f l) files lines

/-- The database has this table under the name. -/
def Has (db : List (String × Cli.Tab V)) (name : String) (t : Cli.Tab V) : Prop := (name, t) ∈ db ∧ ∀ t', (name, t') ∈ db → t' = t

end Sorcha.Sqlite.Spec
