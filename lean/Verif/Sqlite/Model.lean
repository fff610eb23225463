import Verif.Cli.Model

/-!
# Model of the combined database of `sorcha outputs create-sqlite`

utilities/createResultsSQLDatabase.py:89-158: the tables made from the input files, and the whole database. pandas and sqlite are modelled as far as
they are used: the table is read with the separator `\s+`, written with its index, under a table name in lower case. Quotation marks in the files and
the text encoding are not modelled.
-/

namespace Sorcha.Sqlite

/-- The ways the command stops. -/
inductive Err
  | results (e : Cli.Err)
  | noFiles (table : String)      -- `sys.exit`, createResultsSQLDatabase.py:109-110
  | empty                         -- uncaught `EmptyDataError` of pandas
  | shape                         -- names that occur twice, or rows longer than the header: not modelled
  | column                        -- uncaught error of sqlite: a column twice, or one the table does not have
deriving DecidableEq, Repr

abbrev Line := List Char

/-- The separator `\s+` within a line. -/
def blank (c : Char) : Bool := c = ' ' || c = '\t'

/-- The pieces of a line. -/
def words (l : Line) : List Line := (l.splitOnP blank).filter (· ≠ [])

/-- What the table is made with: how pandas converts a column (`none`: a value that is missing at the end of a row), a number of a row as a value,
`NULL`, and the comparison of column names in sqlite. -/
structure Lib (V : Type) where
  conv : List (Option Line) → List V
  num : ℕ → V
  null : V
  fold : String → String

variable {V : Type}

/-- A data frame: its columns by name, and the number of rows. -/
structure Frame (V : Type) where
  cols : List (String × List V)
  n : ℕ

/-- `pd.read_csv(filename, sep="\\s+")`, createResultsSQLDatabase.py:116. -/
def read (L : Lib V) (lines : List Line) : Except Err (Frame V) :=
  match (lines.map words).filter (· ≠ []) with
  | [] => .error .empty
  | h :: rows =>
    if h.Nodup ∧ rows.all (fun r => r.length ≤ h.length) then
      .ok ⟨h.zipIdx.map fun w => (String.ofList w.1, L.conv (rows.map fun r => r[w.2]?)), rows.length⟩
    else .error .shape

/-- `df.rename(columns={"INDEX": "orig_index"})`, createResultsSQLDatabase.py:118-119. -/
def rename (f : Frame V) : Frame V := { f with cols := f.cols.map fun c => (if c.1 = "INDEX" then "orig_index" else c.1, c.2) }

/-- `df.to_sql` writes the index first, under the name `index`, or `level_0` if there is a column of that name. -/
def withIndex (L : Lib V) (f : Frame V) : Frame V :=
  { f with cols := (if f.cols.any (·.1 = "index") then "level_0" else "index", (List.range f.n).map L.num) :: f.cols }

/-- The value of row `i` for a column of the table: sqlite finds the column by its name in any case. -/
def cell (L : Lib V) (f : Frame V) (i : ℕ) (c : String) : V :=
  match f.cols.find? fun d => L.fold d.1 = L.fold c with
  | none => L.null
  | some d => d.2[i]?.getD L.null

/-- `df.to_sql(table_type, cnx_out, if_exists="append")`, createResultsSQLDatabase.py:121: the table is created with the columns of the first frame. -/
def toSql (L : Lib V) (t : Option (Cli.Tab V)) (f : Frame V) : Except Err (Cli.Tab V) :=
  if (f.cols.map fun c => L.fold c.1).Nodup then
    match t with
    | none => .ok ⟨f.cols.map (·.1), (List.range f.n).map fun i => (f.cols.map (·.1)).map (cell L f i)⟩
    | some t =>
      if f.cols.all fun c => (t.columns.map L.fold).contains (L.fold c.1) then
        .ok ⟨t.columns, t.rows ++ (List.range f.n).map fun i => t.columns.map (cell L f i)⟩
      else .error .column
  else .error .column

/-- The loop over the files, createResultsSQLDatabase.py:115-121. -/
def insertFiles (L : Lib V) : Option (Cli.Tab V) → List (List Line) → Except Err (Option (Cli.Tab V))
  | t, [] => .ok t
  | t, f :: fs => do
    let d ← read L f
    let t ← toSql L t (withIndex L (rename d))
    insertFiles L (some t) fs

/-- A database: its tables. -/
abbrev Db (V : Type) := List (String × Cli.Tab V)

/-- Drop a table and put another in its place. -/
def put (db : Db V) (name : String) (t : Cli.Tab V) : Db V := db.filter (·.1 ≠ name) ++ [(name, t)]

/-- `create_inputs_table`, createResultsSQLDatabase.py:89-123: `files` are the contents of the files whose name begins with the name of the table. -/
def createInputs (L : Lib V) (db : Db V) (name : String) (files : List (List Line)) : Except Err (Db V) :=
  if files = [] then .error (.noFiles name)
  else do
    let t ← insertFiles L none files
    match t with
    | none => .ok db
    | some t => .ok (put db name t)

/-- `create_results_database`, createResultsSQLDatabase.py:126-155: results, parameters, orbits and, if asked for, complex parameters. `db` is the
content of the new database before the call. -/
def createDatabase (L : Lib V) (content : String → Option (Cli.Tab V)) (found : List String) (inputs out : String) (db : Db V)
    (params orbits : List (List Line)) (complex : Option (List (List Line))) : Except Err (Db V) := do
  let r ← (Cli.createResults content found inputs out).mapError .results
  let db ← createInputs L (put db "sorcha_results" r) "params" params
  let db ← createInputs L db "orbits" orbits
  match complex with
  | none => .ok db
  | some files => createInputs L db "complex" files

end Sorcha.Sqlite
