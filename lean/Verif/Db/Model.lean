import Verif.Readers.Model

/-!
# Model of the reader of object data in a database

readers/DatabaseReader.py:19-113, with the caching and the checks of readers/ObjectDataReader.py:29-199. SQLite and pandas are parameters (`Engine`) as far
as what they do is left open by their documentation, and modelled as far as it is laid down: the affinity of columns, the order of values, `LIMIT` and the texts
that pandas makes of a column. IDs that are stored as fractions or blobs are not modelled, nor is a change of the database between calls.
-/

namespace Sorcha.Db
open Sorcha.Readers

/-- A stored ID. Fractions and blobs are not modelled. -/
inductive Val
  | null
  | int (z : ℤ)
  | text (s : String)
deriving DecidableEq, Repr

/-- A row of the table `interm`. -/
structure Row (C : Type) where
  id : Val
  cells : List C
deriving DecidableEq, Repr

/-- The affinity of the column `ObjID`, as sqlite derives it from the declared type. -/
inductive Affinity
  | text
  | numeric
  | none
deriving DecidableEq, Repr

/-- The table `interm` of the database: the names of its columns, the affinity of the ID column, its rows. -/
structure Table (C : Type) where
  cols : List String
  aff : Affinity
  rows : List (Row C)

/-- How sqlite takes a text as a number. -/
inductive NumText
  | no
  | whole (z : ℤ)
  | other
deriving DecidableEq, Repr

/-- What is left open about sqlite and pandas: which texts are numbers, how many parameters a query may have, the order in which the `k`-th query lists rows when
they are to be ordered by ID (`listing`; the order of rows with one ID is unspecified) and when they are not (`scan`), and how pandas prints a fraction. -/
structure Engine (C : Type) where
  readsAs : String → NumText
  maxVars : ℕ
  listing : ℕ → List (Row C) → List (Row C)
  scan : ℕ → List (Row C) → List (Row C)
  printFloat : ℤ → String

/-- The ways a call ends without a table. -/
inductive Err
  | exit         -- `sys.exit`: DatabaseReader.py:81, ObjectDataReader.py:151
  | sql          -- uncaught error of sqlite: no such table or column, too many parameters
  | attribute    -- uncaught `AttributeError`: the messages of ObjectDataReader.py:183-184, 195 use `self.filename`, which this reader does not have
deriving DecidableEq, Repr

variable {C : Type}

/-- Names of columns are compared without regard to case by sqlite. -/
def lower (s : String) : List Char := s.toList.map Char.toLower

/-- The table a query on the database uses, DatabaseReader.py:83-88, 106-110. -/
def lookup (db : Option (Table C)) : Except Err (Table C) :=
  match db with
  | none => .error .sql
  | some t => if t.cols.any fun c => lower c = lower "ObjID" then .ok t else .error .sql

/-- `_read_rows_internal`, DatabaseReader.py:78-89. A negative `LIMIT` is none. -/
def readRowsInternal (E : Engine C) (db : Option (Table C)) (k start : ℕ) (size : Option ℤ) : Except Err (List (Row C)) :=
  if start > 0 && size.isNone then .error .exit
  else
    match lookup db with
    | .error e => .error e
    | .ok t =>
      match size with
      | none => .ok (E.listing k t.rows)
      | some n => if n < 0 then .ok ((E.listing k t.rows).drop start) else .ok (((E.listing k t.rows).drop start).take n.toNat)

/-- Sqlite's comparison of a stored ID with a text given as parameter: with a numeric column a text that is a number is taken as one, DatabaseReader.py:107-110. -/
def sameAs (E : Engine C) (aff : Affinity) (v : Val) (p : String) : Bool :=
  match aff with
  | .text => v = .text p
  | .none => v = .text p
  | .numeric =>
    match E.readsAs p with
    | .no => v = .text p
    | .whole z => v = .int z
    | .other => false

/-- `_read_objects_internal`, DatabaseReader.py:106-111. -/
def readObjectsInternal (E : Engine C) (db : Option (Table C)) (k : ℕ) (ids : List String) : Except Err (List (Row C)) :=
  match lookup db with
  | .error e => .error e
  | .ok t => if E.maxVars < ids.length then .error .sql else .ok ((E.scan k t.rows).filter fun r => ids.any fun p => sameAs E t.aff r.id p)

def Val.isNull : Val → Bool
  | .null => true
  | _ => false

def Val.isInt : Val → Bool
  | .int _ => true
  | _ => false

/-- The texts of a column of IDs, `astype(str)`, ObjectDataReader.py:146: whole numbers with missing ones among them are fractions to pandas. -/
def printIds (E : Engine C) (vs : List Val) : List String :=
  if vs.all (fun v => v.isNull || v.isInt) && vs.any Val.isNull && vs.any Val.isInt then
    vs.map fun v => match v with
      | .null => "nan"
      | .int z => E.printFloat z
      | .text s => s
  else
    vs.map fun v => match v with
      | .null => "None"
      | .int z => toString z
      | .text s => s

/-- The data frame made of the rows that were read, with the IDs as texts. -/
def frame (E : Engine C) (rows : List (Row C)) : List (Rec C) :=
  List.zipWith Rec.mk (printIds E (rows.map (·.id))) (rows.map (·.cells))

/-- `_process_and_validate_input_table`, ObjectDataReader.py:180-199, 145-151: what it refuses. The IDs are texts by then, so they are never missing. -/
def validate (missing : C → Bool) (cols : List String) (disallow : Bool) (fr : List (Rec C)) : Except Err Unit :=
  if cols.length ≤ 1 then .error .attribute
  else if !cols.contains "ObjID" then .error .exit
  else if disallow && fr.any (fun r => r.cells.any missing) then .error .attribute
  else .ok ()

/-- A call on the reader, with the value of the argument `disallow_nan`. -/
inductive Call
  | rows (start : ℕ) (size : Option ℤ) (disallow : Bool)
  | objects (ids : List String) (disallow : Bool)

/-- A reader: whether it caches, the cached table, and the number of queries made so far. ObjectDataReader.py:36-37. -/
structure Reader (C : Type) where
  cache : Bool
  table : Option (List (Rec C))
  queries : ℕ

/-- A new reader. -/
def Reader.fresh (cache : Bool) : Reader C := ⟨cache, none, 0⟩

/-- The columns of the table, for the checks. -/
def colsOf (db : Option (Table C)) : List String := (db.map (·.cols)).getD []

/-- Fill the cache if needed, ObjectDataReader.py:79-81, 119-121. The table is stored before it is checked and stays stored when the check refuses it
(with its IDs as texts; those of a table of one column would still be numbers). -/
def Reader.load (E : Engine C) (missing : C → Bool) (db : Option (Table C)) (r : Reader C) (disallow : Bool) :
    Except Err (List (Rec C)) × Reader C :=
  match r.table with
  | some t => (.ok t, r)
  | none =>
    match readRowsInternal E db r.queries 0 none with
    | .error e => (.error e, { r with queries := r.queries + 1 })
    | .ok rows =>
      let fr := frame E rows
      match validate missing (colsOf db) disallow fr with
      | .error e => (.error e, { r with table := some fr, queries := r.queries + 1 })
      | .ok _ => (.ok fr, { r with table := some fr, queries := r.queries + 1 })

/-- `iloc[start:stop]`; a negative `stop` counts from the end. -/
def slice {α : Type} (l : List α) (start : ℕ) (stop : ℤ) : List α :=
  (l.take (if stop < 0 then l.length + stop else stop).toNat).drop start

/-- The rows read by a reader that does not cache, checked, ObjectDataReader.py:91-93, 125-127. -/
def Reader.checked (E : Engine C) (missing : C → Bool) (db : Option (Table C)) (r : Reader C) (disallow : Bool) (got : Except Err (List (Row C))) :
    Except Err (List (Rec C)) × Reader C :=
  let r' := { r with queries := r.queries + 1 }
  match got with
  | .error e => (.error e, r')
  | .ok rows =>
    match validate missing (colsOf db) disallow (frame E rows) with
    | .error e => (.error e, r')
    | .ok _ => (.ok (frame E rows), r')

/-- `read_rows` and `read_objects`, ObjectDataReader.py:77-93, 117-127. -/
def Reader.call (E : Engine C) (missing : C → Bool) (db : Option (Table C)) (r : Reader C) : Call → Except Err (List (Rec C)) × Reader C
  | .rows start size disallow =>
    if r.cache then
      match r.load E missing db disallow with
      | (.error e, r') => (.error e, r')
      | (.ok t, r') =>
        match size with
        | none => (.ok (slice t start t.length), r')
        | some n => (.ok (slice t start (start + n)), r')
    else r.checked E missing db disallow (readRowsInternal E db r.queries start size)
  | .objects ids disallow =>
    if r.cache then
      match r.load E missing db disallow with
      | (.error e, r') => (.error e, r')
      | (.ok t, r') => (.ok (t.filter fun x => ids.contains x.id), r')
    else r.checked E missing db disallow (readObjectsInternal E db r.queries ids)

/-- The answers to a list of calls, one after another on one reader; the exception of a call may be caught. -/
def Reader.calls (E : Engine C) (missing : C → Bool) (db : Option (Table C)) : Reader C → List Call → List (Except Err (List (Rec C)))
  | _, [] => []
  | r, c :: cs => (r.call E missing db c).1 :: Reader.calls E missing db (r.call E missing db c).2 cs

end Sorcha.Db
