import Mathlib.Data.List.Basic
import Mathlib.Data.List.Dedup
import Mathlib.Algebra.Order.Ring.Int
import Mathlib.Data.Int.Notation

/-!
# Model of the input readers and of the chunk loop

`CSVDataReader`, `HDF5DataReader`, the caching base class `ObjectDataReader`, `CombinedDataReader`, and the reading part of
the chunk loop of `runLSSTSimulation`.

Simplifications: only the `ObjID` column is interpreted, all other columns are opaque `cells`; malformed rows do not occur;
the three delimiters are not distinguished; `pandas` is represented by the three `read_csv` variants below.
-/

namespace Sorcha.Readers

/-- The ways a read fails. -/
inductive Err
  | noHeader        -- CSVReader.py:93-98
  | emptyData       -- pandas EmptyDataError / missing column
  | badNrows        -- pandas rejects a negative `nrows`
  | blankLine       -- CSVReader.py:274-280 (IndexError, then `_validate_csv` exits)
  | mismatchedIds   -- CombinedDataReader.py:84-109
  | tooFewReaders   -- CombinedDataReader.py:74-76
  | missingId       -- CombinedDataReader.py:189-192, 258-261
  | noneType        -- `len(None.index)` in sorcha.py when a block has no object
deriving DecidableEq, Repr

/-- One data row: the text in the ObjID column and the other columns. -/
structure Rec (C : Type) where
  id : String
  cells : List C
deriving DecidableEq, Repr

/-- A physical line of the file. -/
inductive Line (C : Type)
  | blank
  | text            -- non-blank line before the header
  | header          -- line starting with "ObjID"
  | data (r : Rec C)
deriving DecidableEq, Repr

variable {C : Type}

def Line.isBlank : Line C → Bool
  | .blank => true
  | _ => false

def Line.isHeader : Line C → Bool
  | .header => true
  | _ => false

def Line.rec? : Line C → Option (Rec C)
  | .data r => some r
  | _ => none

/-- How pandas reads a text of the ObjID column: whether it stands for a missing value, and how it is printed again if the column is read as whole numbers, as
numbers or as truth values. (`C82` has the rules.) -/
structure IdParse where
  missing : String → Bool
  int? : String → Option String
  float? : String → Option String
  bool? : String → Option String

/-- A cell of a column that is read as one kind of value, after `astype(str)`. -/
def IdParse.cell (P : IdParse) (kind : String → Option String) (s : String) : String :=
  if P.missing s then "nan" else (kind s).getD s

/-- Column type inference followed by `astype(str)`, ObjectDataReader.py:149-150: the first kind that *every* value of the column read together has, missing values
aside: whole numbers (which become fractions if a value is missing), numbers, truth values; else they are texts. The column is taken in one piece (pandas takes
long files in pieces of some 100 kB). -/
def inferIds (P : IdParse) (ids : List String) : List String :=
  let vs := ids.filter fun s => !P.missing s
  if vs.all fun s => (P.int? s).isSome then
    if ids.any P.missing then ids.map (P.cell P.float?) else ids.map (P.cell P.int?)
  else if vs.all fun s => (P.float? s).isSome then ids.map (P.cell P.float?)
  else if vs.all fun s => (P.bool? s).isSome then ids.map (P.cell P.bool?)
  else ids.map (P.cell fun _ => none)

/-- Type inference on a table. -/
def inferTable (P : IdParse) (t : List (Rec C)) : List (Rec C) :=
  (t.zip (inferIds P (t.map (·.id)))).map fun x => { x.1 with id := x.2 }

/-- `_find_and_validate_header_line` (automatic search), CSVReader.py:80-99: lines 0 to 101 are examined. -/
def findHeader (f : List (Line C)) : Option ℕ :=
  (f.take 102).findIdx? Line.isHeader

/-- The lines pandas looks at: not skipped (by physical line number), not blank. -/
def keptLines (skip : ℕ → Bool) (f : List (Line C)) : List (Line C) :=
  ((f.zipIdx.filter fun x => !skip x.2).map (·.1)).filter fun l => !l.isBlank

/-- `nrows`: at most that many rows. -/
def limitRows (nrows : Option ℕ) (rows : List (Rec C)) : List (Rec C) :=
  match nrows with
  | none => rows
  | some n => rows.take n

/-- `pd.read_csv(skiprows=..., nrows=...)`: drop the lines with skipped (physical) numbers, drop blank lines, the first
line is the header, then at most `nrows` rows. -/
def readCsv (skip : ℕ → Bool) (nrows : Option ℕ) (f : List (Line C)) : Except Err (List (Rec C)) :=
  match keptLines skip f with
  | [] => .error .emptyData
  | _ :: rest => .ok (limitRows nrows (rest.filterMap Line.rec?))

/-- `pd.read_csv(usecols=["ObjID"], header=h)`: blank lines are dropped *before* counting to the header line. -/
def readCsvHeader (h : ℕ) (f : List (Line C)) : Except Err (List (Rec C)) :=
  match (f.filter fun l => !l.isBlank).drop h with
  | .header :: rest => .ok (rest.filterMap Line.rec?)
  | _ => .error .emptyData

/-- `CSVDataReader._read_rows_internal`, CSVReader.py:190-213; `size` is `nrows` (`None` = all). A negative number of rows
makes pandas raise. -/
def readRowsInternal (f : List (Line C)) (start : ℕ) (size : Option ℤ) : Except Err (List (Rec C)) :=
  match findHeader f with
  | none => .error .noHeader
  | some h =>
    let skip := fun i => decide (i < h) || (decide (h + 1 ≤ i) && decide (i < h + 1 + start))
    match size with
    | none => readCsv skip none f
    | some n => if n < 0 then .error .badNrows else readCsv skip (some n.toNat) f

/-- `CSVDataReader._build_id_map`, CSVReader.py:215-235. -/
def buildIdMap (P : IdParse) (f : List (Line C)) : Except Err (List String) :=
  match findHeader f with
  | none => .error .noHeader
  | some h => (readCsvHeader h f).map fun rows => inferIds P (rows.map (·.id))

/-- `CSVDataReader._read_objects_internal`, CSVReader.py:253-281: the skip function indexes a list with one entry per
pre-header line, header, and data row; an index beyond it (more physical lines than that) raises. -/
def readObjectsInternal (P : IdParse) (f : List (Line C)) (ids : List String) : Except Err (List (Rec C)) :=
  match findHeader f, buildIdMap P f with
  | some h, .ok table =>
    let skipped := List.replicate h true ++ [false] ++ table.map (fun s => !ids.contains s)
    if skipped.length < f.length then .error .blankLine
    else readCsv (fun i => skipped.getD i true) none f
  | _, .error e => .error e
  | none, _ => .error .noHeader

/-- A reader object: the file, whether it caches, and the cached table.  ObjectDataReader.py:29-42. -/
structure Reader (C : Type) where
  file : List (Line C)
  cache : Bool
  table : Option (List (Rec C))

/-- Fill the cache if needed, ObjectDataReader.py:79-81, 119-121. -/
def Reader.load (P : IdParse) (r : Reader C) : Except Err (List (Rec C) × Reader C) :=
  match r.table with
  | some t => .ok (t, r)
  | none => (readRowsInternal r.file 0 none).map fun t =>
      let t := inferTable P t
      (t, { r with table := some t })

/-- `read_rows`, ObjectDataReader.py:77-93. -/
def Reader.readRows (P : IdParse) (r : Reader C) (start : ℕ) (size : Option ℤ) :
    Except Err (List (Rec C) × Reader C) :=
  if r.cache then
    (r.load P).map fun (t, r') =>
      match size with
      | none => (t.drop start, r')
      | some n => ((t.take (start + n).toNat).drop start, r')
  else (readRowsInternal r.file start size).map fun t => (inferTable P t, r)

/-- `read_objects`, ObjectDataReader.py:117-127. -/
def Reader.readObjects (P : IdParse) (r : Reader C) (ids : List String) : Except Err (List (Rec C) × Reader C) :=
  if r.cache then
    (r.load P).map fun (t, r') => (t.filter fun x => ids.contains x.id, r')
  else (readObjectsInternal P r.file ids).map fun t => (inferTable P t, r)

/-- A call on a reader. -/
inductive Call
  | rows (start : ℕ) (size : Option ℤ)
  | objects (ids : List String)

/-- One call. -/
def Reader.call (P : IdParse) (r : Reader C) : Call → Except Err (List (Rec C) × Reader C)
  | .rows s n => r.readRows P s n
  | .objects ids => r.readObjects P ids

/-- Execute a list of calls, collecting the results; a failing call leaves the reader as it was. -/
def Reader.calls (P : IdParse) (r : Reader C) : List Call → List (Except Err (List (Rec C)))
  | [] => []
  | c :: cs =>
    match r.call P c with
    | .ok (t, r') => .ok t :: Reader.calls P r' cs
    | .error e => .error e :: Reader.calls P r cs

/-! ## HDF5 -/

/-- `HDF5DataReader._read_rows_internal`, HDF5Reader.py:59-70 (`start`, `stop` select by position). -/
def h5ReadRows (t : List (ℕ × Rec C)) (start : ℕ) (size : Option ℕ) : List (Rec C) :=
  match size with
  | none => (t.drop start).map (·.2)
  | some n => ((t.take (start + n)).drop start).map (·.2)

/-- `HDF5DataReader._read_objects_internal`, HDF5Reader.py:95-99: select by index *label* those of the matching rows. -/
def h5ReadObjects (t : List (ℕ × Rec C)) (ids : List String) : List (Rec C) :=
  let matchInds := (t.filter fun x => ids.contains x.2.id).map (·.1)
  (t.filter fun x => matchInds.contains x.1).map (·.2)

/-! ## Combined reader -/

/-- `check_aux_object_ids`, CombinedDataReader.py:66-109.  `tables` are the ID tables of the auxiliary readers in order. -/
def checkIdTables : List (List String) → Except Err Unit
  | [] => .error .tooFewReaders
  | [_] => .error .tooFewReaders
  | primary :: others =>
    if others.all (fun t => decide (primary.length = t.length) && decide (∀ s ∈ primary ++ t, primary.count s = t.count s)) then
      .ok ()
    else .error .mismatchedIds

/-- `check_aux_object_ids` on files. -/
def checkAuxObjectIds (P : IdParse) (files : List (List (Line C))) : Except Err Unit := do
  let tables ← files.mapM (buildIdMap P)
  checkIdTables tables

/-- `left.join(right.set_index("ObjID"), on="ObjID")`: left join in left order; every match contributes a row; a left row
without match gets missing values.  Clashing column names are not modelled. -/
def join (missing : List C) (left right : List (Rec C)) : List (Rec C) :=
  left.flatMap fun l =>
    match right.filter (fun r => r.id == l.id) with
    | [] => [{ l with cells := l.cells ++ missing }]
    | ms => ms.map fun r => { l with cells := l.cells ++ r.cells }

/-- The loop over the auxiliary readers in `read_block`, CombinedDataReader.py:178-195, after the first reader: the
ephemeris IDs must all be present. -/
def joinAll (P : IdParse) (missing : List C) (ephemIds ids : List String) :
    List (Rec C) → List (Reader C) → Except Err (List (Rec C))
  | acc, [] => .ok acc
  | acc, r :: rs =>
    match r.readObjects P ids with
    | .error e => .error e
    | .ok (t, _) =>
      if ephemIds.all (fun i => (t.map (·.id)).contains i) then joinAll P missing ephemIds ids (join missing acc t) rs
      else .error .missingId

/-- `CombinedDataReader.read_block` with `ephem_primary=False`, CombinedDataReader.py:136-197.
Returns the table (`none` when there is no more data) and the new `block_start`. -/
def readBlock (P : IdParse) (missing : List C) (ephem orbit : Reader C) (aux : List (Reader C)) (blockStart : ℕ)
    (size : ℤ) : Except Err (Option (List (Rec C)) × ℕ) :=
  match orbit.readRows P blockStart (some size) with
  | .error e => .error e
  | .ok (primary, _) =>
    let blockStart' := blockStart + primary.length
    let ids := (primary.map (·.id)).dedup
    if ids.length = 0 then .ok (none, blockStart')
    else
      match ephem.readObjects P ids with
      | .error e => .error e
      | .ok (eph, _) =>
        let ephemIds := (eph.map (·.id)).dedup
        if ephemIds.all (fun i => (primary.map (·.id)).contains i) then
          match joinAll P missing ephemIds ids (join missing eph primary) aux with
          | .error e => .error e
          | .ok t => .ok (some t, blockStart')
        else .error .missingId

/-- The loop over the auxiliary readers in `read_aux_block`, CombinedDataReader.py:248-268, after the first reader. Here the
check is that the IDs read are among the requested ones. -/
def joinAllAux (P : IdParse) (missing : List C) (ids : List String) :
    List (Rec C) → List (Reader C) → Except Err (List (Rec C))
  | acc, [] => .ok acc
  | acc, r :: rs =>
    match r.readObjects P ids with
    | .error e => .error e
    | .ok (t, _) =>
      if t.all (fun x => ids.contains x.id) then joinAllAux P missing ids (join missing acc t) rs
      else .error .missingId

/-- `CombinedDataReader.read_aux_block`, CombinedDataReader.py:224-270. -/
def readAuxBlock (P : IdParse) (missing : List C) (orbit : Reader C) (aux : List (Reader C)) (blockStart : ℕ)
    (size : ℤ) : Except Err (Option (List (Rec C)) × ℕ) :=
  match orbit.readRows P blockStart (some size) with
  | .error e => .error e
  | .ok (primary, _) =>
    let blockStart' := blockStart + primary.length
    let ids := (primary.map (·.id)).dedup
    if ids.length = 0 then .ok (none, blockStart')
    else
      match joinAllAux P missing ids primary aux with
      | .error e => .error e
      | .ok t => .ok (some t, blockStart')

/-! ## The chunk loop -/

/-- The `while endChunk < lenf` loop of `runLSSTSimulation`, sorcha.py:184-394, keeping the table each round works on.
`read blockStart size` is `read_block` / `read_aux_block`; a round that gets `None` raises (`len(None.index)`).  All
`continue` branches of the loop perform the same update of `startChunk`, so they need no separate treatment.  The first
argument bounds the number of rounds executed; `none` means the bound was reached. -/
def chunkLoop (read : ℕ → ℤ → Except Err (Option (List (Rec C)) × ℕ)) (lenf : ℕ) (size : ℤ) :
    ℕ → ℤ → ℤ → ℕ → Option (Except Err (List (List (Rec C))))
  | fuel, startChunk, endChunk, blockStart =>
    if endChunk < lenf then
      match fuel with
      | 0 => none
      | fuel + 1 =>
        let endChunk' := startChunk + size
        match read blockStart size with
        | .error e => some (.error e)
        | .ok (none, _) => some (.error .noneType)
        | .ok (some t, blockStart') =>
          (chunkLoop read lenf size fuel (startChunk + size) endChunk' blockStart').map fun r =>
            r.map fun ts => t :: ts
    else some (.ok [])

/-- Reading part of `runLSSTSimulation` with an external ephemeris, sorcha.py:154-172, 184-191: ID check, number of
objects (`lenf` is the length of the first ID table), then the loop. -/
def runExternal (P : IdParse) (missing : List C) (ephem orbit : List (Line C)) (aux : List (List (Line C))) (size : ℤ)
    (fuel : ℕ) : Option (Except Err (List (List (Rec C)))) :=
  match checkAuxObjectIds P (orbit :: aux) with
  | .error e => some (.error e)
  | .ok () =>
    match buildIdMap P orbit with
    | .error e => some (.error e)
    | .ok table =>
      chunkLoop (readBlock P missing ⟨ephem, false, none⟩ ⟨orbit, false, none⟩ (aux.map fun f => ⟨f, false, none⟩))
        table.length size fuel 0 0 0

/-- The same with generated ephemerides (`read_aux_block`), sorcha.py:192-194. -/
def runAux (P : IdParse) (missing : List C) (orbit : List (Line C)) (aux : List (List (Line C))) (size : ℤ)
    (fuel : ℕ) : Option (Except Err (List (List (Rec C)))) :=
  match checkAuxObjectIds P (orbit :: aux) with
  | .error e => some (.error e)
  | .ok () =>
    match buildIdMap P orbit with
    | .error e => some (.error e)
    | .ok table =>
      chunkLoop (readAuxBlock P missing ⟨orbit, false, none⟩ (aux.map fun f => ⟨f, false, none⟩))
        table.length size fuel 0 0 0

end Sorcha.Readers
