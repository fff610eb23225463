import Verif.Driver.Model
import Verif.Pipeline.Model

/-!
# Model of ephemerides kept in an HDF5 file

`eph_format = hdf5`: the file a run appends its ephemerides to, and a run that takes its ephemerides from such a file.

An HDF5 table is the list of its rows, each with the index label stored with it; labels need not be distinct. What pandas does
when asked for the rows with labels in an empty list is not known to us: `emptyOk` says whether it answers with no rows or raises.
-/

namespace Sorcha.H5
open Sorcha.Readers

variable {C : Type}

/-- `HDF5DataReader._read_objects_internal`, HDF5Reader.py:95-99 (`Readers.h5ReadObjects`): the rows whose label is the label of a row of one of the objects;
with no such label the query is over an empty list. -/
def readObjects (emptyOk : Bool) (t : List (ℕ × Rec C)) (ids : List String) : Except Readers.Err (List (Rec C)) :=
  if (t.any fun x => ids.contains x.2.id) || emptyOk then .ok (h5ReadObjects t ids) else .error .emptyData

/-- `CombinedDataReader.read_block`, CombinedDataReader.py:136-197, with an ephemeris reader for HDF5 (`EphemerisDataReader`, EphemerisReader.py:40-41, sorcha.py:155)
and text readers for the other files. -/
def readBlock (emptyOk : Bool) (P : IdParse) (missing : List C) (t : List (ℕ × Rec C)) (orbit : Reader C) (aux : List (Reader C)) (blockStart : ℕ)
    (size : ℤ) : Except Readers.Err (Option (List (Rec C)) × ℕ) :=
  match orbit.readRows P blockStart (some size) with
  | .error e => .error e
  | .ok (primary, _) =>
    let blockStart' := blockStart + primary.length
    let ids := (primary.map (·.id)).dedup
    if ids.length = 0 then .ok (none, blockStart')
    else
      match readObjects emptyOk t ids with
      | .error e => .error e
      | .ok eph =>
        let ephemIds := (eph.map (·.id)).dedup
        if ephemIds.all (fun i => (primary.map (·.id)).contains i) then
          match joinAll P missing ephemIds ids (join missing eph primary) aux with
          | .error e => .error e
          | .ok t => .ok (some t, blockStart')
        else .error .missingId

/-- Reading part of `runLSSTSimulation` with an external ephemeris, sorcha.py:154-172, 184-191. -/
def blocks (emptyOk : Bool) (P : IdParse) (missing : List C) (t : List (ℕ × Rec C)) (orbit : List (Line C)) (aux : List (List (Line C))) (size : ℤ)
    (fuel : ℕ) : Option (Except Readers.Err (List (List (Rec C)))) :=
  match checkAuxObjectIds P (orbit :: aux) with
  | .error e => some (.error e)
  | .ok () =>
    match buildIdMap P orbit with
    | .error e => some (.error e)
    | .ok table =>
      chunkLoop (readBlock emptyOk P missing t ⟨orbit, false, none⟩ (aux.map fun f => ⟨f, false, none⟩)) table.length size fuel 0 0 0

/-- A run with external ephemerides in HDF5: the blocks of the readers through the rounds. -/
def run {G W V : Type} (emptyOk : Bool) (E : Pipeline.Env G W V) (c : Config.Cfg) (s : Pipeline.State G) (parse : List C → ℕ × ℚ × W) (P : IdParse) (missing : List C)
    (t : List (ℕ × Rec C)) (fo : List (Line C)) (fs : List (List (Line C))) (fuel : ℕ) : Option (Except Pipeline.Err (List (List (Pipeline.Final W V)))) :=
  match blocks emptyOk P missing t fo fs c.input.chunk fuel with
  | none => none
  | some (.error _) => some (.error .reader)
  | some (.ok bs) => some (Pipeline.rounds E c s (bs.map fun b => b.map (Pipeline.toObs parse)))

/-- The table in the file: the width of the column of IDs and the rows. -/
structure Store (C : Type) where
  width : ℕ
  rows : List (ℕ × Rec C)

/-- The only way the append fails here: an ID that does not fit. -/
inductive WriteErr
  | tooLong
deriving DecidableEq, Repr

/-- `PPOutWriteHDF5` (PPOutput.py:41-74) as called by `write_out_ephemeris_file` (simulation_driver.py:369-371) on a frame with the default index: `HDFStore.append`
of an empty frame does nothing; the first frame fixes the width in bytes of the column of IDs (the only text column); the labels of each frame are `0, 1, …`. -/
def append (store : Option (Store C)) (rows : List (Rec C)) : Except WriteErr (Option (Store C)) :=
  if rows.length = 0 then .ok store
  else match store with
  | none => .ok (some ⟨(rows.map fun r => r.id.utf8ByteSize).foldl max 0, rows.zipIdx.map Prod.swap⟩)
  | some s => if rows.all fun r => decide (r.id.utf8ByteSize ≤ s.width) then .ok (some { s with rows := s.rows ++ rows.zipIdx.map Prod.swap }) else .error .tooLong

/-- The appends of a run, in order. -/
def appends (store : Option (Store C)) : List (List (Rec C)) → Except WriteErr (Option (Store C))
  | [] => .ok store
  | rows :: more =>
    match append store rows with
    | .error e => .error e
    | .ok store => appends store more

/-- The table after a run that generates its ephemerides, if there was no file before: the table of each block that has objects (sorcha.py:213-223,
simulation_driver.py:228-230). -/
def ephemerisStore {K U R S V G : Type} [Field K] [LinearOrder K] [FloorRing K] (E : Driver.Env K U R S V G) (start : Rec C → S) (idle : S) (P : IdParse)
    (render : Pointing.Obs G → List C) (v : Pointing.Visit V) (vs : List (Pointing.Visit V)) (blocks : List (List (Rec C))) : Except WriteErr (Option (Store C)) :=
  appends none ((blocks.filter fun b => b.length ≠ 0).map fun b => (Driver.readBack P (Driver.ephemeris E start idle v vs b)).map fun o => ⟨o.obj, render o⟩)

end Sorcha.H5
