import Verif.Base.Fl
import Mathlib.Data.Rat.Floor
import Mathlib.Data.List.Sort
import Mathlib.Data.List.Dedup
import Mathlib.Data.String.Basic

/-!
# Model of the output writer and the statistics table

A data frame is its list of column names and its rows; a row gives the value of every column.
-/

namespace Sorcha.Output

/-- A cell: number, text, flag or missing. -/
inductive Cell
  | num (x : Fl)
  | text (s : String)
  | flag (b : Bool)
  | null
deriving DecidableEq, Repr

abbrev Row := String → Cell

structure Frame where
  cols : List String
  rows : List Row

/-- The cells written for a row. -/
def Frame.cells (f : Frame) : List (List Cell) := f.rows.map fun r => f.cols.map r

/-- The ways writing fails. -/
inductive Err
  | keyError          -- missing column, uncaught (`basic`)
  | badColumns        -- PPOutput.py:200-206, exits with a message
  | unbound           -- none of the branches at PPOutput.py:170-206 taken
  | noSuchColumn      -- sqlite: the table has no such column
  | columnMismatch    -- HDF5: `append` with other columns
  | stringTooLong     -- HDF5: text longer than the longest of the first chunk
deriving DecidableEq, Repr

/-- Columns requested in the configuration, sorchaConfigs.py:741-748. -/
inductive Columns
  | basic
  | all
  | list (cs : List String)

/-- `observations[c] = g(...)`: overwrite, or add at the end. -/
def Frame.setCol (f : Frame) (c : String) (g : Row → Cell) : Frame :=
  { cols := if c ∈ f.cols then f.cols else f.cols ++ [c]
    rows := f.rows.map fun r => fun c' => if c' = c then g r else r c' }

/-- The columns of `basic`, PPOutput.py:170-189. -/
def basicColumns : List String :=
  ["ObjID", "fieldMJD_TAI", "fieldRA_deg", "fieldDec_deg", "RA_deg", "Dec_deg", "astrometricSigma_deg", "optFilter",
   "trailedSourceMag", "trailedSourceMagSigma", "fiveSigmaDepth_mag", "phase_deg", "Range_LTC_km", "RangeRate_LTC_km_s",
   "Obj_Sun_LTC_km"]

/-- PPOutput.py:209-217. -/
def positionColumns : List String :=
  ["fieldRA_deg", "fieldDec_deg", "RA_deg", "Dec_deg", "astrometricSigma_deg", "RATrue_deg", "DecTrue_deg"]

/-- PPOutput.py:226-235. -/
def magnitudeColumns : List String :=
  ["PSFMag", "trailedSourceMag", "trailedSourceMagTrue", "PSFMagTrue", "PSFMagSigma", "trailedSourceMagSigma",
   "fieldFiveSigmaDepth_mag", "fiveSigmaDepth_mag"]

/-- `observations[cs]`. -/
def Frame.select (f : Frame) (cs : List String) (e : Err) : Except Err Frame :=
  if cs.all (fun c => f.cols.contains c) then .ok { f with cols := cs } else .error e

/-- Column selection, PPOutput.py:170-206. `keepUnlinked` is `ssp_linking_on and not drop_unlinked`. -/
def selectColumns (cs : Columns) (keepUnlinked : Bool) (f : Frame) : Except Err Frame :=
  match cs with
  | .basic => do
    let g ← f.select basicColumns .keyError
    if keepUnlinked then
      if f.cols.contains "object_linked" then .ok (g.setCol "object_linked" fun r => r "object_linked") else .error .keyError
    else .ok g
  | .all => .ok f
  | .list l => if 1 < l.length then f.select l .badColumns else .error .unbound

/-- Round half to even (`np.rint`), on exact numbers. -/
def rint (x : ℚ) : ℤ :=
  if x - ⌊x⌋ < 1 / 2 then ⌊x⌋
  else if 1 / 2 < x - ⌊x⌋ then ⌊x⌋ + 1
  else if ⌊x⌋ % 2 = 0 then ⌊x⌋ else ⌊x⌋ + 1

/-- `round(decimals=d)`: scale, round, scale back. -/
def roundTo (d : ℕ) (x : ℚ) : ℚ := (rint (x * 10 ^ d) : ℚ) / 10 ^ d

/-- Rounding a cell; NaN, infinities and non-numbers are unchanged. -/
def Cell.round (d : ℕ) : Cell → Cell
  | .num (.fin q) => .num (.fin (roundTo d q))
  | c => c

/-- The rounding loops, PPOutput.py:208-241: `if decimals:` is false for `None` and for 0; missing columns are skipped. -/
def roundColumns (d : Option ℕ) (names : List String) (f : Frame) : Frame :=
  match d with
  | none => f
  | some 0 => f
  | some (k + 1) => names.foldl (fun f c => if f.cols.contains c then f.setCol c (fun r => (r c).round (k + 1)) else f) f

/-- Output configuration. -/
structure Config where
  columns : Columns
  keepUnlinked : Bool
  positionDecimals : Option ℕ
  magnitudeDecimals : Option ℕ

/-- The frame `PPWriteOutput` writes, PPOutput.py:163-241. `dist` is the heliocentric distance from the three components. -/
def outputFrame (dist : Cell → Cell → Cell → Cell) (cfg : Config) (f : Frame) : Except Err Frame := do
  let f := f.setCol "Obj_Sun_LTC_km" fun r => dist (r "Obj_Sun_x_LTC_km") (r "Obj_Sun_y_LTC_km") (r "Obj_Sun_z_LTC_km")
  let g ← selectColumns cfg.columns cfg.keepUnlinked f
  .ok (roundColumns cfg.magnitudeDecimals magnitudeColumns (roundColumns cfg.positionDecimals positionColumns g))

/-! ## Files -/

/-- A line of a CSV file. -/
inductive CsvLine
  | header (cols : List String)
  | row (cells : List Cell)
deriving DecidableEq, Repr

/-- `PPOutWriteCSV`, PPOutput.py:13-38: append, with a header iff the file does not exist. `none` = no file. -/
def writeCSV (file : Option (List CsvLine)) (f : Frame) : Option (List CsvLine) :=
  match file with
  | none => some (.header f.cols :: f.cells.map .row)
  | some old => some (old ++ f.cells.map .row)

/-- `PPOutWriteSqlite3`, PPOutput.py:77-105: the table is created by the first append; later appends store by column name,
unknown columns are an error, absent ones are NULL. -/
def writeSqlite (table : Option (List String × List (List Cell))) (f : Frame) :
    Except Err (Option (List String × List (List Cell))) :=
  let g : Frame := { f with cols := f.cols.filter (· ≠ "level_0") }
  match table with
  | none => .ok (some (g.cols, g.cells))
  | some (cols, rows) =>
    if g.cols.all (fun c => cols.contains c) then
      .ok (some (cols, rows ++ g.rows.map fun r => cols.map fun c => if g.cols.contains c then r c else .null))
    else .error .noSuchColumn

/-- Length of a text cell. -/
def Cell.width : Cell → ℕ
  | .text s => s.length
  | _ => 0

/-- An HDF5 table: columns, the text width fixed for each column by the first append, rows. -/
structure H5 where
  cols : List String
  widths : String → ℕ
  rows : List (List Cell)

/-- `PPOutWriteHDF5`, PPOutput.py:41-74: `HDFStore.append(format="t")` without `min_itemsize`: PyTables fixes the width of
text columns to the longest text of the first append and rejects longer ones later. `astype({"ObjID": str})` (line 64) needs the column. -/
def writeHDF5 (table : Option H5) (f : Frame) : Except Err (Option H5) :=
  if f.cols.contains "ObjID" = false then .error .keyError
  else match table with
  | none => .ok (some ⟨f.cols, fun c => (f.rows.map fun r => (r c).width).foldl max 0, f.cells⟩)
  | some t =>
    if t.cols ≠ f.cols then .error .columnMismatch
    else if f.rows.all (fun r => f.cols.all fun c => decide ((r c).width ≤ t.widths c)) then
      .ok (some { t with rows := t.rows ++ f.cells })
    else .error .stringTooLong

/-- The chunks of a run written one after the other, sorcha.py:373-391: a chunk without rows is not written. -/
def writeChunks {S : Type} (dist : Cell → Cell → Cell → Cell) (cfg : Config) (write : S → Frame → Except Err S) :
    S → List Frame → Except Err S
  | s, [] => .ok s
  | s, f :: fs =>
    if f.rows.length > 0 then do
      let g ← outputFrame dist cfg f
      let s ← write s g
      writeChunks dist cfg write s fs
    else writeChunks dist cfg write s fs

/-! ## Statistics -/

/-- The columns of an observation that enter the statistics; `none` is NaN (infinite values are not modelled). -/
structure Obs where
  objId : String
  optFilter : String
  mag : Option ℚ
  phase : Option ℚ
  linked : Bool
  date : Option ℚ
deriving DecidableEq, Repr

/-- One row of the statistics table. -/
structure StatRow where
  objId : String
  optFilter : String
  number : ℕ
  minMag : Option ℚ
  maxMag : Option ℚ
  medianMag : Option ℚ
  minPhase : Option ℚ
  maxPhase : Option ℚ
  linked : Option Bool
  date : Option ℚ
deriving DecidableEq, Repr

/-- `min` / `max` skipping NaN. -/
def minOf (l : List ℚ) : Option ℚ := l.min?
def maxOf (l : List ℚ) : Option ℚ := l.max?

/-- `median` skipping NaN: the middle value, or the mean of the two middle values. -/
def medianOf (l : List ℚ) : Option ℚ :=
  let s := l.insertionSort (· ≤ ·)
  match s[(l.length - 1) / 2]?, s[l.length / 2]? with
  | some a, some b => some ((a + b) / 2)
  | _, _ => none

/-- One group, PPStats.py:39-58. The columns `object_linked` (present only if unlinked objects are kept) and
`date_linked_MJD` (only with the linking filter) are always computed here. `object_linked` of a group without observations is missing: pandas aggregates the
groups that occur and fills up the table with missing values. -/
def statRow (obs : List Obs) (id f : String) : StatRow :=
  let g := obs.filter fun o => o.objId = id ∧ o.optFilter = f
  let mags := g.filterMap (·.mag)
  let phases := g.filterMap (·.phase)
  { objId := id, optFilter := f, number := g.length, minMag := minOf mags, maxMag := maxOf mags, medianMag := medianOf mags,
    minPhase := minOf phases, maxPhase := maxOf phases, linked := if g = [] then none else some (g.all (·.linked)),
    date := (g.filterMap (·.date)).head? }

/-- `stats`, PPStats.py:34-62: `groupby(["ObjID", "optFilter"], observed=False)`.  `optFilter` is categorical
(PPReadPointingDatabase.py:53), so every category of the pointing database gets a row for every object, with zero
observations if there are none.  `cats` are these categories. The file is appended to like the CSV output. -/
def stats (cats : List String) (obs : List Obs) : List StatRow :=
  ((obs.map (·.objId)).dedup.insertionSort (· ≤ ·)).flatMap fun id => cats.map fun f => statRow obs id f

end Sorcha.Output
