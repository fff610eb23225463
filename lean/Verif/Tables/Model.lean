import Verif.Inputs.Model

/-!
# Model of the reading of input tables: header, separator and column names

`CSVDataReader` (readers/CSVReader.py), the checks it inherits (readers/ObjectDataReader.py), and what `OrbitAuxReader` and
`EphemerisDataReader` do to the columns (readers/OrbitAuxReader.py, readers/EphemerisReader.py).

Simplifications. A file is given by its lines up to the header, character by character and with their end of line, and by the rows below
the header, which pandas has already cut into cells (`V`); every row has as many cells as there are names. Which rows are read is the
subject of `Verif.Readers`; the checks of the values in an orbit file are the subject of `Verif.Inputs`. Quotation marks are not
interpreted. pandas renames repeated and empty names: this is the parameter `fix`.
-/

namespace Sorcha.Tables

/-- The ways a read fails. -/
inductive Err
  | separator      -- CSVReader.py:35-38
  | noHeader       -- CSVReader.py:93-98
  | fewColumns     -- CSVReader.py:119-125
  | noObjId        -- CSVReader.py:127-133
  | oneColumn      -- ObjectDataReader.py:192-199
  | noObjIdColumn  -- ObjectDataReader.py:155-161
  | badEphemeris   -- EphemerisReader.py:168-177
  | key            -- KeyError of `input_table[ephem_cols]`, EphemerisReader.py:180: not caught
deriving DecidableEq, Repr

abbrev Line := List Char

/-- `line.startswith("ObjID")`, CSVReader.py:83. -/
def starts (l : Line) : Bool := ['O', 'b', 'j', 'I', 'D'].isPrefixOf l

/-- The names in the line, CSVReader.py:111-117. The separators "csv" and "comma" are the same; `sep` is one of the three accepted ones. -/
def cut (sep : String) (l : Line) : List (List Char) :=
  if sep = "csv" ∨ sep = "comma" then l.splitOn ',' else Inputs.words [] l

/-- `CSVDataReader._check_header_line`, CSVReader.py:101-133. -/
def checkHeader (sep : String) (l : Line) : Except Err Unit :=
  if (cut sep l).length < 2 then .error .fewColumns
  else if ['O', 'b', 'j', 'I', 'D'] ∉ cut sep l then .error .noObjId
  else .ok ()

/-- The loop of `CSVDataReader._find_and_validate_header_line` without a given header row, CSVReader.py:79-98. `i` is the number of the
line. -/
def search (sep : String) (i : ℕ) : List Line → Except Err ℕ
  | [] => .error .noHeader
  | l :: ls =>
    if starts l then (checkHeader sep l).map fun _ => i
    else if 100 < i then .error .noHeader
    else search sep (i + 1) ls

/-- `CSVDataReader.__init__`, CSVReader.py:13-45: the number of the header line. -/
def openFile (sep : String) (ls : List Line) : Except Err ℕ :=
  if sep ∈ ["whitespace", "csv", "comma"] then search sep 0 ls else .error .separator

/-- A data frame. -/
structure Frame (V : Type) where
  names : List String
  rows : List (List V)
deriving DecidableEq, Repr

variable {V : Type}

/-- The line without its end. -/
def dropEol (l : Line) : Line := if l.getLast? = some '\n' then l.dropLast else l

/-- `pd.read_csv` as called in CSVReader.py:192-210 and 264-276: the header line is cut at the separator, the rows follow. -/
def readCsv (fix : List String → List String) (sep : String) (l : Line) (rows : List (List V)) : Frame V :=
  ⟨fix ((cut sep (dropEol l)).map String.ofList), rows⟩

/-- `ObjectDataReader._process_and_validate_input_table`, ObjectDataReader.py:163-212 (`disallow_nan` is never given), and
`_validate_object_id_column`, ObjectDataReader.py:137-161. -/
def validate (f : Frame V) : Except Err (Frame V) :=
  if f.names.length ≤ 1 then .error .oneColumn
  else if "ObjID" ∉ f.names then .error .noObjIdColumn
  else .ok f

/-- `input_table.rename(columns=lambda x: x.strip())`. -/
def stripNames (f : Frame V) : Frame V := ⟨f.names.map Config.strip, f.rows⟩

/-- The table read from the file, before any check. -/
def load (fix : List String → List String) (sep : String) (ls : List Line) (rows : List (List V)) : Except Err (Frame V) :=
  (openFile sep ls).map fun h => readCsv fix sep (ls.getD h []) rows

/-- A table of physical parameters or of a light curve or activity model: `CSVDataReader._process_and_validate_input_table`,
CSVReader.py:285-315. -/
def readParams (fix : List String → List String) (sep : String) (ls : List Line) (rows : List (List V)) : Except Err (Frame V) := do
  let f ← load fix sep ls rows
  let g ← validate f
  return stripNames g

/-- An orbit table before the checks of its columns: `OrbitAuxReader._process_and_validate_input_table`, OrbitAuxReader.py:69. The result
of the inherited function is not used, and renaming does not change its argument, so the names stay as they are. -/
def readOrbits (fix : List String → List String) (sep : String) (ls : List Line) (rows : List (List V)) : Except Err (Frame V) := do
  let f ← load fix sep ls rows
  let _ ← readParams fix sep ls rows
  return f

/-- `drop(names, axis=1, errors="ignore")`. -/
def dropCols (ns : List String) (f : Frame V) : Frame V :=
  ⟨f.names.filter (· ∉ ns), f.rows.map fun r => ((f.names.zip r).filter fun p => p.1 ∉ ns).map (·.2)⟩

/-- `input_table[names]`: every column with the first name, then every column with the second, … -/
def select (ns : List String) (f : Frame V) : Except Err (Frame V) :=
  if ns.all fun n => n ∈ f.names then
    .ok ⟨ns.flatMap fun n => f.names.filter (· = n), f.rows.map fun r => ns.flatMap fun n => ((f.names.zip r).filter fun p => p.1 = n).map (·.2)⟩
  else .error .key

/-- EphemerisReader.py:140-163. -/
def ephemCols : List String :=
  ["ObjID", "FieldID", "fieldMJD_TAI", "Range_LTC_km", "RangeRate_LTC_km_s", "RA_deg", "RARateCosDec_deg_day", "Dec_deg", "DecRate_deg_day",
    "Obj_Sun_x_LTC_km", "Obj_Sun_y_LTC_km", "Obj_Sun_z_LTC_km", "Obj_Sun_vx_LTC_km_s", "Obj_Sun_vy_LTC_km_s", "Obj_Sun_vz_LTC_km_s",
    "Obs_Sun_x_km", "Obs_Sun_y_km", "Obs_Sun_z_km", "Obs_Sun_vx_km_s", "Obs_Sun_vy_km_s", "Obs_Sun_vz_km_s", "phase_deg"]

/-- EphemerisReader.py:168: the same set of names. -/
def sameNames (a b : List String) : Bool := a.all (· ∈ b) && b.all (· ∈ a)

/-- `EphemerisDataReader._process_and_validate_input_table`, EphemerisReader.py:104-180. -/
def processEphem (f : Frame V) : Except Err (Frame V) :=
  let g := dropCols ["V", "V(H=0)"] (stripNames f)
  if sameNames g.names ephemCols then select ephemCols g
  else if g.names.any fun n => n ∉ ephemCols ∧ n ∉ ["fieldJD_TDB"] then .error .badEphemeris
  else select ephemCols g

/-- An ephemeris given as text: `EphemerisDataReader` with a `CSVDataReader`, EphemerisReader.py:37-39, 76-77, 102-103. -/
def readEphem (fix : List String → List String) (sep : String) (ls : List Line) (rows : List (List V)) : Except Err (Frame V) := do
  let f ← readParams fix sep ls rows
  processEphem f

end Sorcha.Tables
