import Verif.Config.Model
import Mathlib.Data.List.Dedup

/-!
# Model of checks of the input files

`OrbitAuxReader._process_and_validate_input_table`, `PPGetMainFilterAndColourOffsets` and the AUXILIARY section of the configuration.
-/

namespace Sorcha.Inputs

/-! ## Orbit files: readers/OrbitAuxReader.py -/

/-- The ways these checks stop. -/
inductive Err
  | noFormat                  -- OrbitAuxReader.py:74-76
  | wrongColumns              -- :78-80
  | mixedFormat               -- :83-85
  | missingElements           -- :92-94, 154-156, 194-196
  | badElements               -- :147-151, 187-191
  | unknownFormat             -- :197-205
  | noMain                    -- PPGetMainFilterAndColourOffsets.py:47-53
  | indexError                -- uncaught `IndexError`
  | mainNotObserved           -- :57-67
  | noFilters                 -- :73-79
  | badSep                    -- :86-89
  | fewColumns                -- :92-98
  | noColour                  -- :100-107
  | urlOnly (file : String)   -- sorchaConfigs.py:1085-1086
deriving DecidableEq, Repr

/-- A row of the orbit file: its FORMAT and the number in each column. (A column that is not numeric makes the comparisons raise; this is
not modelled.) -/
structure OrbRow where
  format : String
  val : String → Fl

/-- A block of the orbit file as read by pandas. -/
structure Block where
  columns : List String
  rows : List OrbRow

/-- The rows of a Keplerian block that raise an error, OrbitAuxReader.py:126-145. -/
def badKep (r : OrbRow) : Bool :=
  Fl.le (.fin 1) (r.val "e") || (r.val "e").lt (.fin 0) || ((r.val "e").lt (.fin 1) && (r.val "a").lt (.fin 0))

/-- The rows of a cometary block that raise an error, OrbitAuxReader.py:174-185. -/
def badCom (r : OrbRow) : Bool := (r.val "q").lt (.fin 0) || (r.val "e").lt (.fin 0)

/-- `OrbitAuxReader._process_and_validate_input_table`, OrbitAuxReader.py:43-207, after the common CSV checks. The warnings are not modelled. -/
def checkOrbits (b : Block) : Except Err Block :=
  match b.rows with
  | [] => .ok b
  | r :: _ =>
    if !b.columns.contains "FORMAT" then .error .noFormat
    else if b.columns.length ≠ 9 then .error .wrongColumns
    else if (b.rows.map (·.format)).dedup.length ≠ 1 then .error .mixedFormat
    else if ["KEP", "BKEP"].contains r.format then
      if !["ObjID", "a", "e", "inc", "node", "argPeri", "ma", "epochMJD_TDB"].all (b.columns.contains ·) then .error .missingElements
      else if b.rows.any badKep then .error .badElements
      else .ok b
    else if ["COM", "BCOM"].contains r.format then
      if !["ObjID", "q", "e", "inc", "node", "argPeri", "t_p_MJD_TDB", "epochMJD_TDB"].all (b.columns.contains ·) then .error .missingElements
      else if b.rows.any badCom then .error .badElements
      else .ok b
    else if ["CART", "BCART"].contains r.format then
      if !["ObjID", "x", "y", "z", "xdot", "ydot", "zdot", "epochMJD_TDB"].all (b.columns.contains ·) then .error .missingElements
      else .ok b
    else .error .unknownFormat

/-- The file is read and checked block by block, in the main loop (sorcha.py:184-220 through `CombinedDataReader`): the sizes of the blocks are the
chunk size, except the last. The first error stops the run. -/
def checkBlocks (columns : List String) : List (List OrbRow) → Except Err Unit
  | [] => .ok ()
  | b :: bs => do
    let _ ← checkOrbits ⟨columns, b⟩
    checkBlocks columns bs

/-! ## Main filter: modules/PPGetMainFilterAndColourOffsets.py -/

/-- What follows the first "H_" in the line: `first_line.find("H_")`, PPGetMainFilterAndColourOffsets.py:45. -/
def afterH : List Char → Option (List Char)
  | [] => none
  | c :: cs =>
    match cs with
    | d :: rest => if c = 'H' ∧ d = '_' then some rest else afterH cs
    | [] => none

/-- `s.split()`: the words between white space. `cur` is the word being read, reversed. -/
def words (cur : List Char) : List Char → List (List Char)
  | [] => if cur.isEmpty then [] else [cur.reverse]
  | c :: cs => if Config.isSpace c then (if cur.isEmpty then words [] cs else cur.reverse :: words [] cs) else words (c :: cur) cs

/-- The columns of the header, PPGetMainFilterAndColourOffsets.py:82-89; `first_line[:-1]` drops the end of line. -/
def headerColumns (line : List Char) (sep : String) : Except Err (List String) :=
  if sep = "whitespace" then .ok ((words [] line.dropLast).map String.ofList)
  else if sep = "comma" ∨ sep = "csv" then .ok ((line.dropLast.splitOn ',').map String.ofList)
  else .error .badSep

/-- `PPGetMainFilterAndColourOffsets`, PPGetMainFilterAndColourOffsets.py:5-109. `line` is the first line of the file with its end of line. -/
def mainFilter (line : List Char) (observing : List String) (sep : String) : Except Err (String × Option (List String)) :=
  match afterH line with
  | none => .error .noMain
  | some [] => .error .indexError
  | some (c :: _) =>
    let main := String.ofList [c]
    if !observing.contains main then .error .mainNotObserved
    else
      let colours : Option (List String) :=
        match observing with
        | _ :: x :: xs => some ((x :: xs).map (fun f => f ++ "-" ++ main))
        | _ => none
      if observing.isEmpty then .error .noFilters
      else
        match headerColumns line sep with
        | .error e => .error e
        | .ok cols =>
          if cols.length ≤ 1 then .error .fewColumns
          else if !(colours.getD []).all (cols.contains ·) then .error .noColour
          else .ok (main, colours)

/-! ## Auxiliary files: utilities/sorchaConfigs.py, `auxiliaryConfigs` -/

/-- A file that can be downloaded: its key, default name and default address. -/
structure AuxFile where
  key : String
  name : String
  url : String
deriving DecidableEq, Repr

/-- The defaults, sorchaConfigs.py:964-1021, in the order of `urls`, :1106-1116. -/
def auxFiles : List AuxFile :=
  [⟨"planet_ephemeris", "de440s.bsp", "https://naif.jpl.nasa.gov/pub/naif/generic_kernels/spk/planets/de440s.bsp"⟩,
   ⟨"earth_predict", "earth_2025_250826_2125_predict.bpc",
    "https://naif.jpl.nasa.gov/pub/naif/generic_kernels/pck/earth_2025_250826_2125_predict.bpc"⟩,
   ⟨"earth_historical", "earth_620120_250826.bpc", "https://naif.jpl.nasa.gov/pub/naif/generic_kernels/pck/earth_620120_250826.bpc"⟩,
   ⟨"earth_high_precision", "earth_latest_high_prec.bpc", "https://naif.jpl.nasa.gov/pub/naif/generic_kernels/pck/earth_latest_high_prec.bpc"⟩,
   ⟨"jpl_planets", "linux_p1550p2650.440", "https://ssd.jpl.nasa.gov/ftp/eph/planets/Linux/de440/linux_p1550p2650.440"⟩,
   ⟨"jpl_small_bodies", "sb441-n16.bsp", "https://ssd.jpl.nasa.gov/ftp/eph/small_bodies/asteroids_de441/sb441-n16.bsp"⟩,
   ⟨"leap_seconds", "naif0012.tls", "https://naif.jpl.nasa.gov/pub/naif/generic_kernels/lsk/naif0012.tls"⟩,
   ⟨"observatory_codes_compressed", "ObsCodes.json.gz", "https://minorplanetcenter.net/Extended_Files/obscodes_extended.json.gz"⟩,
   ⟨"orientation_constants", "pck00010.pck", "https://naif.jpl.nasa.gov/pub/naif/generic_kernels/pck/pck00010.tpc"⟩]

/-- The name under which the file is stored: `getattr(self, file)`. -/
def nameOf (s : Config.Sect) (f : AuxFile) : String := (Config.get s f.key).getD f.name

/-- `getattr(self, file + "_url")` before the validation. -/
def urlOf (s : Config.Sect) (f : AuxFile) : String := (Config.get s (f.key ++ "_url")).getD f.url

/-- `self.urls[name]`, sorchaConfigs.py:1106-1116: of several files with the same name the last counts. -/
def lookupUrl (urls : List (String × String)) (name : String) : Option String := (urls.reverse.find? (·.1 = name)).map (·.2)

/-- What the run uses: the dictionary of addresses, and the address attribute of each file (`None` if it was cleared). -/
structure Aux where
  urls : List (String × String)
  attr : List (String × Option String)
deriving DecidableEq, Repr

/-- `_validate_auxiliary_configs`, sorchaConfigs.py:1075-1092, for one file. -/
def checkAux (s : Config.Sect) (f : AuxFile) : Except Err (String × Option String) :=
  if f.name = nameOf s f ∧ urlOf s f ≠ f.url then .error (.urlOnly f.key)
  else if f.name ≠ nameOf s f ∧ urlOf s f = f.url then .ok (f.key, none)
  else .ok (f.key, some (urlOf s f))

/-- `auxiliaryConfigs.__post_init__`, sorchaConfigs.py:1070-1073: the dictionary is built first, then the attributes are validated. -/
def auxiliary (s : Config.Sect) : Except Err Aux := do
  let attr ← auxFiles.mapM (checkAux s)
  pure ⟨auxFiles.map (fun f => (nameOf s f, urlOf s f)), attr⟩

end Sorcha.Inputs
