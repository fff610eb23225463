import Verif.Csv.Model
import Verif.Tables.Model
import Verif.Readers.Model

/-!
# Reading blocks and objects from the text of an input file

`CSVDataReader` (readers/CSVReader.py) down to the characters of the file: the search for the header by lines, and the three calls of `pd.read_csv`, which count and skip
lines by the rules of pandas' tokenizer. Fields are separated by commas (`sep` is "csv" or "comma") or by blanks (`sep` is "whitespace"). Every row has as many fields as the
header.
-/

namespace Sorcha.Csv

/-- Python's iteration over a text file (CSVReader.py:79-80): lines end with `\n`, `\r\n` or `\r`, all given as `\n`. `cr`: a `\r` has just ended a line. -/
def pyLines : Str → Str → Bool → List Str
  | [], acc, _ => if acc = [] then [] else [acc]
  | c :: r, acc, cr =>
    if c = '\n' then (if cr then pyLines r acc false else (acc ++ ['\n']) :: pyLines r [] false)
    else if c = '\r' then (acc ++ ['\n']) :: pyLines r [] true
    else pyLines r (acc ++ [c]) false

/-- A character that ends a field (`IS_DELIMITER`): `sep` is "whitespace", or one of "csv" and "comma" (CSVReader.py:196, 222, 262). -/
def delim (sep : String) (c : Char) : Prop := if sep = "whitespace" then c = ' ' ∨ c = '\t' else c = ','

instance (sep : String) (c : Char) : Decidable (delim sep c) := by unfold delim; infer_instance

/-- Within a line that is skipped: at the start of a field, in a field, in quotes, behind a quote in quotes (`START_FIELD_IN_SKIP_LINE`, `IN_FIELD_IN_SKIP_LINE`,
`IN_QUOTE_IN_SKIP_LINE`, `QUOTE_IN_QUOTE_IN_SKIP_LINE`). -/
inductive Skip
  | start
  | field
  | quoted
  | quote
deriving DecidableEq, Repr

/-- What a character within a line that is skipped leads to (`tokenize_bytes`, for CSVReader.py:198-211, 220-233, 260-273). -/
inductive Skipped
  | on (k : Skip)
  | ended
  | endedCr

/-- The end of a line that is skipped, or another character. -/
def skipEnd (c : Char) (other : Skip) : Skipped := if c = '\n' then .ended else if c = '\r' then .endedCr else .on other

/-- One character of a line that is skipped (`tokenize_bytes`, for CSVReader.py:198-211, 220-233, 260-273). -/
def skipStep (sep : String) (k : Skip) (c : Char) : Skipped :=
  match k with
  | .start => skipEnd c (if c = '"' then .quoted else if delim sep c then .start else .field)
  | .field => skipEnd c (if delim sep c then .start else .field)
  | .quoted => .on (if c = '"' then .quote else .quoted)
  | .quote => skipEnd c (if c = '"' then .quoted else if delim sep c then .start else .field)

/-- The reader with the number of the current line (`file_lines`); whether the line is being skipped. -/
structure Rd where
  st : St
  line : ℕ
  skip : Option Skip

/-- The first character of a line (`START_RECORD`): the line may be skipped. `skip` is `none` where the call of the given function raises. -/
def firstChar (skip : ℕ → Option Bool) (s : St) (n : ℕ) (c : Char) : Option Rd :=
  match skip n with
  | none => none
  | some true => if c = '"' then some ⟨s, n, some .quoted⟩ else if c = '\n' then some ⟨s, n + 1, none⟩ else some ⟨s, n, some .field⟩
  | some false =>
    if c = '\n' then some ⟨s, n + 1, none⟩
    else if c = '\r' then some ⟨s.to .eatEmpty, n + 1, none⟩
    else some ⟨startLineStep s c, n, none⟩

/-- One character, with lines counted and skipped (`tokenize_bytes`, for CSVReader.py:198-211, 220-233, 260-273). -/
def rdStep (skip : ℕ → Option Bool) (s : Rd) (c : Char) : Option Rd :=
  match s.skip with
  | some k =>
    match skipStep "csv" k c with
    | .on k' => some ⟨s.st, s.line, some k'⟩
    | .ended => some ⟨s.st, s.line + 1, none⟩
    | .endedCr => some ⟨s.st.to .eatEmpty, s.line + 1, none⟩
  | none =>
    match s.st.mode with
    | .startLine => firstChar skip s.st s.line c
    | .eatEnd =>
      if c = '\n' then some ⟨s.st.endLine, s.line + 1, none⟩
      else if c = ',' then some ⟨startLineStep s.st.endLine c, s.line + 1, none⟩
      else firstChar skip s.st.endLine (s.line + 1) c
    | .eatEmpty => if c = '\n' then some ⟨s.st.to .startLine, s.line, none⟩ else firstChar skip (s.st.to .startLine) s.line c
    | _ =>
      let st := step s.st c
      some ⟨st, if st.mode = .startLine ∨ st.mode = .eatEmpty then s.line + 1 else s.line, none⟩

/-- The end of the text (`parser_handle_eof`). -/
def rdFinish (s : Rd) : Option (List (List Str)) :=
  match s.skip with
  | some _ => some s.st.rows
  | none => finish s.st

/-- All characters. -/
def rdRun (skip : ℕ → Option Bool) (s : Rd) : Str → Option Rd
  | [] => some s
  | c :: t => match rdStep skip s c with
    | none => none
    | some s' => rdRun skip s' t

/-- The lines that `pd.read_csv(sep=",", skiprows=...)` sees, as fields; `none` if it raises. -/
def commaTokens (skip : ℕ → Option Bool) (t : Str) : Option (List (List Str)) :=
  match rdRun skip ⟨⟨[], [], [], .startLine⟩, 0, none⟩ t with
  | none => none
  | some s => rdFinish s

/-! ## Blanks between the fields -/

/-- Where the reader is with `sep="\\s+"` (`delim_whitespace`, for CSVReader.py:196): at the start of a line, in a line of blanks so far, in a field, in quotes, behind a
quote inside quotes, in the blanks behind a field, behind a carriage return at the end of a line, behind one at the end of an empty line. -/
inductive BMode
  | startLine
  | blankLine
  | inField
  | quoted
  | quote
  | eatBlanks
  | eatEnd
  | eatEmpty
deriving DecidableEq, Repr

/-- The lines read, the fields read of the current line, the characters read of the current field, the number of the line, whether it is being skipped. -/
structure BRd where
  rows : List (List Str)
  cur : List Str
  buf : Str
  mode : BMode
  line : ℕ
  skip : Option Skip

/-- The end of a line (`end_line`). That lines with fewer fields than the header are filled up and those with more are refused is left out. -/
def BRd.endLine (s : BRd) (m : BMode) : BRd := ⟨s.rows ++ [s.cur], [], [], m, s.line + 1, none⟩

/-- The end of a field (`end_field`). -/
def BRd.endField (s : BRd) (m : BMode) : BRd := ⟨s.rows, s.cur ++ [s.buf], [], m, s.line, none⟩

/-- The end of a line without fields. -/
def BRd.noLine (s : BRd) (m : BMode) : BRd := ⟨s.rows, [], [], m, s.line + 1, none⟩

/-- One more character of the field. -/
def BRd.push (s : BRd) (c : Char) (m : BMode) : BRd := ⟨s.rows, s.cur, s.buf ++ [c], m, s.line, none⟩

def BRd.to (s : BRd) (m : BMode) : BRd := ⟨s.rows, s.cur, s.buf, m, s.line, none⟩

/-- The first character of a field (`START_FIELD`): neither a blank nor the end of a line. -/
def bFieldStart (s : BRd) (c : Char) : BRd := if c = '"' then s.to .quoted else s.push c .inField

/-- A character behind the first one of a field (`IN_FIELD`). -/
def bInField (s : BRd) (c : Char) : BRd :=
  if c = '\n' then (s.endField .startLine).endLine .startLine
  else if c = '\r' then s.endField .eatEnd
  else if delim "whitespace" c then s.endField .eatBlanks
  else s.push c .inField

/-- The first character of a line (`START_RECORD`). -/
def bFirst (skip : ℕ → Option Bool) (s : BRd) (c : Char) : Option BRd :=
  match skip s.line with
  | none => none
  | some true =>
    if c = '"' then some ⟨s.rows, s.cur, s.buf, .startLine, s.line, some .quoted⟩
    else if c = '\n' then some (s.noLine .startLine)
    else some ⟨s.rows, s.cur, s.buf, .startLine, s.line, some .field⟩
  | some false =>
    if c = '\n' then some (s.noLine .startLine)
    else if c = '\r' then some (s.noLine .eatEmpty)
    else if delim "whitespace" c then some (s.to .blankLine)
    else some (bFieldStart s c)

/-- One character (`tokenize_bytes` with `delim_whitespace`, for CSVReader.py:198-211, 220-233, 260-273). -/
def bStep (skip : ℕ → Option Bool) (s : BRd) (c : Char) : Option BRd :=
  match s.skip with
  | some k =>
    match skipStep "whitespace" k c with
    | .on k' => some ⟨s.rows, s.cur, s.buf, s.mode, s.line, some k'⟩
    | .ended => some (s.noLine .startLine)
    | .endedCr => some (s.noLine .eatEmpty)
  | none =>
    match s.mode with
    | .startLine => bFirst skip s c
    | .blankLine =>
      if c = '\n' then some (s.noLine .startLine)
      else if c = '\r' then some (s.noLine .eatEmpty)
      else if delim "whitespace" c then some s
      else some (bFieldStart s c)
    | .inField => some (bInField s c)
    | .quoted => some (if c = '"' then s.to .quote else s.push c .quoted)
    | .quote => some (if c = '"' then s.push c .quoted else bInField s c)
    | .eatBlanks =>
      if c = '\n' then some (s.endLine .startLine)
      else if c = '\r' then some (s.to .eatEnd)
      else if delim "whitespace" c then some s
      else some (bFieldStart s c)
    | .eatEnd =>
      if c = '\n' then some (s.endLine .startLine)
      else if delim "whitespace" c then some (s.endLine .eatBlanks)
      else bFirst skip (s.endLine .startLine) c
    | .eatEmpty => if c = '\n' then some (s.to .startLine) else bFirst skip (s.to .startLine) c

/-- The end of the text (`parser_handle_eof`): `none` is the error `EOF inside string`. -/
def bFinish (s : BRd) : Option (List (List Str)) :=
  match s.skip with
  | some _ => some s.rows
  | none =>
    match s.mode with
    | .startLine | .blankLine | .eatEmpty => some s.rows
    | .quoted => none
    | .eatBlanks | .eatEnd => some (s.rows ++ [s.cur])
    | _ => some (s.rows ++ [s.cur ++ [s.buf]])

/-- All characters. -/
def bRun (skip : ℕ → Option Bool) (s : BRd) : Str → Option BRd
  | [] => some s
  | c :: t => match bStep skip s c with
    | none => none
    | some s' => bRun skip s' t

/-- The lines that `pd.read_csv(sep="\\s+", skiprows=...)` sees, as fields; `none` if it raises. -/
def blankTokens (skip : ℕ → Option Bool) (t : Str) : Option (List (List Str)) :=
  match bRun skip ⟨[], [], [], .startLine, 0, none⟩ t with
  | none => none
  | some s => bFinish s

/-! ## Blocks, IDs and objects -/

/-- The lines that `pd.read_csv(skiprows=...)` sees, CSVReader.py:196-211: `sep` is "csv", "comma" or "whitespace". -/
def tokens (sep : String) (skip : ℕ → Option Bool) (t : Str) : Option (List (List Str)) :=
  if sep = "whitespace" then blankTokens skip t else commaTokens skip t

/-- The ways of failing: the header is not found or not good, or pandas raises. -/
inductive TextErr
  | header (e : Tables.Err)
  | badNrows
  | pandas
deriving DecidableEq, Repr

/-- `CSVDataReader.__init__`, CSVReader.py:13-45: the number of the header line. -/
def headerRow (sep : String) (t : Str) : Except TextErr ℕ :=
  match Tables.openFile sep (pyLines t [] false) with
  | .error e => .error (.header e)
  | .ok h => .ok h

/-- A table: the names and the rows. -/
abbrev TextTable := List Str × List (List Str)

/-- The first line is the header, then at most `nrows` rows. -/
def toTable (nrows : Option ℕ) : Option (List (List Str)) → Except TextErr TextTable
  | some (names :: rows) => .ok (names, match nrows with | none => rows | some n => rows.take n)
  | _ => .error .pandas

/-- `CSVDataReader._read_rows_internal`, CSVReader.py:166-213. -/
def rowsOf (sep : String) (t : Str) (start : ℕ) (size : Option ℤ) : Except TextErr TextTable :=
  match headerRow sep t with
  | .error e => .error e
  | .ok h =>
    let seen := tokens sep (fun i => some (decide (i < h) || (decide (h + 1 ≤ i) && decide (i < h + 1 + start)))) t
    match size with
    | none => toTable none seen
    | some n => if n < 0 then .error .badNrows else toTable (some n.toNat) seen

/-- The column with this name: the first one. -/
def column (name : Str) (tb : TextTable) : Option (List Str) :=
  match tb.1.findIdx? (· = name) with
  | none => none
  | some i => some (tb.2.map fun r => r.getD i [])

/-- `CSVDataReader._build_id_map`, CSVReader.py:215-235: with `header=h` nothing is skipped, the `h` lines before the header are read and dropped. -/
def idsOf (P : Readers.IdParse) (sep : String) (t : Str) : Except TextErr (List String) :=
  match headerRow sep t with
  | .error e => .error e
  | .ok h =>
    match toTable none ((tokens sep (fun _ => some false) t).map (List.drop h)) with
    | .error e => .error e
    | .ok tb => match column "ObjID".toList tb with
      | none => .error .pandas
      | some ids => .ok (Readers.inferIds P (ids.map String.ofList))

/-- `CSVDataReader._read_objects_internal`, CSVReader.py:237-281: `skipped_row[x]` raises beyond the end of the list. -/
def objectsOf (P : Readers.IdParse) (sep : String) (t : Str) (ids : List String) : Except TextErr TextTable :=
  match headerRow sep t, idsOf P sep t with
  | .ok h, .ok table =>
    let skipped := List.replicate h true ++ [false] ++ table.map fun s => !ids.contains s
    toTable none (tokens sep (fun i => skipped[i]?) t)
  | .error e, _ => .error e
  | _, .error e => .error e

end Sorcha.Csv
