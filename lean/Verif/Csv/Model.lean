import Verif.Output.Model
import Mathlib.Data.List.Basic

/-!
# The text of CSV files: how it is written and how it is read

`DataFrame.to_csv` as sorcha calls it (PPOutput.py:34-36, PPStats.py:63-65, check_output_logs.py:105) hands each line to the writer of Python's `csv` module
(delimiter `,`, quote `"` doubled inside, quoting only where needed, line end `\n`); so does the generator of ephemerides for its table in memory
(simulation_driver.py:132-133, 161, 220). `pd.read_csv` as sorcha calls it (CSVReader.py:198-211, simulation_driver.py:225) and as users do, splits the text into
lines and fields. Both are libraries; they are modelled here after their sources (Python 3.11,
pandas 2.x, C parser) because the files are what a user gets.
-/

namespace Sorcha.Csv

abbrev Str := List Char

/-! ## Writing -/

/-- A field that is put in quotes (`join_append_data` of `csv.writer`, for PPOutput.py:34-36). -/
def special (f : Str) : Bool := f.any fun c => c = ',' || c = '"' || c = '\n' || c = '\r'

/-- A field in quotes, with quotes inside doubled (`csv.writer`, for PPOutput.py:34-36). -/
def inQuotes (f : Str) : Str := '"' :: (f.flatMap fun c : Char => if c = '"' then ['"', '"'] else [c]) ++ ['"']

/-- A field as it is written (`csv.writer`, for PPOutput.py:34-36). -/
def field (f : Str) : Str := if special f then inQuotes f else f

/-- The fields of a line with commas between them (`csv.writer.writerow`, for PPOutput.py:34-36). -/
def fields : List Str → Str
  | [] => []
  | [f] => field f
  | f :: g :: fs => field f ++ ',' :: fields (g :: fs)

/-- A line without its end (`csv.writer.writerow`, for PPOutput.py:34-36): a single empty field is written as two quotes. -/
def body (fs : List Str) : Str := if fs = [[]] then ['"', '"'] else fields fs

/-- A line of a file (PPOutput.py:34-36). -/
def record (fs : List Str) : Str := body fs ++ ['\n']

/-- A line of the text in memory that the generator of ephemerides collects its rows in (simulation_driver.py:132-133, 161, 220): `csv.writer` itself ends lines with
`\r\n`. -/
def memoryRecord (fs : List Str) : Str := body fs ++ ['\r', '\n']

/-- A line of a table: the header or a row (PPOutput.py:34-36, PPStats.py:63-65). `shown` is how a cell is written: a text as it is, a missing value as nothing, numbers
as `repr` does. -/
def line (shown : Output.Cell → Str) : Output.CsvLine → Str
  | .header cols => record (cols.map String.toList)
  | .row cells => record (cells.map shown)

/-! ## Reading -/

/-- Where the reader is (`ParserState` of pandas' tokenizer, for CSVReader.py:198-211): at the start of a line, in a line of blanks, at the start of a field, in a field,
in quotes, behind a quote inside quotes, behind a carriage return at the end of a line, behind one at the end of an empty line. -/
inductive Mode
  | startLine
  | blanks
  | startField
  | inField
  | quoted
  | quote
  | eatEnd
  | eatEmpty
deriving DecidableEq, Repr

/-- The lines read, the fields read of the current line, the characters read of the current field. -/
structure St where
  rows : List (List Str)
  cur : List Str
  buf : Str
  mode : Mode

/-- The end of a field (`end_field`). -/
def St.endField (s : St) (m : Mode) : St := ⟨s.rows, s.cur ++ [s.buf], [], m⟩

/-- The end of a line behind its last field (`end_line`). That lines with fewer fields than the header are filled up and those with more are refused is left out. -/
def St.endLine (s : St) : St := ⟨s.rows ++ [s.cur], [], [], .startLine⟩

/-- One more character of the field. -/
def St.push (s : St) (c : Char) (m : Mode) : St := ⟨s.rows, s.cur, s.buf ++ [c], m⟩

def St.to (s : St) (m : Mode) : St := ⟨s.rows, s.cur, s.buf, m⟩

/-- A character in a field that is not in quotes (`IN_FIELD`). -/
def inFieldStep (s : St) (c : Char) : St :=
  if c = '\n' then (s.endField .startField).endLine
  else if c = '\r' then s.endField .eatEnd
  else if c = ',' then s.endField .startField
  else s.push c .inField

/-- The first character of a field (`START_FIELD`). -/
def startFieldStep (s : St) (c : Char) : St := if c = '"' then s.to .quoted else inFieldStep s c

/-- The first character of a line (`START_RECORD`, with `skip_blank_lines`). -/
def startLineStep (s : St) (c : Char) : St :=
  if c = '\n' then s
  else if c = '\r' then s.to .eatEmpty
  else if c = ' ' ∨ c = '\t' then s.push c .blanks
  else startFieldStep s c

/-- One character (`tokenize_bytes`, for CSVReader.py:198-211). In a line that begins with blanks (`WHITESPACE_LINE`) the reader goes back to the first blank at the
first other character; here the blanks are kept instead. -/
def step (s : St) (c : Char) : St :=
  match s.mode with
  | .startLine => startLineStep s c
  | .blanks =>
    if c = '\n' then ⟨s.rows, [], [], .startLine⟩
    else if c = '\r' then ⟨s.rows, [], [], .eatEmpty⟩
    else if c = ' ' ∨ c = '\t' then s.push c .blanks
    else inFieldStep s c
  | .startField => startFieldStep s c
  | .inField => inFieldStep s c
  | .quoted => if c = '"' then s.to .quote else s.push c .quoted
  | .quote => if c = '"' then s.push c .quoted else inFieldStep s c
  | .eatEnd => if c = '\n' then s.endLine else startLineStep s.endLine c
  | .eatEmpty => if c = '\n' then s.to .startLine else startLineStep (s.to .startLine) c

/-- The end of the text (`tokenizer_eof`): `none` is the error `EOF inside string`. -/
def finish (s : St) : Option (List (List Str)) :=
  match s.mode with
  | .startLine | .blanks | .eatEmpty => some s.rows
  | .quoted => none
  | .eatEnd => some (s.rows ++ [s.cur])
  | _ => some (s.rows ++ [s.cur ++ [s.buf]])

/-- The lines and fields of a text (`pd.read_csv`, for CSVReader.py:198-211). -/
def read (t : Str) : Option (List (List Str)) := finish (t.foldl step ⟨[], [], [], .startLine⟩)

end Sorcha.Csv
