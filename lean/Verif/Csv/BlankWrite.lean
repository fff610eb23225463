import Verif.Csv.Model

/-!
# Writing tables with blanks between the fields

Ephemerides are saved in the format in which they would be read (simulation_driver.py:364-371): with `eph_format = whitespace`, `DataFrame.to_csv` is called with one space as
separator. The writer is that of `Csv.Model` with another separator; a field that is empty is written as nothing, and a tab needs no quotes.
-/

namespace Sorcha.Csv

/-- A field that is put in quotes if the separator is a space (`join_append_data` of `csv.writer`, for PPOutput.py:34-36 with `separator=" "`). -/
def blankSpecial (f : Str) : Bool := f.any fun c => c = ' ' || c = '"' || c = '\n' || c = '\r'

/-- A field as it is written (`csv.writer`, for PPOutput.py:34-36 with `separator=" "`). -/
def blankField (f : Str) : Str := if blankSpecial f then inQuotes f else f

/-- The fields of a line with a space between them (`csv.writer.writerow`, for PPOutput.py:34-36 with `separator=" "`). -/
def blankFields : List Str → Str
  | [] => []
  | [f] => blankField f
  | f :: g :: fs => blankField f ++ ' ' :: blankFields (g :: fs)

/-- A line of a file (PPOutput.py:34-36 with `separator=" "`). -/
def blankRecord (fs : List Str) : Str := (if fs = [[]] then ['"', '"'] else blankFields fs) ++ ['\n']

/-- A line of a table with spaces: the header or a row (PPOutput.py:34-36 with `separator=" "`). -/
def blankLine (shown : Output.Cell → Str) : Output.CsvLine → Str
  | .header cols => blankRecord (cols.map String.toList)
  | .row cells => blankRecord (cells.map shown)

/-- A line of saved ephemerides, by `eph_format` (`write_out_ephemeris_file`, simulation_driver.py:364-369): "csv", or "whitespace". Only these two are saved as texts. -/
def savedLine (format : String) (shown : Output.Cell → Str) : Output.CsvLine → Str := if format = "csv" then line shown else blankLine shown

end Sorcha.Csv
