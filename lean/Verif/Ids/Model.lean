import Verif.Readers.Model
import Verif.Seed.Model

/-!
# Which texts pandas reads as missing values, numbers and truth values

`pd.read_csv` as the readers call it (CSVReader.py:198-211, 220-233, 260-273), without `dtype`, `na_values` or `converters`: the type of the `ObjID` column is
inferred, and `_validate_object_id_column` (ObjectDataReader.py:149-150) turns the values into texts again. The rules are pandas' (2.x, C parser), not sorcha's; they
are written out here because sorcha's treatment of IDs rests on them. How a text is read as a floating-point number and how such a number is printed are parameters.
-/

namespace Sorcha.Ids

/-- The texts that `pd.read_csv` takes for missing values (CSVReader.py:198-211 gives neither `na_values` nor `keep_default_na`). -/
def naTexts : List String :=
  ["", "#N/A", "#N/A N/A", "#NA", "-1.#IND", "-1.#QNAN", "-NaN", "-nan", "1.#IND", "1.#QNAN", "<NA>", "N/A", "NA", "NULL", "NaN", "None", "n/a", "nan", "null"]

/-- The number that digits stand for; at least one digit and nothing else. -/
def digits? (cs : List Char) : Option ℕ :=
  if cs ≠ [] ∧ cs.all fun c => (Seed.digit? c).isSome then some (cs.foldl (fun (n : ℕ) (c : Char) => 10 * n + (Seed.digit? c).getD 0) 0) else none

/-- A text read as a whole number (`str_to_int64`, for CSVReader.py:198-211): blanks, perhaps a sign, digits, blanks. Simplified: numbers of 19 digits and more, for
which pandas tries other types, are not taken for whole numbers. -/
def whole? (cs : List Char) : Option ℤ :=
  let n : Option ℤ := match Seed.trim cs with
    | '-' :: r => (digits? r).map fun n : ℕ => -(n : ℤ)
    | '+' :: r => (digits? r).map fun n : ℕ => (n : ℤ)
    | r => (digits? r).map fun n : ℕ => (n : ℤ)
  n.filter fun n => n.natAbs < 10 ^ 18

/-- A text read as a truth value (`read_csv` without `true_values`, `false_values`), printed again. -/
def truth? (s : String) : Option String :=
  if s = "True" ∨ s = "TRUE" ∨ s = "true" then some "True"
  else if s = "False" ∨ s = "FALSE" ∨ s = "false" then some "False"
  else none

/-- How pandas reads the `ObjID` column (CSVReader.py:198-233, ObjectDataReader.py:149-150). `F` reads a text as a floating-point number and prints it. -/
def pandas (F : String → Option String) : Readers.IdParse where
  missing s := naTexts.contains s
  int? s := (whole? s.toList).map fun n : ℤ => String.ofList (Seed.str n)
  float? := F
  bool? := truth?

end Sorcha.Ids
