import Verif.Base.Fl

/-!
# Model of the comparison of result files

`compare_result_files`, utilities/diffTestUtils.py:13-45. The two files have been read by `pd.read_csv` already: a table has named columns, each of
which holds numbers (a missing field is NaN) or texts (a missing field is `none`). Columns of truth values count as columns of the numbers 0 and 1.
Numbers are exact: the rounding of the difference and of the tolerance is not modelled.
-/

namespace Sorcha.Compare

/-- A column of a data frame: numeric (`is_numeric_dtype`) or of objects. -/
inductive Col
  | num (xs : List Fl)
  | obj (ss : List (Option String))
deriving DecidableEq, Repr

/-- The number of its entries. -/
def Col.length : Col → ℕ
  | .num xs => xs.length
  | .obj ss => ss.length

/-- A data frame. -/
structure Frame where
  rows : ℕ
  cols : List (String × Col)
deriving DecidableEq, Repr

/-- The exceptions of the comparison. -/
inductive Err
  | keyError    -- no such column
  | typeError   -- numbers compared with objects
deriving DecidableEq, Repr

/-- `golden_data[col]`. -/
def Frame.col (f : Frame) (name : String) : Option Col := (f.cols.find? (·.1 = name)).map (·.2)

/-- One entry in `np.isclose` with its default tolerances: `abs(x - y) <= atol + rtol * abs(y)` for finite `y`, or `x == y`. -/
def isClose : Fl → Fl → Bool
  | .fin x, .fin y => decide (|x - y| ≤ 1 / 100000000 + 1 / 100000 * |y|)
  | .pinf, .pinf => true
  | .ninf, .ninf => true
  | _, _ => false

/-- One entry of `test_data[col] == golden_data[col]`: a missing entry is not equal to anything. -/
def sameObj : Option String → Option String → Bool
  | some a, some b => a = b
  | _, _ => false

/-- The check of one column, diffTestUtils.py:39-44: `np.allclose` for numbers, equality for objects; numbers are never equal to texts. -/
def colSame : Col → Col → Except Err Bool
  | .num xs, .num ys => .ok ((xs.zip ys).all fun p => isClose p.1 p.2)
  | .num _, .obj _ => .error .typeError
  | .obj ss, .obj ts => .ok ((ss.zip ts).all fun p => sameObj p.1 p.2)
  | .obj ss, .num _ => .ok ss.isEmpty

/-- The loop over the columns of the results, diffTestUtils.py:38-45. -/
def loop (golden : Frame) : List (String × Col) → Except Err Bool
  | [] => .ok true
  | (n, c) :: cs =>
    match golden.col n with
    | none => .error .keyError
    | some d =>
      match colSame c d with
      | .error e => .error e
      | .ok false => .ok false
      | .ok true => loop golden cs

/-- `compare_result_files(test_output, golden_output)`, diffTestUtils.py:13-45. -/
def compare (test golden : Frame) : Except Err Bool :=
  if test.rows ≠ golden.rows ∨ test.cols.length ≠ golden.cols.length then .ok false else loop golden test.cols

end Sorcha.Compare
