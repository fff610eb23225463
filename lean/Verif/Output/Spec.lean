import Verif.Output.Model

/-!
# Specification vocabulary for the output
-/

namespace Sorcha.Output.Spec
open Sorcha.Output

/-- The basic columns of the documentation, written out independently of the model. -/
def basic : List String :=
  ["ObjID", "fieldMJD_TAI", "fieldRA_deg", "fieldDec_deg", "RA_deg", "Dec_deg", "astrometricSigma_deg", "optFilter",
   "trailedSourceMag", "trailedSourceMagSigma", "fiveSigmaDepth_mag", "phase_deg", "Range_LTC_km", "RangeRate_LTC_km_s",
   "Obj_Sun_LTC_km"]

/-- Columns rounded with the position decimals. -/
def positions : List String :=
  ["fieldRA_deg", "fieldDec_deg", "RA_deg", "Dec_deg", "astrometricSigma_deg", "RATrue_deg", "DecTrue_deg"]

/-- Columns rounded with the magnitude decimals. -/
def magnitudes : List String :=
  ["PSFMag", "trailedSourceMag", "trailedSourceMagTrue", "PSFMagTrue", "PSFMagSigma", "trailedSourceMagSigma",
   "fieldFiveSigmaDepth_mag", "fiveSigmaDepth_mag"]

/-- The columns the configuration asks for. -/
def wantedColumns (cs : Columns) (keepUnlinked : Bool) (inputCols : List String) : List String :=
  match cs with
  | .basic => basic ++ (if keepUnlinked then ["object_linked"] else [])
  | .all => if "Obj_Sun_LTC_km" ∈ inputCols then inputCols else inputCols ++ ["Obj_Sun_LTC_km"]
  | .list l => l

/-- Decimals that apply to a column, if any: a number of decimals of zero means no rounding. -/
def decimalsOf (cfg : Config) (c : String) : Option ℕ :=
  if c ∈ positions then cfg.positionDecimals.filter (· ≠ 0)
  else if c ∈ magnitudes then cfg.magnitudeDecimals.filter (· ≠ 0)
  else none

/-- `y` is `x` with `d` decimals: a multiple of `10^-d` that is nearest to `x`. -/
def RoundedTo (d : ℕ) (x y : ℚ) : Prop := (∃ k : ℤ, y = k / 10 ^ d) ∧ |y - x| ≤ 1 / 2 / 10 ^ d

/-- What a cell may become on output with `d` decimals: finite numbers are rounded, all else is unchanged. -/
inductive CellRounded (d : ℕ) : Cell → Cell → Prop
  | number (x y : ℚ) : RoundedTo d x y → CellRounded d (.num (.fin x)) (.num (.fin y))
  | other (c : Cell) : (∀ q, c ≠ .num (.fin q)) → CellRounded d c c

/-- The CSV file that results from writing the tables `gs` one after the other: a new file has one header (that of the first
table) and then all rows in order; an existing file is extended by all rows. -/
def csvAfter (file : Option (List CsvLine)) (gs : List Frame) : Option (List CsvLine) :=
  match file, gs with
  | none, [] => none
  | none, g :: _ => some (.header g.cols :: gs.flatMap fun g => g.cells.map .row)
  | some old, _ => some (old ++ gs.flatMap fun g => g.cells.map .row)

/-- `o` is the minimum of the list, missing for the empty list. -/
def IsMin (l : List ℚ) (o : Option ℚ) : Prop := (l = [] ∧ o = none) ∨ ∃ x ∈ l, o = some x ∧ ∀ y ∈ l, x ≤ y

/-- `o` is the maximum of the list, missing for the empty list. -/
def IsMax (l : List ℚ) (o : Option ℚ) : Prop := (l = [] ∧ o = none) ∨ ∃ x ∈ l, o = some x ∧ ∀ y ∈ l, y ≤ x

/-- `o` is the median: however the values are put in ascending order, it is the mean of the one or two values in the middle;
missing for the empty list. -/
def IsMedian (l : List ℚ) (o : Option ℚ) : Prop :=
  (l = [] ∧ o = none) ∨ (l ≠ [] ∧ ∀ s : List ℚ, s.Perm l → s.Pairwise (· ≤ ·) →
    ∃ a b, s[(l.length - 1) / 2]? = some a ∧ s[l.length / 2]? = some b ∧ o = some ((a + b) / 2))

/-- `o` is the first value of the list that is not missing. -/
def IsFirst (l : List (Option ℚ)) (o : Option ℚ) : Prop :=
  ((∀ x ∈ l, x = none) ∧ o = none) ∨
  ∃ pre x post, l = pre ++ some x :: post ∧ (∀ y ∈ pre, y = none) ∧ o = some x

end Sorcha.Output.Spec
