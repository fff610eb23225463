import Verif.Base.Fl

/-!
# When two tables of results agree

Nothing here refers to how the program compares them.
-/

namespace Sorcha.Compare.Spec

/-- What a field of a results file holds. -/
inductive Cell
  | missing
  | number (x : ℚ)
  | infinite (positive : Bool)
  | text (s : String)

/-- A field agrees with the reference: the same text, the same infinity, or a number that differs by at most `10^-8` and `10^-5` of the reference. Missing
fields do not agree with anything. -/
inductive Agree : Cell → Cell → Prop
  | number {x y : ℚ} (h : |x - y| ≤ 1 / 10 ^ 8 + 1 / 10 ^ 5 * |y|) : Agree (.number x) (.number y)
  | infinite (b : Bool) : Agree (.infinite b) (.infinite b)
  | text (s : String) : Agree (.text s) (.text s)

end Sorcha.Compare.Spec
