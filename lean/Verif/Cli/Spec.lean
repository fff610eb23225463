import Verif.Cli.Model

/-!
# Specification for the command line utilities
-/

namespace Sorcha.Cli.Spec

/-- `p` is a file of the output `stem` in the directory `dir`: its name is the stem, a dot and an extension. -/
def BelongsTo (dir stem p : String) : Prop := ∃ ext : String, '/' ∉ ext.toList ∧ p = dir ++ "/" ++ stem ++ "." ++ ext

/-- `glob` as documented, for names without the special characters `*?[`: it lists the existing paths that match, in some order. -/
structure GlobSound (g : Glob) : Prop where
  anyExt : ∀ dir stem fs p, p ∈ g.anyExt dir stem fs ↔ p ∈ fs ∧ BelongsTo dir stem p
  csv : ∀ dir stem fs p, p ∈ g.csv dir stem fs ↔ p ∈ fs ∧ p = dir ++ "/" ++ stem ++ ".csv"

/-- `p` is an output file of the command: of the output stem, of the ephemeris file (an empty name counts as none), or the statistics file. -/
def IsOutput (a : Args) (p : String) : Prop :=
  BelongsTo a.o a.t p ∨ (∃ n, a.ew = some n ∧ n ≠ "" ∧ BelongsTo a.o n p) ∨ ∃ n, a.st = some n ∧ p = a.o ++ "/" ++ n ++ ".csv"

/-- A text is contained in another. -/
def Occurs (t s : List Char) : Prop := ∃ a b, s = a ++ t ++ b

/-- Lines of a log file: each followed by a line feed, then possibly an unfinished line. -/
def logText (lines : List (List Char)) (unfinished : List Char) : List Char := lines.flatMap (fun l => l ++ ['\n']) ++ unfinished

/-- Joining strings the way SPICE reads continued values: pieces separated by `+' '`. -/
def continued : List (List Char) → List Char
  | [] => []
  | [p] => p
  | p :: ps => p ++ ['+', '\'', ' ', '\''] ++ continued ps

/-- How SPICE reads a continued value back: a `+` at the end of a quoted piece joins it with the next piece. -/
def readBack : List Char → List Char
  | '+' :: '\'' :: ' ' :: '\'' :: r => readBack r
  | c :: r => c :: readBack r
  | [] => []

end Sorcha.Cli.Spec
