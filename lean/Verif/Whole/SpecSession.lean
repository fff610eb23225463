import Verif.Cli.Spec

/-!
# Specification: the names of the logs of runs

Nothing here refers to the functions of the model.
-/

namespace Sorcha.Whole.Spec

/-- A date and time as `%Y-%m-%d-%H-%M-%S` writes them, for years of four digits. -/
def Stamp (s : String) : Prop := s.toList.length = 19 ∧ ∀ c ∈ s.toList, c.isDigit = true ∨ c = '-'

/-- A number of a process, in decimal digits. -/
def Decimal (s : String) : Prop := ∀ c ∈ s.toList, c.isDigit = true

/-- The names of the outputs do not clash with names of logs: the stem has no dot, and neither it nor the name for the ephemerides ends like the name of a log. -/
structure NoClash (a : Cli.Args) : Prop where
  dot : '.' ∉ a.t.toList
  stem : ¬ "-sorcha".toList <:+ a.t.toList
  ephemeris : ∀ n, a.ew = some n → ¬ "-sorcha".toList <:+ n.toList

end Sorcha.Whole.Spec
