import Verif.Whole.SpecCampaign

/-!
# Specification: runs at the same time

Nothing here refers to the functions of `Whole/Model.lean` and `Whole/Parallel.lean`.
-/

namespace Sorcha.Whole.Spec

/-- `p` is named on the command line as something to be read, or as the directory of the outputs. -/
def Named (a : Cli.Args) (p : String) : Prop :=
  p = a.p ∨ p = a.ob ∨ p = a.c ∨ p = a.o ∨ p = a.pd ∨ a.cp = some p ∨ a.vd = some p ∨ a.er = some p

/-- The runs do not meet: no file is an output of two of them, and none of those one run reads (`reads`) is an output of another. Runs may read the same files. -/
structure Separate {ι : Type} (args : ι → Cli.Args) (reads : ι → String → Prop) : Prop where
  outputs : ∀ i j, i ≠ j → OutputsApart (args i) (args j)
  inputs : ∀ i j, i ≠ j → ∀ p, reads i p → ¬ IsOutput (args j) p

end Sorcha.Whole.Spec
