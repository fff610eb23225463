import Verif.Whole.Spec
import Verif.Setup.Spec

/-!
# Specification: parts of a population that are run again until they go through

Nothing here refers to the functions of `Whole/Model.lean` and `Whole/Session.lean`.
-/

namespace Sorcha.Whole.Spec

/-- No file is an output of both commands. -/
def OutputsApart (a b : Cli.Args) : Prop := ∀ p, IsOutput a p → ¬ IsOutput b p

/-- `p` is one of the text files the command reads. -/
def IsInput (a : Cli.Args) (p : String) : Prop := p = a.c ∨ p = a.ob ∨ p = a.p ∨ a.cp = some p ∨ a.er = some p

/-- The answer of `check-logs` on the screen does not name the log as that of a failed run. -/
def NotNamed (t : Setup.Told) (log : String) : Prop := t = .allGood ∨ ∃ failed, t = .printed failed ∧ log ∉ failed.map (·.filename)

end Sorcha.Whole.Spec
