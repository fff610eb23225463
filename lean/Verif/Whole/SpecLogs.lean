import Verif.Setup.Spec
import Verif.Cli.Spec
import Verif.History.Spec

/-!
# Specification: what `sorcha outputs check-logs` says about runs

Nothing here refers to the functions of the model but to the type of the command's answers.
-/

namespace Sorcha.Whole.Spec

/-- The text does not occur in what the program logs on its way: the message that a run is completed is logged in no other place. -/
def Quiet (start : List (List Char)) (messages : ℕ → List (List Char)) : Prop :=
  (∀ l ∈ start, ¬ Cli.Spec.Occurs History.Spec.completed l) ∧ ∀ n, ∀ l ∈ messages n, ¬ Cli.Spec.Occurs History.Spec.completed l

/-- The answer `t` of the command, with the file `out` for the report, tells of each run `i`, whose log is at `path i`, whether it went through: `whole i` says that the run has
left all its outputs as they should be, `finished i` that it has come to its end. If all is said to be good, all runs are whole. If runs are named as failed, on the screen or in
the report, then these have not finished, and the others are whole. If all runs have finished, all is said to be good. -/
structure Tells {ι : Type} (xs : List ι) (path : ι → String) (whole finished : ι → Prop) (csv : List Setup.LogRow → List Char) (out : Option String) (t : Setup.Told)
    (disk : Setup.Disk) : Prop where
  good : t = .allGood → ∀ i ∈ xs, whole i
  printed : ∀ failed, t = .printed failed → failed ≠ [] ∧ (∀ r ∈ failed, ∃ i ∈ xs, path i = r.filename) ∧
    ∀ i ∈ xs, (path i ∈ failed.map (·.filename) → ¬ finished i) ∧ (path i ∉ failed.map (·.filename) → whole i)
  saved : t = .saved → ∃ p rows, out = some p ∧ disk p = some (.file (csv rows)) ∧ (∀ r ∈ rows, ∃ i ∈ xs, path i = r.filename) ∧
    ∀ i ∈ xs, ∃ r ∈ rows, r.filename = path i ∧ (r.successful = true → whole i) ∧ (r.successful = false → ¬ finished i)
  all : (∀ i ∈ xs, finished i) → t = .allGood

end Sorcha.Whole.Spec
