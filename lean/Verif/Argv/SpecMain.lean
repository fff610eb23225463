import Verif.Argv.Model
import Verif.Argv.Spec

/-!
# Specification: which command `sorcha` starts

Of `Model.lean` only the types of a directory of `PATH` and of the result are used.
-/

namespace Sorcha.Argv.Spec

/-- The names of the options of `sorcha` itself. -/
def mainNames : List String := ["-h", "--help", "--version"]

/-- The directory is the first one of `PATH` with a file of that name that may be executed. -/
def FirstIn (path : Path) (name dir : List Char) : Prop :=
  ∃ before es after, path = before ++ (dir, some es) :: after ∧ (∃ e ∈ es, e.name = name ∧ e.exec = true ∧ e.dir = false) ∧
    ∀ d ∈ before, ∀ fs, d.2 = some fs → ∀ e ∈ fs, ¬ (e.name = name ∧ e.exec = true ∧ e.dir = false)

/-- The arguments ask for the verb with these arguments: the verb comes first and everything behind it is passed on; a `--` before the verb or right behind it is
dropped. -/
def Asks (argv : List (List Char)) (verb : List Char) (args : List (List Char)) : Prop :=
  (Value mainNames verb ∧ argv = verb :: args ∧ args.head? ≠ some ['-', '-']) ∨ (Value mainNames verb ∧ argv = verb :: ['-', '-'] :: args) ∨ argv = ['-', '-'] :: verb :: args

/-- No argument before the first `--` begins with `--=`. -/
def Clear (argv : List (List Char)) : Prop := ∀ before a after, argv = before ++ a :: after → ['-', '-'] ∉ before → ¬ ['-', '-', '='] <+: a

end Sorcha.Argv.Spec
