import Verif.Addons.Model

/-!
# Vocabulary of the statements about light curve and activity models
-/

namespace Sorcha.Addons

variable {M : Type}

/-- The classes defined during these events. -/
def defined : List (Event M) → List (Cls M)
  | [] => []
  | .define c :: es => c :: defined es
  | .update :: es => defined es

/-- `c` is the first of the classes that has this name, among those that derive directly from the base class. -/
def FirstNamed (cs : List (Cls M)) (n : String) (c : Cls M) : Prop :=
  ∃ a b, cs = a ++ c :: b ∧ c.name = n ∧ c.direct = true ∧ ∀ d ∈ a, d.direct = true → d.name ≠ n

/-- No two direct subclasses have the same name. -/
def Distinct (cs : List (Cls M)) : Prop := cs.Pairwise fun c d => c.direct = true → d.direct = true → c.name ≠ d.name

/-- A light curve model as Sorcha calls it: `compute` and `maxBrightness` take the table. -/
def LightCurve (c : Cls M) : Prop := c.computeArgs = 1 ∧ c.maxArgs = some 1

/-- An activity model as Sorcha calls it: `compute` and `maxBrightness` take the table, the filters, two distances and the phase angle. -/
def Activity (c : Cls M) : Prop := c.computeArgs = 5 ∧ c.maxArgs = some 5

end Sorcha.Addons
