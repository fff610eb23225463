import Verif.Linking.Spec
import Verif.Config.Model
import Mathlib.Algebra.BigOperators.Group.List.Basic
import Mathlib.Data.Int.ModEq

/-!
# Specification: which numbers a text stands for, which seeds give the same run

Nothing here refers to the functions of `Model.lean`.
-/

namespace Sorcha.Seed.Spec

/-- Ten characters and their values. -/
def Digit (c : Char) (d : ℕ) : Prop := ("0123456789".toList)[d]? = some c

/-- The characters are the decimal digits of the number, leading zeros allowed. -/
inductive Reads : List Char → ℕ → Prop
  | nil : Reads [] 0
  | snoc {cs : List Char} {n : ℕ} {c : Char} {d : ℕ} : Reads cs n → Digit c d → Reads (cs ++ [c]) (10 * n + d)

/-- Blanks of a text. -/
def Blank (c : Char) : Prop := c ∈ [' ', '\t', '\n', '\r', Char.ofNat 11, Char.ofNat 12]

/-- The text is a number: blanks, perhaps a sign, groups of digits joined by single underscores (at most 4300 digits in all), blanks. -/
def Number (text : List Char) (n : ℤ) : Prop :=
  ∃ (before sign : List Char) (groups : List (List Char)) (after : List Char) (m : ℕ),
    text = before ++ sign ++ ['_'].intercalate groups ++ after ∧ (∀ c ∈ before, Blank c) ∧ (∀ c ∈ after, Blank c) ∧
    groups ≠ [] ∧ (∀ g ∈ groups, g ≠ []) ∧ Reads groups.flatten m ∧ groups.flatten.length ≤ 4300 ∧
    ((sign = ['-'] ∧ n = -(m : ℤ)) ∨ ((sign = ['+'] ∨ sign = []) ∧ n = m))

/-- The number is written in the plain way: digits without leading zero, a minus sign for negative numbers. -/
def Plain (text : List Char) (n : ℤ) : Prop :=
  ∃ (sign digits : List Char) (m : ℕ), text = sign ++ digits ∧ Reads digits m ∧ digits ≠ [] ∧ (digits.head? = some '0' → digits = ['0']) ∧
    ((n < 0 ∧ sign = ['-'] ∧ n = -(m : ℤ)) ∨ (0 ≤ n ∧ sign = [] ∧ n = m))

/-- The seeds are the same for sorcha. -/
def SameSeed (a b : ℤ) : Prop := a ≡ b [ZMOD 2147483648]

/-- The weights of the linking filter (numba's generator) never let different sets of nights have the same sum. -/
def NoTies (weights : ℕ → String → ℕ → ℚ) : Prop := ∀ (round : ℕ) (id : String) (m : ℕ), Linking.Spec.Generic (weights round id) m

/-- The modules that draw random numbers in a run: the camera with a fill factor, the fading function, the randomisation. -/
def drawing : List String :=
  ["sorcha.modules.PPApplyFOVFilter", "sorcha.modules.PPDropObservations", "sorcha.modules.PPRandomizeMeasurements"]

/-- The configuration has the module draw random numbers: a camera with a fill factor, a fading function, randomised measurements. -/
def Uses (c : Config.Cfg) (module : String) : Prop :=
  (module = "sorcha.modules.PPApplyFOVFilter" ∧ ∃ fill radius, c.fov = .circle (some fill) radius) ∨
  (module = "sorcha.modules.PPDropObservations" ∧ c.fading ≠ .off) ∨
  (module = "sorcha.modules.PPRandomizeMeasurements" ∧ c.expert.randomization.on = true)

end Sorcha.Seed.Spec
