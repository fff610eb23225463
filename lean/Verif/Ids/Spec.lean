import Verif.Seed.Spec
import Mathlib.Data.List.Basic

/-!
# Specification: object IDs that pandas leaves alone

Nothing here refers to the functions of `Model.lean`.
-/

namespace Sorcha.Ids.Spec

/-- A character that numbers are written with: a digit, a sign, a point, an exponent's letter, a blank. -/
def Numeric (c : Char) : Prop := c ∈ "0123456789+-.eE".toList ∨ Seed.Spec.Blank c

/-- The words that stand for a missing value. -/
def Missing (s : String) : Prop :=
  s = "" ∨ s = "NA" ∨ s = "<NA>" ∨ s = "#NA" ∨ s = "N/A" ∨ s = "n/a" ∨ s = "#N/A" ∨ s = "#N/A N/A" ∨ s = "NULL" ∨ s = "null" ∨ s = "None" ∨
  s = "nan" ∨ s = "-nan" ∨ s = "NaN" ∨ s = "-NaN" ∨ s = "1.#IND" ∨ s = "-1.#IND" ∨ s = "1.#QNAN" ∨ s = "-1.#QNAN"

/-- The words that stand for a truth value. -/
def Truth (s : String) : Prop := s = "true" ∨ s = "True" ∨ s = "TRUE" ∨ s = "false" ∨ s = "False" ∨ s = "FALSE"

/-- The words that stand for an infinite number, in any mixture of capitals and small letters. -/
def Infinite (s : String) : Prop :=
  ∃ sign word : List Char, s.toList.map Char.toLower = sign ++ word ∧ (sign = [] ∨ sign = ['+'] ∨ sign = ['-']) ∧
    (word = "inf".toList ∨ word = "infinity".toList)

/-- An ordinary word: it has a character that no number has, and is not one of the special words. -/
def Word (s : String) : Prop := (∃ c ∈ s.toList, ¬ Numeric c) ∧ ¬ Missing s ∧ ¬ Truth s ∧ ¬ Infinite s

/-- A whole number of at most 18 digits written in the plain way: no blanks, no plus sign, no leading zeros. -/
def PlainNumber (s : String) : Prop := ∃ n : ℤ, Seed.Spec.Plain s.toList n ∧ n.natAbs < 10 ^ 18

/-- The text stands for the whole number (of at most 18 digits): blanks, perhaps a sign, digits, blanks. -/
def StandsFor (s : String) (n : ℤ) : Prop :=
  ∃ (before sign digits after : List Char) (m : ℕ), s.toList = before ++ sign ++ digits ++ after ∧ (∀ c ∈ before, Seed.Spec.Blank c) ∧
    (∀ c ∈ after, Seed.Spec.Blank c) ∧ digits ≠ [] ∧ Seed.Spec.Reads digits m ∧ m < 10 ^ 18 ∧
    ((sign = ['-'] ∧ n = -(m : ℤ)) ∨ ((sign = ['+'] ∨ sign = []) ∧ n = m))

/-- What is assumed of reading texts as floating-point numbers and printing these: texts with other characters than numbers have are not read, but for the words for
infinite numbers; whole numbers are read; the printed number has a character that whole numbers do not have (a point, an exponent, or the letters of inf). -/
structure Floats (F : String → Option String) : Prop where
  chars : ∀ s t, F s = some t → (∀ c ∈ s.toList, Numeric c) ∨ Infinite s
  whole : ∀ s n, Seed.Spec.Plain s.toList n → n.natAbs < 10 ^ 18 → (F s).isSome = true
  shown : ∀ s t, F s = some t → ∃ c ∈ t.toList, c ≠ '-' ∧ ∀ d, ¬ Seed.Spec.Digit c d

end Sorcha.Ids.Spec
