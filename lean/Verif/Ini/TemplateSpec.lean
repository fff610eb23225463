import Verif.Config.Spec
import Mathlib.Order.Monotone.Basic

/-!
# What is assumed of Python's `float`, `int` and `str.lower` for the files that come with the package
-/

namespace Sorcha.Ini.Spec

/-- Decimal digits. -/
def Digits (l : List Char) : Prop := ∀ c ∈ l, 48 ≤ c.toNat ∧ c.toNat ≤ 57

/-- Their value. -/
def value (l : List Char) : ℕ := l.foldl (fun n c => 10 * n + (c.toNat - 48)) 0

/-- The text is a decimal fraction: `2.06`, `1.`. -/
def Decimal (s : String) (q : ℚ) : Prop :=
  ∃ a b, s.toList = a ++ '.' :: b ∧ a ≠ [] ∧ Digits a ∧ Digits b ∧ q = (value (a ++ b) : ℚ) / 10 ^ b.length

/-- The text is a whole number. -/
def WholeNumber (s : String) (n : ℕ) : Prop := s ≠ "" ∧ Digits s.toList ∧ n = value s.toList

/-- ASCII text. -/
def Ascii (s : String) : Prop := ∀ c ∈ s.toList, c.toNat < 128

/-- ASCII lower case. -/
def lowerAscii (s : String) : String :=
  String.ofList (s.toList.map fun c => if 65 ≤ c.toNat ∧ c.toNat ≤ 90 then Char.ofNat (c.toNat + 32) else c)

/-- `float` gives the number rounded by `rnd`, which is monotone and exact on small multiples of 1/16 (as binary floating point is); `int` and
`str.lower` do what they should on plain text. -/
structure Python (py : Config.Py) (rnd : ℚ → ℚ) : Prop where
  float : ∀ s q, Decimal s q → py.toFloat s = some (.fin (rnd q))
  int : ∀ s n, WholeNumber s n → py.toInt s = some (n : ℤ)
  lower : ∀ s, Ascii s → py.lower s = lowerAscii s
  mono : Monotone rnd
  exact : ∀ n : ℕ, n ≤ 1024 → rnd (n / 16) = n / 16

end Sorcha.Ini.Spec
