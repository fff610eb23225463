import Verif.Readers.Model

/-!
# Specification vocabulary for the readers
-/

namespace Sorcha.Readers.Spec
open Sorcha.Readers

variable {C : Type}

/-- The text file `f` holds the table `recs`: some non-blank comment lines (at most 101), the header, one line per row, and
no blank line anywhere. -/
def Holds (f : List (Line C)) (recs : List (Rec C)) : Prop :=
  ∃ n ≤ 101, f = List.replicate n .text ++ .header :: recs.map .data

/-- The same, but lines before the header may be blank. -/
def HoldsLoosely (f : List (Line C)) (recs : List (Rec C)) : Prop :=
  ∃ pre : List (Line C), pre.length ≤ 101 ∧ (∀ l ∈ pre, l = .text ∨ l = .blank) ∧ f = pre ++ .header :: recs.map .data

/-- A text that is read as a whole number. -/
def Whole (P : IdParse) (s : String) : Prop := P.missing s = false ∧ (P.int? s).isSome = true

/-- A text that is read as a number, but not as a whole one. -/
def Fraction (P : IdParse) (s : String) : Prop := P.missing s = false ∧ P.int? s = none ∧ (P.float? s).isSome = true

/-- A text that is printed as it was read, whatever it is read as: a missing value is printed `nan`. -/
def Printed (P : IdParse) (s : String) : Prop :=
  (P.missing s = true → s = "nan") ∧
  (P.missing s = false → (∀ t, P.int? s = some t → t = s) ∧ (∀ t, P.int? s = none → P.float? s = some t → t = s) ∧ ∀ t, P.bool? s = some t → t = s)

/-- The texts are not altered by being read: each is printed as it was read, and with a whole number among them (which is printed otherwise in a column of fractions)
there are neither fractions nor missing values. `C82_exact` shows that this is the same as: however the texts are put together into columns, they are read unchanged. -/
def Stable (P : IdParse) (ids : List String) : Prop :=
  (∀ s ∈ ids, Printed P s) ∧ ∀ s ∈ ids, Whole P s → ∀ t ∈ ids, P.missing t = false ∧ ¬ Fraction P t

/-- The IDs are not altered by being read. -/
def StableIds (P : IdParse) (recs : List (Rec C)) : Prop := Stable P (recs.map (·.id))

/-- The IDs of a table. -/
def idsOf (recs : List (Rec C)) : List String := recs.map (·.id)

/-- The cells of the (first) row of object `id`. -/
def cellsOf (recs : List (Rec C)) (id : String) : List C :=
  ((recs.find? fun r => r.id = id).map (·.cells)).getD []

/-- A row extended by its object's cells in each of the tables. -/
def extend (tables : List (List (Rec C))) (r : Rec C) : Rec C :=
  { r with cells := r.cells ++ tables.flatMap (fun t => cellsOf t r.id) }

/-- Rows `k*c, ..., (k+1)*c - 1` of a list. -/
def chunk {α : Type} (l : List α) (c k : ℕ) : List α := (l.drop (k * c)).take c

/-- The list cut into chunks of `c`: `⌈n/c⌉` of them. -/
def chunks {α : Type} (l : List α) (c : ℕ) : List (List α) :=
  (List.range ((l.length + c - 1) / c)).map (chunk l c)

end Sorcha.Readers.Spec
