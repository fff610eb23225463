import Verif.Db.Model

/-!
# Specification vocabulary for the reader of object data in a database
-/

namespace Sorcha.Db.Spec
open Sorcha.Db Sorcha.Readers

variable {C : Type}

/-- One ID is not behind another: missing IDs are first, then whole numbers, then texts by their characters. -/
inductive NotBehind : Val → Val → Prop
  | null (v : Val) : NotBehind .null v
  | ints {a b : ℤ} (h : a ≤ b) : NotBehind (.int a) (.int b)
  | mixed (a : ℤ) (s : String) : NotBehind (.int a) (.text s)
  | texts {s t : String} (h : s ≤ t) : NotBehind (.text s) (.text t)

/-- A listing of the rows by ID: each row once, the IDs ascending. -/
def ById (rows l : List (Row C)) : Prop := l.Perm rows ∧ l.Pairwise fun a b => NotBehind a.id b.id

/-- The numbers sqlite stores as whole numbers. -/
def Storable (z : ℤ) : Prop := -(2 ^ 63) ≤ z ∧ z < 2 ^ 63

/-- What sqlite promises: a query ordered by ID gives a listing by ID, any query gives each row once, and a whole number in its usual form is that number. -/
structure Keeps (E : Engine C) : Prop where
  listing : ∀ k rows, ById rows (E.listing k rows)
  scan : ∀ k rows, (E.scan k rows).Perm rows
  number : ∀ z, Storable z → E.readsAs (toString z) = .whole z

/-- An ID as a column of the given affinity stores it, with no ID missing: in a text column a text; in a numeric one a whole number or a text that is
no number; in a column without type only texts are considered here. -/
def Stored (E : Engine C) : Affinity → Val → Prop
  | .text, .text _ => True
  | .numeric, .int z => Storable z
  | .numeric, .text s => E.readsAs s = .no
  | .none, .text _ => True
  | _, _ => False

/-- The ID as a user writes it. -/
def name : Val → String
  | .null => ""
  | .int z => toString z
  | .text s => s

/-- The row as a user sees it. -/
def shown (r : Row C) : Rec C := ⟨name r.id, r.cells⟩

/-- A text that is the usual form of the whole number it stands for, if it stands for one. -/
def Usual (E : Engine C) (s : String) : Prop := ∀ z, E.readsAs s = .whole z → s = toString z

/-- A proper call on a table: the size is not negative and is given with every start but 0; not more IDs are asked for than sqlite allows, and, of a numeric column,
in their usual form; the table is not searched for missing values if it has any. -/
def Proper (E : Engine C) (missing : C → Bool) (t : Table C) : Call → Prop
  | .rows start size d => (∀ n, size = some n → 0 ≤ n) ∧ (size = none → start = 0) ∧ (d = true → ∀ r ∈ t.rows, ∀ c ∈ r.cells, missing c = false)
  | .objects ids d => ids.length ≤ E.maxVars ∧ (t.aff = .numeric → ∀ s ∈ ids, Usual E s) ∧ (d = true → ∀ r ∈ t.rows, ∀ c ∈ r.cells, missing c = false)

/-- The answer to a call, given a listing of the table: the rows from `start` on, `size` of them; or, in some order, the rows of the objects asked for. -/
def Answers (l : List (Row C)) : Call → Except Err (List (Rec C)) → Prop
  | .rows start none _, out => out = .ok ((l.drop start).map shown)
  | .rows start (some n) _, out => out = .ok (((l.drop start).take n.toNat).map shown)
  | .objects ids _, out => ∃ o, out = .ok o ∧ o.Perm ((l.filter fun r => decide (name r.id ∈ ids)).map shown)

end Sorcha.Db.Spec
