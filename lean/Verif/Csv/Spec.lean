import Mathlib.Data.List.Basic

/-!
# Specification: tables as texts

Nothing here refers to the functions of `Model.lean`.
-/

namespace Sorcha.Csv.Spec

/-- A line that can be told from an empty line: two fields or more, or one field that is empty or has something other than blanks in it. -/
def Visible (row : List (List Char)) : Prop :=
  2 ≤ row.length ∨ ∃ f, row = [f] ∧ (f = [] ∨ ∃ c ∈ f, c ≠ ' ' ∧ c ≠ '\t')

/-- The line is cut short: its first fields are those of the row, the last one is an initial part of the field. -/
def CutShort (part row : List (List Char)) : Prop :=
  ∃ before f after g, row = before ++ f :: after ∧ part = before ++ [g] ∧ g <+: f

/-! ## Texts of tables, however they were made -/

/-- Quotation marks doubled. -/
def doubled : List Char → List Char
  | [] => []
  | c :: f => if c = '"' then '"' :: '"' :: doubled f else c :: doubled f

/-- `s` is a way to write the field `f` between commas: as it is, if it has no commas and line ends in it and does not begin with a quotation mark, or in quotation marks. -/
def Written (f s : List Char) : Prop :=
  (s = f ∧ f.head? ≠ some '"' ∧ ∀ c ∈ f, c ≠ ',' ∧ c ≠ '\n' ∧ c ≠ '\r') ∨ s = '"' :: doubled f ++ ['"']

/-- `s` is a way to write the fields of a line. -/
inductive LineText : List (List Char) → List Char → Prop
  | one {f s} : Written f s → LineText [f] s
  | more {f s fs t} : Written f s → LineText fs t → LineText (f :: fs) (s ++ ',' :: t)

/-- Lines put together to a text: each ends as on Unix or as on Windows; the last one may lack its end. -/
inductive Glued : List (List Char) → List Char → Prop
  | nil : Glued [] []
  | last {l} : l ≠ [] → Glued [l] l
  | cons {l e ls t} : e = ['\n'] ∨ e = ['\r', '\n'] → Glued ls t → Glued (l :: ls) (l ++ (e ++ t))

/-- A line above the header: not blank, not taken for the header, and no quotation mark at its start or directly behind a separator. -/
def Note (separator : Char → Prop) (l : List Char) : Prop :=
  (∀ c ∈ l, c ≠ '\n' ∧ c ≠ '\r') ∧ (∃ c ∈ l, c ≠ ' ' ∧ c ≠ '\t') ∧ ¬ "ObjID".toList <+: l ∧ l.head? ≠ some '"' ∧ ∀ p c q, l = p ++ c :: '"' :: q → ¬ separator c

/-- `t` is the text of an input file with commas: perhaps some notes, the header, which begins with `ObjID` and has a comma behind it, and rows with as many fields as there
are names, the first of which, the ID, is not empty. -/
def CommaText (t : List Char) (names : List (List Char)) (rows : List (List (List Char))) : Prop :=
  ∃ notes header lines, Glued (notes ++ header :: lines) t ∧ notes.length ≤ 101 ∧ (∀ l ∈ notes, Note (· = ',') l) ∧ "ObjID,".toList <+: header ∧ LineText names header ∧
    List.Forall₂ LineText rows lines ∧ ∀ row ∈ rows, row.length = names.length ∧ row.headD [] ≠ []

/-- Space or tab. -/
def Blank (c : Char) : Prop := c = ' ' ∨ c = '\t'

/-- `s` is a way to write the field `f` between blanks: as it is, if it is not empty, has no blanks and line ends in it and does not begin with a quotation mark, or in
quotation marks. -/
def Spaced (f s : List Char) : Prop :=
  (s = f ∧ f ≠ [] ∧ f.head? ≠ some '"' ∧ ∀ c ∈ f, ¬ Blank c ∧ c ≠ '\n' ∧ c ≠ '\r') ∨ s = '"' :: doubled f ++ ['"']

/-- `s` is a way to write the fields of a line with blanks between them and perhaps behind them. -/
inductive SpacedLine : List (List Char) → List Char → Prop
  | one {f s g} : Spaced f s → (∀ c ∈ g, Blank c) → SpacedLine [f] (s ++ g)
  | more {f s b g fs t} : Spaced f s → Blank b → (∀ c ∈ g, Blank c) → SpacedLine fs t → SpacedLine (f :: fs) (s ++ b :: (g ++ t))

/-- The same with blanks in front, if the first field is not in quotation marks. -/
def Indented (fs : List (List Char)) (l : List Char) : Prop :=
  ∃ g t, l = g ++ t ∧ (∀ c ∈ g, Blank c) ∧ SpacedLine fs t ∧ (g = [] ∨ t.head? ≠ some '"')

/-- `t` is the text of an input file with blanks between the fields: perhaps some notes, the header, a line which begins with `ObjID` and has a blank and at least one more
letter or digit behind it, and rows with as many fields as there are names, the first of which, the ID, is not empty. -/
def BlankText (t : List Char) (names : List (List Char)) (rows : List (List (List Char))) : Prop :=
  ∃ notes header b rest lines, Glued (notes ++ header :: lines) t ∧ notes.length ≤ 101 ∧ (∀ l ∈ notes, Note Blank l) ∧ header = "ObjID".toList ++ b :: rest ∧ Blank b ∧
    (∃ c ∈ rest, c.isAlphanum = true) ∧ (∀ c ∈ rest, c ≠ '\n' ∧ c ≠ '\r') ∧ SpacedLine names header ∧ List.Forall₂ Indented rows lines ∧
    ∀ row ∈ rows, row.length = names.length ∧ row.headD [] ≠ []

/-- `t` is the text of an input file in the format with the given name. -/
def InputText (format : String) (t : List Char) (names : List (List Char)) (rows : List (List (List Char))) : Prop :=
  ((format = "csv" ∨ format = "comma") ∧ CommaText t names rows) ∨ (format = "whitespace" ∧ BlankText t names rows)

end Sorcha.Csv.Spec
