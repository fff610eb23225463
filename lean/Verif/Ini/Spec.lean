import Verif.Config.Spec

/-!
# What the text of a configuration file says

The layout of a configuration file as the documentation and the shipped files use it: sections in brackets, settings `key = value` or
`key: value`, comment lines, empty lines, and values that go on in indented lines. Section headers and settings start in the first column.
Nothing here refers to how the file is read.
-/

namespace Sorcha.Ini.Spec

open Sorcha.Config.Spec (Space)

/-- A line without its end. -/
abbrev Line := List Char

/-- Nothing but white space. -/
def Spaces (w : Line) : Prop := ∀ c ∈ w, Space c

/-- No white space at the end. -/
def EndsInk (v : Line) : Prop := ∀ c, v.getLast? = some c → ¬Space c

/-- No white space at either end. -/
def Trimmed (v : Line) : Prop := (∀ c, v.head? = some c → ¬Space c) ∧ EndsInk v

/-- A comment: the first character that is not white space is `#` or `;`. -/
def Comment (l : Line) : Prop := ∃ pad c rest, l = pad ++ c :: rest ∧ Spaces pad ∧ (c = '#' ∨ c = ';')

/-- A line that says nothing. -/
def Noise (l : Line) : Prop := Spaces l ∨ Comment l

/-- `[name]`, in the first column. -/
def Header (name l : Line) : Prop := ∃ post, l = '[' :: name ++ ']' :: post ∧ Spaces post ∧ name ≠ [] ∧ ']' ∉ name

/-- What can be a key: it has no delimiter in it and does not look like a comment or a header. -/
structure Key (k : Line) : Prop where
  trimmed : Trimmed k
  delim : '=' ∉ k ∧ ':' ∉ k
  head : ∃ c, k.head? = some c ∧ c ≠ '#' ∧ c ≠ ';' ∧ c ≠ '['

/-- `key = text` or `key: text`, in the first column. -/
def Setting (k text l : Line) : Prop :=
  ∃ w₁ d w₂ w₃, l = k ++ w₁ ++ d :: w₂ ++ text ++ w₃ ∧ Spaces w₁ ∧ Spaces w₂ ∧ Spaces w₃ ∧ (d = '=' ∨ d = ':') ∧ Key k ∧ Trimmed text

/-- The lines after a setting up to the next one, and what they add to the text of its value: comments nothing, an empty line a line break, an indented line
a line break and its text. -/
inductive Tail : List Line → Line → Prop
  | nil : Tail [] []
  | comment {l ls t} (h : Comment l) (r : Tail ls t) : Tail (l :: ls) t
  | blank {l ls t} (h : Spaces l) (r : Tail ls t) : Tail (l :: ls) ('\n' :: t)
  | more {pad x post ls t} (hp : Spaces pad) (hne : pad ≠ []) (hq : Spaces post) (hx : Trimmed x)
      (hc : ∃ c, x.head? = some c ∧ c ≠ '#' ∧ c ≠ ';') (r : Tail ls t) : Tail ((pad ++ x ++ post) :: ls) ('\n' :: x ++ t)

/-- What the text of a value means: `%%` stands for a per cent sign, and there are no other per cent signs. -/
inductive Meaning : Line → Line → Prop
  | nil : Meaning [] []
  | char {c r t} (h : c ≠ '%') (m : Meaning r t) : Meaning (c :: r) (c :: t)
  | percent {r t} (m : Meaning r t) : Meaning ('%' :: '%' :: r) ('%' :: t)

/-- The settings of a section: key and value in the order of the file. White space at the end of a value does not count. -/
inductive Body : List Line → List (Line × Line) → Prop
  | nil : Body [] []
  | setting {k text l ls t raw w v rest os} (h : Setting k text l) (ht : Tail ls t) (hv : text ++ t = raw ++ w) (hw : Spaces w)
      (he : EndsInk raw) (hm : Meaning raw v) (r : Body rest os) : Body (l :: ls ++ rest) ((k, v) :: os)

/-- The sections of a file. -/
inductive Sections : List Line → List (Line × List (Line × Line)) → Prop
  | nil : Sections [] []
  | cons {name l noise ls rest os ss} (h : Header name l) (hn : ∀ x ∈ noise, Noise x) (hb : Body ls os) (r : Sections rest ss) :
      Sections (l :: noise ++ ls ++ rest) ((name, os) :: ss)

/-- The text has these sections with these settings. There is no section `DEFAULT`. -/
def Text (lines : List Line) (ss : List (Line × List (Line × Line))) : Prop :=
  (∃ noise rest, lines = noise ++ rest ∧ (∀ x ∈ noise, Noise x) ∧ Sections rest ss) ∧ ∀ s ∈ ss, s.1 ≠ "DEFAULT".toList

/-- No section occurs twice, and no key occurs twice in a section, in whatever case it is written. -/
def Distinct (lower : String → String) (ss : List (Line × List (Line × Line))) : Prop :=
  (ss.map Prod.fst).Nodup ∧ ∀ s ∈ ss, (s.2.map fun o => lower (String.ofList o.1)).Nodup

/-- The sections that have a meaning. -/
inductive Known : String → Prop
  | i : Known "INPUT" | si : Known "SIMULATION" | f : Known "FILTERS" | sa : Known "SATURATION" | p : Known "PHASECURVES" | fo : Known "FOV"
  | fa : Known "FADINGFUNCTION" | l : Known "LINKINGFILTER" | o : Known "OUTPUT" | lc : Known "LIGHTCURVE" | a : Known "ACTIVITY"
  | e : Known "EXPERT" | au : Known "AUXILIARY"

end Sorcha.Ini.Spec
