import Mathlib.Data.List.Basic
import Mathlib.Data.Int.Notation

/-!
# Specification: what a command line says

Nothing here refers to the functions of `Model.lean`.
-/

namespace Sorcha.Argv.Spec

/-! ## Any command -/

/-- All names of a command, with those of the help. -/
def allNamesOf {S : Type} (names : List (String × S)) : List String := "-h" :: "--help" :: names.map Prod.fst

/-- The text names the setting: in full, or as an abbreviation, which has two dashes and with which exactly one name begins. -/
def MeansIn {S : Type} (names : List (String × S)) (n : List Char) (s : S) : Prop :=
  (∃ m, (m, s) ∈ names ∧ n = m.toList) ∨
  (∃ m, (m, s) ∈ names ∧ "--".toList <+: n ∧ '=' ∉ n ∧ n <+: m.toList ∧ ∀ m' ∈ allNamesOf names, n <+: m'.toList → m' = m)

/-- A negative number: digits, with a point before the last of them perhaps; perhaps a line break. -/
def Negative (v : List Char) : Prop :=
  ∃ (whole frac brk : List Char), (∀ c ∈ whole ++ frac, '0' ≤ c ∧ c ≤ '9') ∧ frac ≠ [] ∧ (brk = [] ∨ brk = ['\n']) ∧
    (v = '-' :: frac ++ brk ∨ v = '-' :: whole ++ '.' :: frac ++ brk)

/-- The text can stand by itself as a value, given the names of the options: it does not begin with a dash, or is a single dash, or it is a negative number or has a
blank in it and it could not be an option: it is not the name of one, it does not begin with one of one letter, and if it begins with two dashes, what is before its
first equality sign is not the beginning of a name. -/
def Value (all : List String) (v : List Char) : Prop :=
  v.head? ≠ some '-' ∨ v = ['-'] ∨
  ((Negative v ∨ ' ' ∈ v) ∧ (∀ c rest, v = '-' :: c :: rest → c ≠ '-' → String.ofList ['-', c] ∉ all) ∧
    (∀ n, n ≠ [] → '=' ∉ n → "--".toList <+: n → (v = n ∨ n ++ ['='] <+: v) → ∀ m ∈ all, ¬ n <+: m.toList))

/-- A letter with which a switch is written. -/
def LetterIn {S : Type} (names : List (String × S)) (c : Char) (s : S) : Prop := (String.ofList ['-', c], s) ∈ names

/-- The arguments say these settings, in this order. -/
inductive SaysIn {S : Type} (names : List (String × S)) (Switch : S → Prop) : List (List Char) → List (S × List Char) → Prop
  /-- nothing -/
  | nil : SaysIn names Switch [] []
  /-- a switch by its name -/
  | switch {n s rest gs} : MeansIn names n s → Switch s → SaysIn names Switch rest gs → SaysIn names Switch (n :: rest) ((s, []) :: gs)
  /-- a name, and the value in the next argument -/
  | next {n s v rest gs} : MeansIn names n s → ¬ Switch s → Value (allNamesOf names) v → SaysIn names Switch rest gs → SaysIn names Switch (n :: v :: rest) ((s, v) :: gs)
  /-- a name, an equality sign and the value -/
  | equal {n s v rest gs} : MeansIn names n s → ¬ Switch s → SaysIn names Switch rest gs → SaysIn names Switch ((n ++ '=' :: v) :: rest) ((s, v) :: gs)
  /-- switches as letters behind one dash -/
  | letters {cs ss rest gs} : List.Forall₂ (LetterIn names) cs ss → (∀ s ∈ ss, Switch s) → cs ≠ [] → SaysIn names Switch rest gs →
      SaysIn names Switch (('-' :: cs) :: rest) (ss.map (fun s => (s, [])) ++ gs)
  /-- switches as letters, then a letter with a value, which is the next argument -/
  | lettersNext {cs ss c s v rest gs} : List.Forall₂ (LetterIn names) cs ss → (∀ s ∈ ss, Switch s) → LetterIn names c s → ¬ Switch s → Value (allNamesOf names) v → SaysIn names Switch rest gs →
      SaysIn names Switch (('-' :: cs ++ [c]) :: v :: rest) (ss.map (fun s => (s, [])) ++ (s, v) :: gs)
  /-- switches as letters, then a letter with its value behind an equality sign -/
  | lettersEqual {cs ss c s v rest gs} : List.Forall₂ (LetterIn names) cs ss → (∀ s ∈ ss, Switch s) → LetterIn names c s → ¬ Switch s → SaysIn names Switch rest gs →
      SaysIn names Switch (('-' :: cs ++ c :: '=' :: v) :: rest) (ss.map (fun s => (s, [])) ++ (s, v) :: gs)
  /-- switches as letters, then a letter with its value right behind it -/
  | lettersGlued {cs ss c s v rest gs} : List.Forall₂ (LetterIn names) cs ss → (∀ s ∈ ss, Switch s) → LetterIn names c s → ¬ Switch s → v ≠ [] → v.head? ≠ some '=' → SaysIn names Switch rest gs →
      SaysIn names Switch (('-' :: cs ++ c :: v) :: rest) (ss.map (fun s => (s, [])) ++ (s, v) :: gs)

/-- The value given last for a setting. -/
def lastOf {S : Type} [DecidableEq S] (gs : List (S × List Char)) (s : S) : Option String := ((gs.filter fun g => g.1 = s).getLast?).map fun g => String.ofList g.2

/-! ## `sorcha run` -/

/-- The settings of `sorcha run`. -/
inductive Setting
  | config | outfile | orbits | parameters | pointings | ephemRead | ephemWrite | dataPath | complex | force | survey | stem | quiet | stats | visits
deriving DecidableEq, Repr

/-- The names of the settings. -/
def names : List (String × Setting) := [
  ("-c", .config), ("--config", .config),
  ("-o", .outfile), ("--outfile", .outfile),
  ("--ob", .orbits), ("--orbits", .orbits),
  ("-p", .parameters), ("--physical-parameters", .parameters),
  ("--pd", .pointings), ("--pointing-db", .pointings),
  ("--er", .ephemRead), ("--ephem-read", .ephemRead),
  ("--ew", .ephemWrite), ("--ephem-write", .ephemWrite),
  ("--ar", .dataPath), ("--ar-data-path", .dataPath),
  ("--cp", .complex), ("--complex-physical-parameters", .complex),
  ("-f", .force), ("--force", .force),
  ("-s", .survey), ("--survey", .survey),
  ("-t", .stem), ("--stem", .stem),
  ("-l", .quiet), ("--log-level", .quiet),
  ("--st", .stats), ("--stats", .stats),
  ("--vd", .visits), ("--visits-db", .visits)]

/-- All names, with those of the help. -/
abbrev allNames : List String := allNamesOf names

/-- Settings that take no value. -/
def Switch (s : Setting) : Prop := s = .force ∨ s = .quiet

/-- The text names the setting. -/
abbrev Means : List Char → Setting → Prop := MeansIn names

/-- A letter with which a switch is written. -/
abbrev Letter : Char → Setting → Prop := LetterIn names

/-- The arguments say these settings, in this order. -/
abbrev Says : List (List Char) → List (Setting × List Char) → Prop := SaysIn names Switch

/-- The value given last for a setting. -/
abbrev last (gs : List (Setting × List Char)) (s : Setting) : Option String := lastOf gs s

/-- Settings without which `sorcha run` does not start. -/
def needed : List Setting := [.config, .outfile, .orbits, .parameters, .pointings]

end Sorcha.Argv.Spec
