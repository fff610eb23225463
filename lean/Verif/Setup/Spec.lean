import Verif.Setup.Model
import Mathlib.Data.Set.Finite.Basic

/-!
# Specification: the commands that prepare a simulation
-/

namespace Sorcha.Setup.Spec

/-- The directory the files go to. -/
def target : Command → String
  | .init dir _ _ => dir
  | .demo dir _ => dir

/-- Whether `-f` was given. -/
def forced : Command → Bool
  | .init _ _ f => f
  | .demo _ f => f

/-- What the menu of `sorcha init` offers under a number. -/
def menu : ℤ → List String
  | 1 => ["Rubin_circular_approximation.ini"]
  | 2 => ["Rubin_full_footprint.ini"]
  | 3 => ["Rubin_known_object_prediction.ini"]
  | 4 => ["DES_config_file.ini"]
  | 5 => ["Rubin_circular_approximation.ini", "Rubin_full_footprint.ini", "Rubin_known_object_prediction.ini", "DES_config_file.ini"]
  | _ => []

/-- The files of the demo. -/
def demoFiles : List String := ["sorcha_config_demo.ini", "sspp_testset_colours.txt", "sspp_testset_orbits.des", "baseline_v2.0_1yr.db"]

/-- The names of the files a command is asked for. -/
def wanted (int : String → Option ℤ) : Command → List String
  | .init _ answer _ => (int answer).elim [] menu
  | .demo _ _ => demoFiles

/-- The answer is one of the numbers of the menu. -/
def Understood (int : String → Option ℤ) : Command → Prop
  | .init _ answer _ => ∃ n : ℤ, int answer = some n ∧ 1 ≤ n ∧ n ≤ 5
  | .demo _ _ => True

/-- A disk on which a command may leave things: it was ended at some moment, or it ended by itself. -/
def Seen {α : Type} (r : Ran α) (s : Disk) : Prop := s ∈ r.passed ∨ s = r.disk

/-- `s` is left after any number of commands, each of which may have been ended at any moment. -/
inductive Left (int : String → Option ℤ) (package : String → List Char) (d : Disk) : Disk → Prop
  | start : Left int package d d
  | next {s t : Disk} (c : Command) (h : Left int package d s) (ht : Seen (c.run int package s) t) : Left int package d t

/-! ## check-logs -/

/-- `p` lies in the directory `root` or below it. -/
def Below (root p : String) : Prop := ∃ rest : String, p = join root rest

/-- There is a file at `p`. -/
def FileAt (d : Disk) (p : String) : Prop := ∃ t, d p = some (.file t)

/-- `os.walk` as documented: it lists the files below the root, each of them once, by directory and name. -/
structure Lists (listing : List (String × List String)) (root : String) (d : Disk) : Prop where
  names : ∀ e ∈ listing, ∀ name ∈ e.2, '/' ∉ name.toList
  files : ∀ p, (∃ e ∈ listing, ∃ name ∈ e.2, p = join e.1 name) ↔ FileAt d p ∧ Below root p
  once : (listing.flatMap fun e => e.2.map (join e.1)).Nodup

/-- A disk holds finitely many files. -/
def Finite (d : Disk) : Prop := {p | d p ≠ none}.Finite

/-- `os.walk` does this on every disk. -/
def WalkSound (walk : Walk) : Prop := ∀ root d, Finite d → Lists (walk root d) root d

/-- `p` is a log file below `root`. -/
def IsLog (d : Disk) (root p : String) : Prop := FileAt d p ∧ Below root p ∧ "sorcha.log".toList <:+ p.toList

/-- `l` is the last line of the text: what follows the last line boundary but one, or the last if the text does not end with one. -/
def LastLine (br : Char → Bool) (text l : List Char) : Prop :=
  ∃ before rest, text = before ++ l ++ rest ∧ (∀ c ∈ l, br c = false) ∧ (before = [] ∨ ∃ b c, before = b ++ [c] ∧ br c = true) ∧
    ((rest = [] ∧ l ≠ []) ∨ ∃ c, br c = true ∧ rest = [c])

/-- The row of the report for a log: successful iff the last line ends with the completion message; otherwise the last line is quoted. -/
def RowFor (br : Char → Bool) (d : Disk) (r : LogRow) : Prop :=
  ∃ text l, d r.filename = some (.file text) ∧ LastLine br text l ∧
    (("Sorcha process is completed. ".toList <:+ l ∧ r.successful = true ∧ r.lastline = [' ']) ∨
      (¬ "Sorcha process is completed. ".toList <:+ l ∧ r.successful = false ∧ r.lastline = l))

/-- The report on the runs below a directory: one row per log, in the order of the paths. -/
structure Report (br : Char → Bool) (d : Disk) (root : String) (rows : List LogRow) : Prop where
  logs : ∀ p, p ∈ rows.map (·.filename) ↔ IsLog d root p
  sorted : (rows.map (·.filename)).Pairwise (· < ·)
  rows : ∀ r ∈ rows, RowFor br d r

end Sorcha.Setup.Spec
