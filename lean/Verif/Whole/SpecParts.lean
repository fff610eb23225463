import Verif.Whole.SpecDb

/-!
# Specification: one population in several runs

Nothing here refers to the functions of `Whole/Model.lean`.
-/

namespace Sorcha.Whole.Spec

open Sorcha.Readers (Rec)
open Sorcha.History (Disk)
open Sorcha.Output (Cell)

/-- A run: its arguments, as given and as understood, the files before and after it, its log, its chunk size, and what is in its input files: the orbits, the other
tables of the objects, and the ephemerides, if they are given. -/
structure Run where
  argv : List Str
  args : Cli.Args
  verbose : Bool
  before : Disk
  after : Disk
  log : List Char
  chunk : ℤ
  orb : List (Rec Str)
  others : List (List (Rec Str))
  eph : List (Rec Str)

/-- The settings `c`, but for the chunk size. -/
def sized (c : Config.Cfg) (n : ℤ) : Config.Cfg := { c with input := { c.input with chunk := n } }

/-- The objects of a run. -/
def Run.ids (r : Run) : List String := r.orb.map (·.id)

/-- The objects of the whole run are divided among the parts: each object is in the inputs of just one part, with the rows it has in the tables of the whole run. -/
structure Divided (whole : Run) (parts : List Run) : Prop where
  rows : ∀ p ∈ parts, List.Forall₂ (fun t t' => ∀ x ∈ t, x ∈ t') (p.orb :: p.others) (whole.orb :: whole.others)
  objects : (parts.flatMap Run.ids).Perm whole.ids

/-- Each part has the ephemerides of its objects, in the order they have in the whole; it may have those of other objects too. -/
def SameEphemerides (whole : Run) (parts : List Run) : Prop :=
  ∀ p ∈ parts, ∀ id ∈ p.ids, (p.eph.filter fun r => r.id = id) = whole.eph.filter fun r => r.id = id

/-- A file of results and the files of the parts (`none`: no file), as texts: all are missing; or the lines of the file are those of the files there are, in some order,
and all of them have the same header. -/
def LinesTogether (read : Str → Option (List (List Str))) (file : Option History.Content) (files : List (Option History.Content)) : Prop :=
  (file = none ∧ ∀ f ∈ files, f = none) ∨
  ∃ t header lines parts, file = some (.text t) ∧ read t = some (header :: lines) ∧ lines.Perm parts.flatten ∧
    List.Forall₂ (fun f part => (f = none ∧ part = []) ∨ ∃ t', f = some (.text t') ∧ read t' = some (header :: part)) files parts

/-- The same for databases. -/
def TableTogether (file : Option History.Content) (files : List (Option History.Content)) : Prop :=
  (file = none ∧ ∀ f ∈ files, f = none) ∨
  ∃ cols lines parts, file = some (.db (some (cols, lines)) ["ObjID", "fieldMJD_TAI", "optFilter"]) ∧ lines ≠ [] ∧ (∀ l ∈ lines, l.length = cols.length) ∧ lines.Perm parts.flatten ∧
    List.Forall₂ (fun f part => (f = none ∧ part = []) ∨ f = some (.db (some (cols, part)) ["ObjID", "fieldMJD_TAI", "optFilter"])) files parts

/-- Runs one after another, from the files `e` to the files `d`. -/
inductive FollowFrom : Disk → List Run → Disk → Prop
  | done (d : Disk) : FollowFrom d [] d
  | next {r : Run} {rs : List Run} {d : Disk} : FollowFrom r.after rs d → FollowFrom r.before (r :: rs) d

/-- Runs one after another that leave the files `d`. -/
def Follow (rs : List Run) (d : Disk) : Prop := ∃ e, FollowFrom e rs d

/-- The path `p` is one of a database in `dir` or a directory below it, with a name that begins with `stem`. Directories whose names begin with a dot are left aside, and so
are such databases if the stem does not begin with a dot. -/
def Below (dir stem p : String) : Prop :=
  ∃ (subs : List String) (name : String), p = dir ++ "/" ++ String.join (subs.map (· ++ "/")) ++ stem ++ name ++ ".db" ∧
    (∀ s ∈ subs, s ≠ "" ∧ '/' ∉ s.toList ∧ s.toList.head? ≠ some '.') ∧ '/' ∉ name.toList ∧ (stem ++ name ++ ".db").toList.head? ≠ (if stem = "" then some '.' else none)

/-- What `glob.glob` is relied on for: below the directory it finds each database whose name begins with the stem once, and nothing else. (It does so when no character of
the two stands for others in a pattern.) -/
def Finds (glob : String → List String) (exist : String → Bool) (dir stem : String) : Prop :=
  (glob (dir ++ "/**/" ++ stem ++ "*.db")).Nodup ∧ ∀ p, p ∈ glob (dir ++ "/**/" ++ stem ++ "*.db") ↔ exist p ∧ Below dir stem p

end Sorcha.Whole.Spec
