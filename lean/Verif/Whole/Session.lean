import Verif.Whole.SpecSession
import Verif.Whole.Props10

/-!
# Model and lemmas: the logs of runs on the disk
-/

namespace Sorcha.Whole

open Sorcha.Csv (Str)
open Sorcha.History (Disk)

/-- The name of a log: stem, time, process and kind, sorchaGetLogger.py:52-56; `os.path.join` with a directory whose name does not end with a slash. -/
def loggedAt (dir stem stamp pid kind : String) : String := dir ++ "/" ++ stem ++ "-" ++ stamp ++ "-p" ++ pid ++ "-" ++ kind

/-- A run with its log and its log of errors, run.py:160-161. -/
structure Attempt (World : Type) extends Props.Begun World where
  args : Cli.Args
  verbose : Bool
  stamp : String
  pid : String
  errors : List Char

variable {World : Type}

/-- The log, `"sorcha.log"`, sorchaGetLogger.py:11. -/
def Attempt.logPath (x : Attempt World) : String := loggedAt x.args.o x.args.t x.stamp x.pid "sorcha.log"
/-- The log of errors, `"sorcha.err"`, sorchaGetLogger.py:12. -/
def Attempt.errPath (x : Attempt World) : String := loggedAt x.args.o x.args.t x.stamp x.pid "sorcha.err"

/-- Both files are opened anew (`mode="w"`) before the arguments are checked, run.py:160-171, sorchaGetLogger.py:58-66. -/
def Attempt.opened (x : Attempt World) (d : Disk) : Disk := (d.put x.logPath (.text [])).put x.errPath (.text [])
/-- What is in them in the end. (A file that the run itself has deleted is not there again; the theorems are about names for which this does not happen.) -/
def Attempt.closed (x : Attempt World) (d : Disk) : Disk := (d.put x.logPath (.text x.log)).put x.errPath (.text x.errors)

/-- Runs one after another, each of which finds the files, with the logs, that the ones before have left. Runs whose arguments are not understood or whose output directory does
not exist have no log and change nothing; they are left out. -/
inductive Session (run : World → List Str → Disk → Disk → List Char → History.Outcome → Prop) : List (Attempt World) → Disk → Disk → Prop
  | nil {d : Disk} : Session run [] d d
  | cons {x : Attempt World} {xs : List (Attempt World)} {d d' : Disk} (hargs : Argv.parseRun x.argv = .ok (x.args, x.verbose)) (hpath : x.path = x.logPath)
      (hbefore : x.before = x.opened d) (hrun : run x.world x.argv x.before x.after x.log x.outcome) (hrest : Session run xs (x.closed x.after) d') :
      Session run (x :: xs) d d'

/-- The disk as `check-logs` sees it: databases are files too, with some contents. -/
def asFiles (dirs : String → Bool) (bytes : History.Content → List Char) (d : Disk) : Setup.Disk := fun p =>
  match d.get p with
  | some (.text t) => some (.file t)
  | some c => some (.file (bytes c))
  | none => if dirs p then some .dir else none

namespace Props

open Sorcha.History (get_put_self get_put_ne)

/-! ## Names -/

theorem loggedAt_chars (dir stem stamp pid kind : String) : (loggedAt dir stem stamp pid kind).toList =
    ((dir.toList ++ '/' :: stem.toList) ++ '-' :: stamp.toList) ++ ['-', 'p'] ++ pid.toList ++ '-' :: kind.toList := by
  simp [loggedAt, String.toList_append]

/-- Where the two last characters that are not digits are, is determined. -/
theorem digits_split {a b p q : List Char} (hp : ∀ c ∈ p, c.isDigit = true) (hq : ∀ c ∈ q, c.isDigit = true) (h : a ++ ['-', 'p'] ++ p = b ++ ['-', 'p'] ++ q) : a = b ∧ p = q := by
  induction p using List.reverseRecOn generalizing q with
  | nil =>
    rcases List.eq_nil_or_concat q with rfl | ⟨q', c, rfl⟩
    · simp only [List.append_nil] at h
      exact ⟨List.append_cancel_right h, rfl⟩
    · exfalso
      have e : (a ++ ['-']) ++ ['p'] = (b ++ ['-', 'p'] ++ q') ++ [c] := by
        simpa [List.concat_eq_append, List.append_assoc] using h
      have := (List.append_inj' e rfl).2
      simp only [List.cons.injEq, and_true] at this
      have hc := hq c (by simp [List.concat_eq_append])
      rw [← this] at hc
      exact absurd hc (by decide)
  | append_singleton p' c ih =>
    rcases List.eq_nil_or_concat q with rfl | ⟨q', c', rfl⟩
    · exfalso
      have e : (a ++ ['-', 'p'] ++ p') ++ [c] = (b ++ ['-']) ++ ['p'] := by
        simpa [List.append_assoc] using h
      have := (List.append_inj' e rfl).2
      simp only [List.cons.injEq, and_true] at this
      have hc := hp c (by simp)
      rw [this] at hc
      exact absurd hc (by decide)
    · rw [List.concat_eq_append] at h hq ⊢
      rw [← List.append_assoc, ← List.append_assoc] at h
      obtain ⟨e1, e2⟩ := List.append_inj' h rfl
      obtain ⟨i1, i2⟩ := ih (fun x hx => hp x (by simp [hx])) (fun x hx => hq x (by simp [hx])) e1
      exact ⟨i1, by rw [i2, e2]⟩

theorem logged_inj {dir stem stamp pid dir' stem' stamp' pid' kind : String} (h1 : Spec.Stamp stamp) (h2 : Spec.Stamp stamp') (h3 : Spec.Decimal pid) (h4 : Spec.Decimal pid')
    (h : loggedAt dir stem stamp pid kind = loggedAt dir' stem' stamp' pid' kind) : dir ++ "/" ++ stem = dir' ++ "/" ++ stem' ∧ stamp = stamp' ∧ pid = pid' := by
  have h := congrArg String.toList h
  rw [loggedAt_chars, loggedAt_chars] at h
  obtain ⟨e, e4⟩ := digits_split h3 h4 (List.append_cancel_right h)
  obtain ⟨e1, e2⟩ := List.append_inj' e (by simp only [List.length_cons, h1.1, h2.1])
  refine ⟨?_, String.toList_inj.1 (List.cons.inj e2).2, String.toList_inj.1 e4⟩
  rw [← String.toList_inj]
  simpa [String.toList_append] using e1

theorem log_ne_err {dir stem stamp pid dir' stem' stamp' pid' : String} : loggedAt dir stem stamp pid "sorcha.log" ≠ loggedAt dir' stem' stamp' pid' "sorcha.err" := by
  intro h
  have h := congrArg String.toList h
  rw [loggedAt_chars, loggedAt_chars] at h
  have e := (List.append_inj' h (by decide)).2
  exact absurd e (by decide)

/-- A log is not one of the files of a stem, unless the stem ends like the name of a log. -/
theorem log_not_belongs {dir stem stamp pid dir' stem' : String} {ext : List Char} (hdot : '.' ∉ stem.toList) (hs : Spec.Stamp stamp) (hp : Spec.Decimal pid)
    (hext : '.' ∉ ext) (hslash : '/' ∉ ext) {kind : String} (hkind : kind.toList = "sorcha".toList ++ '.' :: ext) (hb : Cli.Spec.BelongsTo dir' stem' (loggedAt dir stem stamp pid kind)) :
    "-sorcha".toList <:+ stem'.toList := by
  obtain ⟨x, hx, h⟩ := hb
  have h := congrArg String.toList h
  rw [loggedAt_chars, hkind] at h
  simp only [String.toList_append] at h
  have hbase : '.' ∉ stem.toList ++ '-' :: stamp.toList ++ ['-', 'p'] ++ pid.toList ++ "-sorcha".toList := by
    intro hm
    simp only [List.mem_append, List.mem_cons, List.not_mem_nil, or_false] at hm
    rcases hm with (((hm | hm) | hm) | hm) | hm
    · exact hdot hm
    · rcases hm with hm | hm
      · exact absurd hm (by decide)
      · rcases hs.2 _ hm with h | h <;> exact absurd h (by decide)
    · rcases hm with hm | hm <;> exact absurd hm (by decide)
    · exact absurd (hp _ hm) (by decide)
    · revert hm; decide
  have e : (dir.toList ++ '/' :: (stem.toList ++ '-' :: stamp.toList ++ ['-', 'p'] ++ pid.toList ++ "-sorcha".toList)) ++ ['.'] ++ ext =
      (dir'.toList ++ '/' :: stem'.toList) ++ ['.'] ++ x.toList := by
    have e0 : "-sorcha".toList = '-' :: "sorcha".toList := by decide
    rw [e0]
    simpa [List.append_assoc] using h
  have hsplit : ∀ (a b u v : List Char), a ++ ['.'] ++ u = b ++ ['.'] ++ v → '.' ∉ u → (∃ m, a = b ++ '.' :: m ∧ v = m ++ '.' :: u) ∨ (a = b ∧ u = v) := by
    intro a b u v h hu
    have h' : a ++ ('.' :: u) = b ++ ('.' :: v) := by simpa [List.append_assoc] using h
    rcases List.append_eq_append_iff.1 h' with ⟨m, h1, h2⟩ | ⟨m, h1, h2⟩
    · cases m with
      | nil => exact .inr ⟨by simpa using h1.symm, by simpa using h2⟩
      | cons c m =>
        simp only [List.cons_append, List.cons.injEq] at h2
        exfalso
        apply hu
        rw [h2.2]
        simp
    · cases m with
      | nil => exact .inr ⟨by simpa using h1, by simpa using h2.symm⟩
      | cons c m =>
        simp only [List.cons_append, List.cons.injEq] at h2
        exact .inl ⟨m, by rw [h1, ← h2.1], h2.2⟩
  rcases hsplit _ _ _ _ e hext with ⟨m, h1, h2⟩ | ⟨h1, -⟩
  · exfalso
    have hm : '/' ∉ m := fun hc => hx (by rw [h2]; simp [hc])
    rcases List.append_eq_append_iff.1 h1 with ⟨k, k1, k2⟩ | ⟨k, k1, k2⟩
    · rcases List.cons_eq_append_iff.1 k2 with ⟨rfl, k3⟩ | ⟨k', rfl, k3⟩
      · simp at k3
      · exact hbase (by rw [k3]; simp)
    · rcases List.cons_eq_append_iff.1 k2 with ⟨-, k3⟩ | ⟨k', rfl, k3⟩
      · simp at k3
      · exact hm (by rw [k3]; simp)
  · have hsuf : "-sorcha".toList <:+ dir'.toList ++ '/' :: stem'.toList :=
      ⟨dir.toList ++ '/' :: (stem.toList ++ '-' :: stamp.toList ++ ['-', 'p'] ++ pid.toList), by rw [← h1]; simp [List.append_assoc]⟩
    rcases List.suffix_or_suffix_of_suffix hsuf (show '/' :: stem'.toList <:+ dir'.toList ++ '/' :: stem'.toList from ⟨_, rfl⟩) with h2 | h2
    · rcases List.suffix_cons_iff.1 h2 with h3 | h3
      · exact absurd h3 (by intro h; have := (List.cons.inj (h : '-' :: _ = _)).1; exact absurd this (by decide))
      · exact h3
    · exfalso
      have : '/' ∈ "-sorcha".toList := h2.subset (List.mem_cons_self ..)
      revert this; decide

end Props

end Sorcha.Whole
