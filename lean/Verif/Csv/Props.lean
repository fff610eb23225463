import Verif.Csv.Lemmas
import Verif.History.Examples

/-!
# Properties: the text of CSV files (C83)
-/

namespace Sorcha.Csv.Props

open Sorcha.Csv.Spec
open Sorcha.Output (Frame Cell CsvLine)
open Sorcha.History (Job Disk Lines Content Runs Series)

/-- C83: whatever the fields are (commas, quotes, line ends, blanks, any other characters), a table written to a file is read back field by field. -/
theorem C83_read_back (rows : List (List Str)) (hv : ∀ row ∈ rows, Visible row) : read (rows.flatMap record) = some rows := by
  unfold read
  rw [show rows.flatMap record = rows.flatMap fun row => body row ++ ['\n'] from rfl, run_lines (Or.inl rfl) rows hv]
  rfl

/-- C83 (the ephemerides): and so is the table that the generator of ephemerides collects in memory. -/
theorem C83_ephemerides (rows : List (List Str)) (hv : ∀ row ∈ rows, Visible row) : read (rows.flatMap memoryRecord) = some rows := by
  unfold read
  rw [show rows.flatMap memoryRecord = rows.flatMap fun row => body row ++ ['\r', '\n'] from rfl, run_lines (Or.inr rfl) rows hv]
  rfl

/-- C83 (cut anywhere): let a file be an initial part of such a text, as an interrupted run leaves it. The lines that are complete are read back, in order; of the line
that is cut a line cut short is read, but nothing if it has only blanks; or the file is refused, but only if there is a quotation mark in what is left of that line. -/
theorem C83_cut (rows : List (List Str)) (hv : ∀ row ∈ rows, Visible row) (p : Str) (hp : p <+: rows.flatMap record) :
    ∃ done rest tail, rows = done ++ rest ∧ p = done.flatMap record ++ tail ∧
      ((tail = [] ∧ read p = some done) ∨
        ∃ row rest', rest = row :: rest' ∧ tail <+: record row ∧ tail ≠ record row ∧
          (('"' ∈ tail ∧ read p = none) ∨ ((∀ c ∈ tail, c = ' ' ∨ c = '\t') ∧ read p = some done) ∨ ∃ part, CutShort part row ∧ read p = some (done ++ [part]))) := by
  obtain ⟨done, rest, tail, h1, h2, h3⟩ := read_lines_part rows hv p hp []
  exact ⟨done, rest, tail, h1, h2, by simpa [read, Blanks] using h3⟩

/-- The lines of tables, as fields: the header of the first table, then the rows of all. -/
def linesOf (shown : Cell → Str) : List Frame → List (List Str)
  | [] => []
  | f :: fs => f.cols.map String.toList :: (f :: fs).flatMap fun g => g.cells.map fun cells => cells.map shown

theorem csvOf_lines (shown : Cell → Str) (f : Frame) (fs : List Frame) :
    History.Spec.csvOf (line shown) (f :: fs) = some (.text ((linesOf shown (f :: fs)).flatMap record)) := by
  have h : ∀ gs : List Frame, (gs.flatMap fun g => g.cells.flatMap fun cells => line shown (.row cells)) =
      (gs.flatMap fun g => g.cells.map fun cells => cells.map shown).flatMap record := by
    intro gs
    rw [List.flatMap_assoc]
    congr 1
    funext g
    rw [List.flatMap_map]
    rfl
  simp only [History.Spec.csvOf, linesOf, List.flatMap_cons (f := record), ← h]
  rfl

/-- The CSV files of a run, how their lines are written, and the tables that belong in them. -/
inductive CsvFile (ls : Lines) (j : Job) : String → (CsvLine → Str) → List Frame → Prop
  | results (h : j.format = .csv) : CsvFile ls j (History.Spec.resultsPath j) ls.output (History.Spec.results j)
  | ephemerides (n : String) (hn : j.args.ew = some n) (hne : n ≠ "") :
      CsvFile ls j (j.args.o ++ "/" ++ n ++ ".csv") ls.ephemeris (History.Spec.ephemerides j)
  | statistics (n : String) (hn : j.args.st = some n) : CsvFile ls j (j.args.o ++ "/" ++ n ++ ".csv") ls.stats (History.Spec.statistics j)

variable {exist isDir : String → Bool} {g : Cli.Glob} {ls : Lines}

/-- C83 (after any history): let a run finish, after any number of runs with the same output names (see C65). Then each of its CSV files, read back, has the header of
the first table that belongs in it and the rows of all of them, in order, each field as it was written. -/
theorem C83_history (hg : Cli.Spec.GlobSound g) {j : Job} (hd : History.Spec.NamesDiffer j.args) {js : List Job}
    (hj : ∀ i ∈ js, History.Spec.SameNames j.args i.args) {d0 d1 d2 : Disk} (hone : History.Spec.AtMostOne j.args d0)
    (hist : Series false exist isDir g ls js d0 d1) {log : List Char} (h : Runs false exist isDir g ls j d1 d2 log .finished)
    {p : String} {l : CsvLine → Str} {f : Frame} {fs : List Frame} (hp : CsvFile ls j p l (f :: fs)) {shown : Cell → Str} (hline : l = line shown)
    (hv : ∀ row ∈ linesOf shown (f :: fs), Visible row) :
    ∃ t, d2.get p = some (.text t) ∧
      read t = some (f.cols.map String.toList :: (f :: fs).flatMap fun g => g.rows.map fun r => g.cols.map fun c => shown (r c)) := by
  have hc : d2.get p = History.Spec.csvOf l (f :: fs) := by
    refine History.Props.C65_history hg hd hj hone hist h _ _ ?_
    generalize hfs : f :: fs = frames at hp
    cases hp with
    | results h => exact .results h
    | ephemerides n hn hne => exact .ephemeris n hn hne
    | statistics n hn => exact .stats n hn
  rw [hline, csvOf_lines] at hc
  refine ⟨_, hc, ?_⟩
  rw [C83_read_back _ hv]
  simp [linesOf, Output.Frame.cells, Function.comp_def]

/-- C83 (every crash point): if that run stops somewhere, each of its CSV files is not there, or is refused when it is read, or is read as the first of those lines,
with perhaps the next line cut short behind them. -/
theorem C83_interrupted (hg : Cli.Spec.GlobSound g) {j : Job} (hd : History.Spec.NamesDiffer j.args) {js : List Job}
    (hj : ∀ i ∈ js, History.Spec.SameNames j.args i.args) {d0 d1 d2 : Disk} (hone : History.Spec.AtMostOne j.args d0)
    (hist : Series false exist isDir g ls js d0 d1) {log : List Char} {out : History.Outcome} (h : Runs false exist isDir g ls j d1 d2 log out)
    (hout : out ≠ .refused)
    {p : String} {l : CsvLine → Str} {f : Frame} {fs : List Frame} (hp : CsvFile ls j p l (f :: fs)) {shown : Cell → Str} (hline : l = line shown)
    (hv : ∀ row ∈ linesOf shown (f :: fs), Visible row) :
    d2.get p = none ∨ ∃ t, d2.get p = some (.text t) ∧
      (read t = none ∨ ∃ done rest, linesOf shown (f :: fs) = done ++ rest ∧
        (read t = some done ∨ ∃ row rest' part, rest = row :: rest' ∧ CutShort part row ∧ read t = some (done ++ [part]))) := by
  have hc : History.Spec.TextStage (d2.get p) (History.Spec.csvOf l (f :: fs)) := by
    have := History.Props.C65_interrupted hg hd hj hone hist h hout
    generalize hfs : f :: fs = frames at hp
    cases hp with
    | results h => exact this.1 h
    | ephemerides n hn hne => exact this.2.2.1 n hn hne
    | statistics n hn => exact this.2.2.2.1 n hn
  rw [hline, csvOf_lines] at hc
  rcases hc with hc | ⟨t, w, h1, h2, h3⟩
  · exact Or.inl hc
  · right
    refine ⟨t, h1, ?_⟩
    cases h2
    obtain ⟨done, rest, tail, e1, e2, e3⟩ := C83_cut _ hv t h3
    rcases e3 with ⟨-, e⟩ | ⟨row, rest', e4, -, -, ⟨-, e⟩ | ⟨-, e⟩ | ⟨part, e5, e6⟩⟩
    · exact Or.inr ⟨done, rest, e1, Or.inl e⟩
    · exact Or.inl e
    · exact Or.inr ⟨done, rest, e1, Or.inl e⟩
    · exact Or.inr ⟨done, rest, e1, Or.inr ⟨row, rest', part, e4, e5, e6⟩⟩

/-! ## Concrete cases -/

/-- A comet with a comma in its name, a name with quotes, an empty field, a line end inside a field. -/
def table : List (List Str) :=
  [["ObjID".toList, "mag".toList, "note".toList], ["C/2014 UN271, \"BB\"".toList, "21.5".toList, "".toList], ["  x".toList, "".toList, "two\nlines".toList]]

theorem table_visible : ∀ row ∈ table, Visible row := by
  intro row h
  simp only [table, List.mem_cons, List.not_mem_nil, or_false] at h
  left
  rcases h with rfl | rfl | rfl <;> simp

example : table.flatMap record =
    "ObjID,mag,note\n\"C/2014 UN271, \"\"BB\"\"\",21.5,\n  x,,\"two\nlines\"\n".toList := by decide +kernel
example : read (table.flatMap record) = some table := C83_read_back table table_visible
example : read (table.flatMap memoryRecord) = some table := C83_ephemerides table table_visible

/-- A file cut in the middle of a row: the header, and a row cut short. -/
example : read "ObjID,mag,note\n\"C/2014 UN271, \"\"BB\"\"\",21".toList =
    some [["ObjID".toList, "mag".toList, "note".toList], ["C/2014 UN271, \"BB\"".toList, "21".toList]] := by decide +kernel

/-- A file cut within quotes: refused. -/
example : read "ObjID,mag,note\n\"C/2014 UN271, ".toList = none := by decide +kernel

/-- C83 fails (cut numbers): the last number of a file that was cut is read as another number: 21.5 as 21, without any sign of it. -/
theorem C83_number_fails : ∃ (rows : List (List Str)) (p : Str), (∀ row ∈ rows, Visible row) ∧ p <+: rows.flatMap record ∧
    rows = [["ObjID".toList, "mag".toList], ["a".toList, "21.5".toList]] ∧ read p = some [["ObjID".toList, "mag".toList], ["a".toList, "21".toList]] := by
  refine ⟨_, "ObjID,mag\na,21".toList, ?_, ?_, rfl, by decide +kernel⟩
  · intro row h
    simp only [List.mem_cons, List.not_mem_nil, or_false] at h
    left
    rcases h with rfl | rfl <;> simp
  · exact ⟨".5\n".toList, by decide +kernel⟩

/-- C83 fails (one column): in a file with one column, a row with nothing but blanks is lost. -/
theorem C83_blanks_fails : ∃ rows : List (List Str), rows = [["ObjID".toList], [" ".toList], ["a".toList]] ∧
    read (rows.flatMap record) = some [["ObjID".toList], ["a".toList]] :=
  ⟨_, rfl, by decide +kernel⟩

/-- Texts as they are, nothing for a missing value. -/
def someShown : Cell → Str
  | .text s => s.toList
  | _ => []

def textLines : Lines := ⟨line someShown, line someShown, line someShown⟩

/-- A run of two chunks that finishes: its file of results is read back as it should be. -/
example : ∃ d2 log t, Runs false (fun _ => true) (fun _ => true) History.Props.someGlob textLines (History.Props.someJob true .csv) History.Props.someDisk d2 log .finished ∧
    d2.get "out/run.csv" = some (.text t) ∧
    read t = some [["ObjID".toList, "fieldMJD_TAI".toList, "optFilter".toList], ["A".toList, "r".toList, "r".toList], ["B".toList, "r".toList, "r".toList]] := by
  obtain ⟨d2, log, h2⟩ := History.Props.C65_rerun (ls := textLines) History.Props.someGlob_sound (j := History.Props.someJob true .csv)
    (History.Props.someArgs_differ true) (js := []) (by simp) (History.Props.someDisk_one true) .nil rfl
    (History.Props.some_accepted []) (fun h => by simp [History.Props.someJob] at h)
  have hv : ∀ row ∈ linesOf someShown [History.Props.someFrame "A", History.Props.someFrame "B"], Visible row := by
    intro row h
    have h' : row ∈ [["ObjID".toList, "fieldMJD_TAI".toList, "optFilter".toList], ["A".toList, "r".toList, "r".toList], ["B".toList, "r".toList, "r".toList]] := h
    simp only [List.mem_cons, List.not_mem_nil, or_false] at h'
    left
    rcases h' with rfl | rfl | rfl <;> simp
  obtain ⟨t, h3, h4⟩ := C83_history (ls := textLines) History.Props.someGlob_sound (j := History.Props.someJob true .csv)
    (History.Props.someArgs_differ true) (js := []) (by simp) (History.Props.someDisk_one true) .nil h2
    (p := "out/run.csv") (l := line someShown) (f := History.Props.someFrame "A") (fs := [History.Props.someFrame "B"]) (.results rfl) rfl hv
  exact ⟨d2, log, t, h2, h3, h4⟩

end Sorcha.Csv.Props
