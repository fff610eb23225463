import Verif.History.Finish

/-!
# C65: concrete cases and the cases that fail
-/

namespace Sorcha.History.Props

open Sorcha.Cli (FS Args CmdArgs Glob)
open Sorcha.Output (Frame Cell CsvLine)
open Sorcha.History

/-- A `glob` that lists the paths in the order of the directory. -/
noncomputable def someGlob : Glob := by
  classical
  exact ⟨fun dir stem fs => fs.filter fun p => decide (Cli.Spec.BelongsTo dir stem p),
    fun dir stem fs => fs.filter fun p => decide (p = dir ++ "/" ++ stem ++ ".csv")⟩

/-- A `glob` that lists them in the opposite order. -/
noncomputable def backwardGlob : Glob := by
  classical
  exact ⟨fun dir stem fs => fs.reverse.filter fun p => decide (Cli.Spec.BelongsTo dir stem p),
    fun dir stem fs => fs.reverse.filter fun p => decide (p = dir ++ "/" ++ stem ++ ".csv")⟩

theorem someGlob_sound : Cli.Spec.GlobSound someGlob := by
  constructor <;> intro dir stem fs p <;> simp [someGlob]

theorem backwardGlob_sound : Cli.Spec.GlobSound backwardGlob := by
  constructor <;> intro dir stem fs p <;> simp [backwardGlob]

/-- Lines of a file: the names, or a dot for every cell. -/
def someLine : CsvLine → List Char
  | .header cols => (cols.flatMap String.toList) ++ ['\n']
  | .row cells => cells.map (fun _ => '.') ++ ['\n']

def someLines : Lines := ⟨someLine, someLine, someLine⟩

/-- A table with one row for an object. -/
def someFrame (id : String) : Frame :=
  ⟨["ObjID", "fieldMJD_TAI", "optFilter"], [fun c => if c = "ObjID" then .text id else .text "r"]⟩

def someArgs (f : Bool) : Args :=
  ⟨"p.csv", "o.csv", "c.ini", "out", "pd.db", none, none, some "eph", none, some "stats", none, f, "rubin_sim", "run"⟩

/-- A run of two chunks. -/
def someJob (f : Bool) (fmt : Format) : Job :=
  ⟨someArgs f, fmt, [⟨["chunk 1".toList], some (someFrame "A"), some (someFrame "A", someFrame "A")⟩,
    ⟨["chunk 2".toList], some (someFrame "B"), some (someFrame "B", someFrame "B")⟩], "now ".toList, ["start".toList]⟩

theorem belongs_chars {o n p : String} (h : Cli.Spec.BelongsTo o n p) : (o.toList ++ '/' :: n.toList ++ ['.']) <+: p.toList := by
  obtain ⟨ext, -, rfl⟩ := h
  refine ⟨ext.toList, ?_⟩
  simp only [String.toList_append]
  have h1 : "/".toList = ['/'] := rfl
  have h2 : ".".toList = ['.'] := rfl
  rw [h1, h2]
  simp

theorem someArgs_differ (f : Bool) : Spec.NamesDiffer (someArgs f) := by
  have key : ∀ {n m : String} {p : String}, Cli.Spec.BelongsTo "out" n p → Cli.Spec.BelongsTo "out" m p →
      n.toList.head? = some 'r' → m.toList.head? = some 'e' → False := by
    intro n m p h1 h2 hn hm
    obtain ⟨x, hx⟩ := belongs_chars h1
    obtain ⟨y, hy⟩ := belongs_chars h2
    rw [← hx] at hy
    have : "out".toList = ['o', 'u', 't'] := rfl
    rw [this] at hy
    cases hn' : n.toList with
    | nil => rw [hn'] at hn; simp at hn
    | cons a as =>
      cases hm' : m.toList with
      | nil => rw [hm'] at hm; simp at hm
      | cons b bs =>
        rw [hn'] at hn hy
        rw [hm'] at hm hy
        simp only [List.head?_cons, Option.some.injEq] at hn hm
        subst hn hm
        simp at hy
  have hstats : Cli.Spec.BelongsTo "out" "stats" "out/stats.csv" := belongs_csv _ _
  refine ⟨?_, ?_, ?_⟩
  · rintro p ⟨h1, n, hn, hne, h2⟩
    simp only [someArgs, Option.some.injEq] at hn
    subst hn
    exact key (n := "run") h1 h2 (by decide) (by decide)
  · rintro p ⟨h1, n, hn, h2⟩
    simp only [someArgs, Option.some.injEq] at hn
    subst hn
    have h3 := belongs_chars h1
    rw [h2] at h3
    revert h3
    have : (someArgs f).o = "out" := rfl
    have h4 : (someArgs f).t = "run" := rfl
    rw [this, h4]
    decide
  · rintro p ⟨⟨m, hm, hne, h1⟩, n, hn, h2⟩
    simp only [someArgs, Option.some.injEq] at hn hm
    subst hn hm
    have h3 := belongs_chars h1
    rw [h2] at h3
    revert h3
    have : (someArgs f).o = "out" := rfl
    rw [this]
    decide

/-- A directory with results of an earlier run and another file. -/
def someDisk : Disk := [("out/run.csv", .text "old".toList), ("out/notes.txt", .text "mine".toList)]

theorem someDisk_get {p : String} (h : someDisk.get p ≠ none) : p = "out/run.csv" ∨ p = "out/notes.txt" := by
  have := (mem_paths someDisk p).2 h
  simpa [someDisk, Disk.paths] using this

theorem someDisk_one (f : Bool) : Spec.AtMostOne (someArgs f) someDisk := by
  constructor
  · intro p q hp hq h1 h2
    have hno : ¬ Spec.IsResults (someArgs f) "out/notes.txt" := by
      intro h
      have h3 := belongs_chars h
      have : (someArgs f).o = "out" := rfl
      have h4 : (someArgs f).t = "run" := rfl
      rw [this, h4] at h3
      revert h3
      decide
    rcases someDisk_get hp with rfl | rfl
    · rcases someDisk_get hq with rfl | rfl
      · rfl
      · exact absurd h2 hno
    · exact absurd h1 hno
  · intro p q hp hq h1
    have hno : ∀ p, p = "out/run.csv" ∨ p = "out/notes.txt" → ¬ Spec.IsEphemeris (someArgs f) p := by
      rintro p hp ⟨n, hn, -, h⟩
      simp only [someArgs, Option.some.injEq] at hn
      subst hn
      have h3 := belongs_chars h
      have : (someArgs f).o = "out" := rfl
      rw [this] at h3
      revert h3
      rcases hp with rfl | rfl <;> decide
    exact absurd h1 (hno p (someDisk_get hp))

/-- The dictionary made of the command line. -/
def someCmd : CmdArgs :=
  ⟨"p.csv", "o.csv", "c.ini", "out", "pd.db", none, none, some "eph", none, "rubin_sim", "run", some "stats", none⟩

theorem some_accepted (fs : FS) : (Cli.commandLine (fun _ => true) (fun _ => true) someGlob (someArgs true) fs).1 = .ok someCmd := by
  apply accepted_force rfl (fs := [])
  have h0 : ∀ a b, someGlob.anyExt a b [] = [] := fun a b => by simp [someGlob]
  have h1 : ∀ a b, someGlob.csv a b [] = [] := fun a b => by simp [someGlob]
  simp [Cli.commandLine, Cli.findInputs, Cli.findFile, Cli.findOptional, Cli.checkOutputs, Cli.andThen, Cli.warnOptional, Cli.warnOrRemove, h0, h1,
    someArgs, someCmd, Except.map, bind, Except.bind, pure, Except.pure]

/-- The hypotheses can be met: in a directory with old results, a forced run that is killed in the middle of writing its first results, then
the same command again, which finishes; its outputs are complete and the other file is untouched. -/
example : ∃ d1 d2 log, Series false (fun _ => true) (fun _ => true) someGlob someLines [someJob true .csv] someDisk d1 ∧
    d1.get "out/run.csv" = some (.text "ObjID".toList) ∧
    Runs false (fun _ => true) (fun _ => true) someGlob someLines (someJob true .csv) d1 d2 log .finished ∧
    Spec.Complete someLines (someJob true .csv) someDisk d2 ∧ d2.get "out/notes.txt" = some (.text "mine".toList) := by
  have hacc := some_accepted someDisk.paths
  have hs := start_files someGlob_sound (someDisk_one true) hacc
  set d := someDisk.keep (Cli.commandLine (fun _ => true) (fun _ => true) someGlob (someArgs true) someDisk.paths).2 with hdef
  set s0 : State := ⟨d, startLog (someJob true .csv)⟩ with hs0
  -- the first message, the ephemerides, then the results are interrupted
  have e1 : perform (.log "chunk 1".toList) s0 = .ok { s0 with log := s0.log ++ "chunk 1".toList ++ ['\n'] } := rfl
  set s1 : State := { s0 with log := s0.log ++ "chunk 1".toList ++ ['\n'] } with hs1
  have g1 : s1.disk.get "out/eph.csv" = none := hs.1 "out/eph.csv" (Or.inr (Or.inl ⟨"eph", rfl, by decide, belongs_csv _ _⟩))
  have e2 : ∃ s2, perform (.csv "out/eph.csv" someLine (someFrame "A")) s1 = .ok s2 := by
    simp only [perform]; rw [g1]; exact ⟨_, rfl⟩
  obtain ⟨s2, e2⟩ := e2
  have g2 : s2.disk.get "out/run.csv" = none := by
    rw [perform_untouched (p := "out/run.csv") (by unfold Untouched; decide) e2]
    exact hs.1 "out/run.csv" (Or.inl (belongs_csv _ _))
  have hpart : "ObjID".toList <+: csvText someLine true (someFrame "A") := by decide
  have hends : Ends false (runEffects someLines someCmd .csv (someJob true .csv).chunks (someJob true .csv).stamp) s0
      { s2 with disk := s2.disk.put "out/run.csv" (.text "ObjID".toList) } false :=
    .step e1 (.step e2 (.during (.newCsv "ObjID".toList g2 hpart)))
  have hrun : Runs false (fun _ => true) (fun _ => true) someGlob someLines (someJob true .csv) someDisk
      (s2.disk.put "out/run.csv" (.text "ObjID".toList)) s2.log .stopped := Runs.ran (j := someJob true .csv) hacc hends
  have hser := Series.cons hrun .nil
  have hsame : ∀ i ∈ [someJob true .csv], Spec.SameNames (someJob true .csv).args i.args := by
    intro i hi
    rw [List.mem_singleton] at hi
    subst hi
    exact ⟨rfl, rfl, rfl, rfl⟩
  obtain ⟨d2, log, h2⟩ := C65_rerun someGlob_sound (j := someJob true .csv) (someArgs_differ true) hsame (someDisk_one true) hser rfl
    (some_accepted []) (fun h => by simp [someJob] at h)
  have hc := C65_history someGlob_sound (j := someJob true .csv) (someArgs_differ true) hsame (someDisk_one true) hser h2
  refine ⟨_, d2, log, hser, get_put_self _ _ _, h2, hc, ?_⟩
  have hrest : Spec.Wanted someLines (someJob true .csv) someDisk "out/notes.txt" (some (.text "mine".toList)) := by
    have : someDisk.get "out/notes.txt" = some (.text "mine".toList) := by decide
    rw [← this]
    refine .rest _ ?_ ?_ ?_
    · intro h
      have h3 := belongs_chars h
      have h4 : (someJob true .csv).args.o = "out" := rfl
      have h5 : (someJob true .csv).args.t = "run" := rfl
      rw [h4, h5] at h3
      revert h3
      decide
    · rintro ⟨n, hn, -, h⟩
      simp only [someJob, someArgs, Option.some.injEq] at hn
      subst hn
      have h3 := belongs_chars h
      have h4 : (someJob true .csv).args.o = "out" := rfl
      rw [h4] at h3
      revert h3
      decide
    · rintro ⟨n, hn, h⟩
      simp only [someJob, someArgs, Option.some.injEq] at hn
      subst hn
      revert h
      decide
  exact hc _ _ hrest

/-- The tables of the example can be indexed, and its log is quiet. -/
example : Spec.Indexable (Spec.results (someJob true .sqlite)) := by
  intro f rest h
  have h' : [someFrame "A", someFrame "B"] = f :: rest := h
  simp only [List.cons.injEq] at h'
  obtain ⟨rfl, rfl⟩ := h'
  exact ⟨by simp [Spec.dbColumns, someFrame], by simp [Spec.dbColumns, someFrame]⟩

theorem short_no_occurs {w l : List Char} (h : l.length < w.length) : ¬ Cli.Spec.Occurs w l := by
  rintro ⟨a, b, h'⟩
  have := congrArg List.length h'
  simp only [List.length_append] at this
  omega

example : Spec.QuietLog (someJob true .csv) := by
  refine ⟨fun l hl => short_no_occurs ?_, fun c hc l hl => short_no_occurs ?_⟩
  · simp only [someJob, List.mem_singleton] at hl
    subst hl
    decide
  · simp only [someJob, List.mem_cons, List.not_mem_nil, or_false] at hc
    rcases hc with rfl | rfl <;> simp only [List.mem_singleton] at hl <;> subst hl <;> decide

/-- C65 fails when a run is killed during an sqlite transaction: its journal is a second file of the stem, `-f` removes only one of the two, and
the rerun appends to the old database; with a `glob` that lists the journal first. -/
theorem C65_journal_fails : ∃ (g : Glob) (j : Job) (d1 d2 : Disk) (log : List Char), Cli.Spec.GlobSound g ∧ Spec.NamesDiffer j.args ∧
    j.args.f = true ∧ Series true (fun _ => true) (fun _ => true) g someLines [j] [] d1 ∧
    Runs true (fun _ => true) (fun _ => true) g someLines j d1 d2 log .finished ∧ ¬ Spec.Complete someLines j [] d2 := by
  classical
  -- results only: no ephemerides and no statistics
  let a : Args := { someArgs true with ew := none, st := none }
  let j : Job := ⟨a, .sqlite, [⟨[], none, some (someFrame "A", someFrame "A")⟩, ⟨[], none, some (someFrame "B", someFrame "B")⟩], [], []⟩
  let c : CmdArgs := { someCmd with outputEphemerisFile := none, stats := none }
  let rows (l : List String) : Content := .db (some (["ObjID", "fieldMJD_TAI", "optFilter"], l.map fun i => [.text i, .text "r", .text "r"])) []
  have hb1 : Cli.Spec.BelongsTo "out" "run" "out/run.db" := belongs_db _ _
  have hb2 : Cli.Spec.BelongsTo "out" "run" "out/run.db-journal" := ⟨"db-journal", by decide, rfl⟩
  have hc0 : ∀ fs, Cli.commandLine (fun _ => true) (fun _ => true) backwardGlob a fs =
      (.ok c, match backwardGlob.anyExt "out" "run" fs with | [] => fs | p :: _ => fs.filter (· ≠ p)) := by
    intro fs
    simp only [Cli.commandLine, Cli.findInputs, Cli.findFile, Cli.findOptional, Cli.checkOutputs, Cli.andThen, Cli.warnOptional, a,
      someArgs, Except.map, bind, Except.bind, pure, Except.pure, if_true]
    unfold Cli.warnOrRemove
    cases backwardGlob.anyExt "out" "run" fs <;> simp [c, someCmd]
  have hg0 : backwardGlob.anyExt "out" "run" [] = [] := by simp [backwardGlob]
  have hg1 : backwardGlob.anyExt "out" "run" ["out/run.db", "out/run.db-journal"] = ["out/run.db-journal", "out/run.db"] := by
    simp [backwardGlob, hb1, hb2]
  let d1 : Disk := [("out/run.db", rows ["A"]), ("out/run.db-journal", .text [])]
  have hr1 : Runs true (fun _ => true) (fun _ => true) backwardGlob someLines j [] d1 [] .stopped := by
    have hk : (Cli.commandLine (fun _ => true) (fun _ => true) backwardGlob j.args (Disk.paths [])).2 = [] := by
      change (Cli.commandLine _ _ _ a []).2 = []
      rw [hc0, hg0]
    have he : Ends true (runEffects someLines c .sqlite j.chunks j.stamp) ⟨[], []⟩ ⟨d1, []⟩ false :=
      .step (e := .sqlite "out/run.db" (someFrame "A")) (s1 := ⟨[("out/run.db", rows ["A"])], []⟩) (by rfl)
        (.during (.oldJournal [] (by decide) rfl))
    have hacc : (Cli.commandLine (fun _ => true) (fun _ => true) backwardGlob j.args (Disk.paths [])).1 = .ok c := by
      change (Cli.commandLine _ _ _ a []).1 = _
      rw [hc0]
    exact Runs.ran (j := j) (d := []) hacc (by rw [hk]; exact he)
  let d2 : Disk := [("out/run.db", .db (some (["ObjID", "fieldMJD_TAI", "optFilter"], ["A", "A", "B"].map fun i => [.text i, .text "r", .text "r"]))
    ["ObjID", "fieldMJD_TAI", "optFilter"])]
  have hr2 : ∃ log, Runs true (fun _ => true) (fun _ => true) backwardGlob someLines j d1 d2 log .finished := by
    have hk : (Cli.commandLine (fun _ => true) (fun _ => true) backwardGlob j.args d1.paths).2 = ["out/run.db"] := by
      change (Cli.commandLine _ _ _ a ["out/run.db", "out/run.db-journal"]).2 = _
      rw [hc0, hg1]
      rfl
    have he : Ends true (runEffects someLines c .sqlite j.chunks j.stamp) ⟨d1.keep ["out/run.db"], []⟩
        ⟨d2, [] ++ ([] ++ "Sorcha process is completed. ".toList) ++ ['\n']⟩ true :=
      .step (e := .sqlite "out/run.db" (someFrame "A")) (s1 := ⟨[("out/run.db", rows ["A", "A"])], []⟩) (by rfl)
        (.step (e := .sqlite "out/run.db" (someFrame "B")) (s1 := ⟨[("out/run.db", rows ["A", "A", "B"])], []⟩) (by rfl)
          (.step (e := .index "out/run.db") (s1 := ⟨d2, []⟩) (by rfl) (.step (by rfl) .finished)))
    have hacc : (Cli.commandLine (fun _ => true) (fun _ => true) backwardGlob j.args d1.paths).1 = .ok c := by
      change (Cli.commandLine _ _ _ a _).1 = _
      rw [hc0]
    exact ⟨_, Runs.ran (j := j) (d := d1) hacc (by rw [hk]; exact he)⟩
  obtain ⟨log, hr2⟩ := hr2
  refine ⟨backwardGlob, j, d1, d2, log, backwardGlob_sound, ?_, rfl, .cons hr1 .nil, hr2, ?_⟩
  · refine ⟨?_, ?_, ?_⟩
    · rintro p ⟨-, n, hn, -⟩; simp [j, a] at hn
    · rintro p ⟨-, n, hn, -⟩; simp [j, a] at hn
    · rintro p ⟨-, n, hn, -⟩; simp [j, a] at hn
  · intro hc
    have := hc _ _ (.database rfl)
    revert this
    decide

/-- C65 fails when the statistics get the name of the results: even a first run leaves one file with the lines of both. -/
theorem C65_same_name_fails : ∃ (g : Glob) (j : Job) (d : Disk) (log : List Char), Cli.Spec.GlobSound g ∧
    Runs false (fun _ => true) (fun _ => true) g someLines j [] d log .finished ∧ ¬ Spec.Complete someLines j [] d := by
  let a : Args := { someArgs true with ew := none, st := some "run" }
  let j : Job := ⟨a, .csv, [⟨[], none, some (someFrame "A", someFrame "A")⟩], [], []⟩
  let c : CmdArgs := { someCmd with outputEphemerisFile := none, stats := some "run" }
  have h0 : ∀ a b, someGlob.anyExt a b [] = [] := fun a b => by simp [someGlob]
  have h1 : ∀ a b, someGlob.csv a b [] = [] := fun a b => by simp [someGlob]
  have hc0 : Cli.commandLine (fun _ => true) (fun _ => true) someGlob a [] = (.ok c, []) := by
    simp [Cli.commandLine, Cli.findInputs, Cli.findFile, Cli.findOptional, Cli.checkOutputs, Cli.andThen, Cli.warnOptional, Cli.warnOrRemove, h0, h1,
      someArgs, someCmd, Except.map, bind, Except.bind, pure, Except.pure, a, c]
  let t1 := csvText someLine true (someFrame "A")
  let d : Disk := [("out/run.csv", .text (t1 ++ csvText someLine false (someFrame "A")))]
  have he : Ends false (runEffects someLines c .csv j.chunks j.stamp) ⟨[], []⟩
      ⟨d, [] ++ ([] ++ "Sorcha process is completed. ".toList) ++ ['\n']⟩ true :=
    .step (e := .csv "out/run.csv" someLine (someFrame "A")) (s1 := ⟨[("out/run.csv", .text t1)], []⟩) (by rfl)
      (.step (e := .csv "out/run.csv" someLine (someFrame "A")) (s1 := ⟨d, []⟩) (by rfl) (.step (by rfl) .finished))
  have hk : (Cli.commandLine (fun _ => true) (fun _ => true) someGlob j.args (Disk.paths [])).2 = [] := by
    change (Cli.commandLine _ _ _ a []).2 = []
    rw [hc0]
  have hacc : (Cli.commandLine (fun _ => true) (fun _ => true) someGlob j.args (Disk.paths [])).1 = .ok c := by
    change (Cli.commandLine _ _ _ a []).1 = _
    rw [hc0]
  refine ⟨someGlob, j, d, _, someGlob_sound, Runs.ran (j := j) (d := []) hacc (by rw [hk]; exact he), ?_⟩
  intro hc
  have := hc _ _ (.results rfl)
  revert this
  decide

end Sorcha.History.Props
