import Verif.Whole.Examples11
import Verif.Whole.Props11

/-!
# C96: concrete runs one after another, and where a log is in the way
-/

namespace Sorcha.Whole.Props

open Sorcha.Csv (Str)
open Sorcha.History (Disk get_put_self get_put_ne)

/-! ## Two runs -/

/-- The first run, on the files with its open logs. -/
def sess1 : Attempt (World Unit Unit Unit) :=
  let before : Disk := (splitDisk.put "res/part1-2025-01-01-12-00-00-p7-sorcha.log" (.text [])).put "res/part1-2025-01-01-12-00-00-p7-sorcha.err" (.text [])
  { world := logWorld, argv := splitArgv .one, before, after := gone logWorld (splitArgs .one) before, log := goneLog logWorld (splitArgs .one) before,
    outcome := .finished, path := "res/part1-2025-01-01-12-00-00-p7-sorcha.log", args := splitArgs .one, verbose := true, stamp := "2025-01-01-12-00-00", pid := "7", errors := [] }

/-- The second run, killed at once. -/
def sess2 : Attempt (World Unit Unit Unit) :=
  let before : Disk := sess2.files
  { world := logWorld, argv := splitArgv .two, before, after := checked logWorld (splitArgs .two) before, log := logWorld.start.flatMap fun l => l ++ ['\n'],
    outcome := .stopped, path := "res/part2-2025-01-01-12-00-00-p8-sorcha.log", args := splitArgs .two, verbose := true, stamp := "2025-01-01-12-00-00", pid := "8", errors := [] }
where files : Disk := ((sess1.closed sess1.after).put "res/part2-2025-01-01-12-00-00-p8-sorcha.log" (.text [])).put "res/part2-2025-01-01-12-00-00-p8-sorcha.err" (.text [])

theorem sess1_path : sess1.logPath = "res/part1-2025-01-01-12-00-00-p7-sorcha.log" ∧ sess1.errPath = "res/part1-2025-01-01-12-00-00-p7-sorcha.err" := by decide +kernel
theorem sess2_path : sess2.logPath = "res/part2-2025-01-01-12-00-00-p8-sorcha.log" ∧ sess2.errPath = "res/part2-2025-01-01-12-00-00-p8-sorcha.err" := by decide +kernel

theorem sess1_ran : Invoked sess1.world sess1.argv sess1.before sess1.after sess1.log sess1.outcome :=
  gone_invoked (splitArgv_args .one) (by decide +kernel)

theorem sess2_ran : Invoked sess2.world sess2.argv sess2.before sess2.after sess2.log sess2.outcome :=
  killed_invoked (splitArgv_args .two) (by decide +kernel)

def sessEnd : Disk := sess2.closed sess2.after

theorem sess_session : Session Invoked [sess1, sess2] splitDisk sessEnd := by
  refine .cons (splitArgv_args .one) sess1_path.1.symm ?_ sess1_ran (.cons (splitArgv_args .two) sess2_path.1.symm ?_ sess2_ran .nil)
  · unfold Attempt.opened
    rw [sess1_path.1, sess1_path.2]
    rfl
  · unfold Attempt.opened
    rw [sess2_path.1, sess2_path.2]
    rfl

theorem sess_cases {P : Attempt (World Unit Unit Unit) → Prop} (h1 : P sess1) (h2 : P sess2) : ∀ x ∈ [sess1, sess2], P x := by
  intro x hx
  simp only [List.mem_cons, List.not_mem_nil, or_false] at hx
  rcases hx with rfl | rfl
  · exact h1
  · exact h2

theorem sess_named : Named [sess1, sess2] where
  stamps := sess_cases ⟨⟨by decide +kernel, by decide +kernel⟩, by unfold Spec.Decimal; decide +kernel⟩ ⟨⟨by decide +kernel, by decide +kernel⟩, by unfold Spec.Decimal; decide +kernel⟩
  apart := sess_cases ⟨by decide +kernel, by decide +kernel, fun _ h => (nomatch h)⟩ ⟨by decide +kernel, by decide +kernel, fun _ h => (nomatch h)⟩
  differ := .cons (fun y hy => by
    rw [List.mem_singleton.1 hy]
    exact fun h => absurd h.2.2 (by decide +kernel)) (.cons (fun _ h => by cases h) .nil)

/-- The logs are there in the end, with the results of the first run. -/
example : sessEnd.get "res/part1-2025-01-01-12-00-00-p7-sorcha.log" = some (.text "Sorcha Log\nround\n12:00 Sorcha process is completed. \n".toList) ∧
    sessEnd.get "res/part2-2025-01-01-12-00-00-p8-sorcha.log" = some (.text "Sorcha Log\n".toList) ∧ (sessEnd.get "res/part1.db").isSome = true ∧ sessEnd.get "res/part2.db" = none := by
  decide +kernel

theorem sess_clean : ∀ p, "sorcha.log".toList <:+ p.toList → splitDisk.get p = none := by
  intro p hp
  by_contra h
  have hm := (History.mem_paths splitDisk p).2 h
  have : ∀ q ∈ splitDisk.paths, ¬ "sorcha.log".toList <:+ q.toList := by decide +kernel
  exact this p hm hp

theorem sess_below : ∀ x ∈ [sess1, sess2], Setup.Spec.Below "res" x.path :=
  sess_cases ⟨"part1-2025-01-01-12-00-00-p7-sorcha.log", by decide +kernel⟩ ⟨"part2-2025-01-01-12-00-00-p8-sorcha.log", by decide +kernel⟩

def sessDirs (p : String) : Bool := p = "res"

/-- C96 for the two runs: when the command says something, it says of the second run that it failed, and of the first that it went through. -/
example (bytes : History.Content → List Char) {walk : Setup.Walk} (hw : Setup.Spec.WalkSound walk) {csv : List Setup.LogRow → List Char} {dirname : String → String} {t : Setup.Told}
    (ht : (Setup.cmdCheckLogs walk lineEnd csv dirname "res" none false (asFiles sessDirs bytes sessEnd)).result = .ok t) (hr : t ≠ .refused) :
    Spec.Tells [sess1, sess2] (·.path) (fun x => ∃ log, Invoked x.world x.argv x.before x.after log .finished) (fun x => x.outcome = .finished) csv none t
      (Setup.cmdCheckLogs walk lineEnd csv dirname "res" none false (asFiles sessDirs bytes sessEnd)).disk :=
  C96_told sess_session (sess_cases charGlob_sound charGlob_sound) sess_named sess_clean (sess_cases log_quiet log_quiet)
    (Set.Finite.subset (Set.finite_singleton "res") fun p hp => by
      have : (decide (p = "res")) = true := hp
      exact of_decide_eq_true this) bytes sess_below hw (by decide) completed_line (fun _ h => by cases h) ht hr

/-- The command does say something. -/
example (bytes : History.Content → List Char) {walk : Setup.Walk} (hw : Setup.Spec.WalkSound walk) (csv : List Setup.LogRow → List Char) (dirname : String → String) :
    ∃ t, (Setup.cmdCheckLogs walk lineEnd csv dirname "res" none false (asFiles sessDirs bytes sessEnd)).result = .ok t ∧ t ≠ .refused := by
  have hfin : Setup.Spec.Finite (asFiles sessDirs bytes sessEnd) := asFiles_finite (Set.Finite.subset (Set.finite_singleton "res") fun p hp => by
      have : (decide (p = "res")) = true := hp
      exact of_decide_eq_true this) bytes sessEnd
  obtain ⟨-, h2, h3⟩ := session_logs invoked_gentle sess_session (sess_cases charGlob_sound charGlob_sound) sess_named sess_clean sessDirs bytes sess_below
  have hne : ∀ x ∈ [sess1, sess2], x.log ≠ [] := sess_cases (by decide +kernel) (by decide +kernel)
  have hdir : (asFiles sessDirs bytes sessEnd).isDir "res" = true := by
    have : sessEnd.get "res" = none := by decide +kernel
    unfold Setup.Disk.isDir asFiles
    rw [this]
    rfl
  have hcmd : Setup.cmdCheckLogs walk lineEnd csv dirname "res" none false (asFiles sessDirs bytes sessEnd) =
      Setup.checkLogs walk lineEnd csv "res" none (asFiles sessDirs bytes sessEnd) := by
    simp only [Setup.cmdCheckLogs, hdir]
    rfl
  rw [hcmd]
  rcases Setup.checkLogs_cases (br := lineEnd) (csv := csv) (hw "res" _ hfin) none with
    ⟨e, -, h | ⟨q, h, h'⟩ | ⟨q, h, h'⟩⟩ | ⟨rows, -, -, ⟨-, h⟩ | ⟨-, ⟨-, h⟩ | ⟨p', h, -⟩⟩⟩
  · exact absurd ((h2 sess1.path).2 ⟨sess1, List.mem_cons_self .., rfl⟩) (h _)
  · obtain ⟨x, hx, rfl⟩ := (h2 q).1 h
    rw [h3 x hx] at h'
    cases hl : x.log with
    | nil => exact absurd hl (hne x hx)
    | cons c l => rw [hl] at h'; cases h'
  · cases h
  · rw [h]; exact ⟨_, rfl, by intro h; cases h⟩
  · rw [h]; exact ⟨_, rfl, by intro h; cases h⟩
  · cases h

/-! ## DES -/

/-- A disk on which a run with the arguments of C91's examples has opened its logs. -/
def desOpen : Disk := ((desDisk '1' someColumns desEphRows).put "out/run-2025-01-01-12-00-00-p7-sorcha.log" (.text [])).put "out/run-2025-01-01-12-00-00-p7-sorcha.err" (.text [])

theorem desOpen_one : History.Spec.AtMostOne desArgs desOpen := by
  constructor
  · have key : ∀ p, desOpen.get p ≠ none → History.Spec.IsResults desArgs p → p = "out/run.csv" := by
      intro p hp h
      have h2 : ("out".toList ++ '/' :: "run".toList ++ ['.']) <+: p.toList := History.Props.belongs_chars h
      have hm := (History.mem_paths _ p).2 hp
      have : ∀ q ∈ desOpen.paths, ("out".toList ++ '/' :: "run".toList ++ ['.']) <+: q.toList → q = "out/run.csv" := by decide +kernel
      exact this p hm h2
    intro p q hp hq h1 h2
    rw [key p hp h1, key q hq h2]
  · rintro p q - - ⟨n, hn, -⟩
    cases hn

theorem desOpen_finishes : ∃ d' log, DesInvoked desWorld desArgv desOpen d' log .finished := by
  refine des_finish desArgv_args rfl charGlob_sound desArgs_differ desOpen_one (a := desCmd) ?_ (by decide +kernel)
  have h : (Cli.commandLine (existing exWorld desOpen) exWorld.isDir exWorld.glob desArgs []).1.toOption = some desCmd := by decide +kernel
  show (Cli.commandLine (existing exWorld desOpen) exWorld.isDir exWorld.glob desArgs []).1 = .ok desCmd
  cases h1 : (Cli.commandLine (existing exWorld desOpen) exWorld.isDir exWorld.glob desArgs []).1 with
  | error e => rw [h1] at h; cases h
  | ok x => rw [h1] at h; exact congrArg _ (Option.some.inj h)

/-- C96 for a run of DES with -f, which has a log of its own in the end. -/
example : ∃ x : Attempt (DesWorld Unit Unit Unit), ∃ D, Session DesInvoked [x] (desDisk '1' someColumns desEphRows) D ∧ x.outcome = .finished ∧ Named [x] ∧
    D.get "out/run-2025-01-01-12-00-00-p7-sorcha.log" = some (.text x.log) := by
  obtain ⟨d', log, h⟩ := desOpen_finishes
  let x : Attempt (DesWorld Unit Unit Unit) :=
    { world := desWorld, argv := desArgv, before := desOpen, after := d', log := log, outcome := .finished, path := "out/run-2025-01-01-12-00-00-p7-sorcha.log",
      args := desArgs, verbose := true, stamp := "2025-01-01-12-00-00", pid := "7", errors := [] }
  have p1 : x.logPath = "out/run-2025-01-01-12-00-00-p7-sorcha.log" := by
    show loggedAt "out" "run" "2025-01-01-12-00-00" "7" "sorcha.log" = _
    decide +kernel
  have p2 : x.errPath = "out/run-2025-01-01-12-00-00-p7-sorcha.err" := by
    show loggedAt "out" "run" "2025-01-01-12-00-00" "7" "sorcha.err" = _
    decide +kernel
  have one : ∀ {P : Attempt (DesWorld Unit Unit Unit) → Prop}, P x → ∀ y ∈ [x], P y := fun h y hy => by rw [List.mem_singleton.1 hy]; exact h
  have hs : Session DesInvoked [x] (desDisk '1' someColumns desEphRows) (x.closed x.after) := by
    refine .cons desArgv_args p1.symm ?_ h .nil
    unfold Attempt.opened
    rw [p1, p2]
    rfl
  have hnamed : Named [x] :=
    ⟨one ⟨⟨(by decide +kernel : "2025-01-01-12-00-00".toList.length = 19), (by decide +kernel : ∀ c ∈ "2025-01-01-12-00-00".toList, c.isDigit = true ∨ c = '-')⟩,
      (by unfold Spec.Decimal; decide +kernel : Spec.Decimal "7")⟩,
      one ⟨(by decide +kernel : '.' ∉ "run".toList), (by decide +kernel : ¬ "-sorcha".toList <:+ "run".toList), fun _ h => (nomatch h)⟩, .cons (fun _ h => by cases h) .nil⟩
  refine ⟨x, _, hs, rfl, hnamed, ?_⟩
  rw [← p1]
  exact (C96_kept_des hs (one charGlob_sound) hnamed).1 x (List.mem_singleton_self x)

/-! ## A log in the way -/

/-- **C96 fails for stems with dots.** A run whose stem is the name for its ephemerides, a dot and more finds its own log where it looks for old ephemerides: without -f it is
always refused, even in an empty directory, and never finishes. -/
theorem C96_dotted_fails {G W V : Type} {x : Attempt (World G W V)} {d D : Disk} (h : Session Invoked [x] d D) (hg : Cli.Spec.GlobSound x.world.glob) (hf : x.args.f = false)
    {n rest : String} (hn : x.args.ew = some n) (hne : n ≠ "") (hrest : '/' ∉ rest.toList) (ht : x.args.t = n ++ "." ++ rest) (hs : Spec.Stamp x.stamp) (hp : Spec.Decimal x.pid) :
    x.outcome = .refused := by
  cases h with
  | cons hargs hpath hbefore hrun _ =>
    by_contra hout
    obtain ⟨args', v', a, fmt, chunks, b, h1, h2, h3, h4⟩ := any_parts hrun hout
    rw [hargs] at h1
    cases h1
    refine hout (History.Props.C65_refused hg (p := x.logPath) hf (.inr (.inl ⟨n, hn, hne, rest ++ "-" ++ x.stamp ++ "-p" ++ x.pid ++ "-sorcha.log", ?_, ?_⟩)) ?_ h4).1
    · simp only [String.toList_append, List.mem_append, not_or]
      refine ⟨⟨⟨⟨⟨hrest, by decide⟩, ?_⟩, by decide⟩, ?_⟩, by decide⟩
      · intro hm
        rcases hs.2 _ hm with h | h <;> exact absurd h (by decide)
      · intro hm
        exact absurd (hp _ hm) (by decide)
    · rw [← String.toList_inj]
      unfold Attempt.logPath
      rw [loggedAt_chars, ht]
      simp [String.toList_append]
    · rw [hbefore]
      unfold Attempt.opened
      rw [get_put_ne _ _ (show x.logPath ≠ x.errPath from log_ne_err), get_put_self]
      simp

/-- Such arguments. -/
def dottedArgv : List Str := ["-c", "c.ini", "-o", "out", "-t", "a.b", "--pd", "v.db", "-p", "p.csv", "--ob", "o.csv", "--er", "e.csv", "--ew", "a"].map String.toList

/-- They are understood, and a run with them exists: it is refused on files without any output. -/
example : ∃ x : Attempt (World Unit Unit Unit), ∃ D, Session Invoked [x] splitDisk D ∧ x.argv = dottedArgv ∧ x.args.f = false ∧ x.args.ew = some "a" ∧ x.args.t = "a" ++ "." ++ "b" ∧
    Spec.Stamp x.stamp ∧ Spec.Decimal x.pid ∧ x.outcome = .refused := by
  have hargs : Argv.parseRun dottedArgv = .ok (⟨"p.csv", "o.csv", "c.ini", "out", "v.db", none, some "e.csv", some "a", none, none, none, false, "rubin_sim", "a.b"⟩, true) := by
    have val : ∀ {v : List Char}, v.head? ≠ some '-' → Argv.Spec.Value Argv.Spec.allNames v := fun h => .inl h
    refine (Argv.Props.C81_run _ _ _).2 ⟨[(.config, "c.ini".toList), (.outfile, "out".toList), (.stem, "a.b".toList), (.pointings, "v.db".toList),
      (.parameters, "p.csv".toList), (.orbits, "o.csv".toList), (.ephemRead, "e.csv".toList), (.ephemWrite, "a".toList)], ?_, Argv.Props.enough (by decide +kernel), by decide +kernel⟩
    refine .next (n := "-c".toList) (.inl ⟨"-c", by decide, rfl⟩) (by simp [Argv.Spec.Switch]) (val (by decide)) ?_
    refine .next (n := "-o".toList) (.inl ⟨"-o", by decide, rfl⟩) (by simp [Argv.Spec.Switch]) (val (by decide)) ?_
    refine .next (n := "-t".toList) (.inl ⟨"-t", by decide, rfl⟩) (by simp [Argv.Spec.Switch]) (val (by decide)) ?_
    refine .next (n := "--pd".toList) (.inl ⟨"--pd", by decide, rfl⟩) (by simp [Argv.Spec.Switch]) (val (by decide)) ?_
    refine .next (n := "-p".toList) (.inl ⟨"-p", by decide, rfl⟩) (by simp [Argv.Spec.Switch]) (val (by decide)) ?_
    refine .next (n := "--ob".toList) (.inl ⟨"--ob", by decide, rfl⟩) (by simp [Argv.Spec.Switch]) (val (by decide)) ?_
    refine .next (n := "--er".toList) (.inl ⟨"--er", by decide, rfl⟩) (by simp [Argv.Spec.Switch]) (val (by decide)) ?_
    exact .next (n := "--ew".toList) (.inl ⟨"--ew", by decide, rfl⟩) (by simp [Argv.Spec.Switch]) (val (by decide)) .nil
  let a : Cli.Args := ⟨"p.csv", "o.csv", "c.ini", "out", "v.db", none, some "e.csv", some "a", none, none, none, false, "rubin_sim", "a.b"⟩
  let before : Disk := (splitDisk.put "out/a.b-2025-01-01-12-00-00-p7-sorcha.log" (.text [])).put "out/a.b-2025-01-01-12-00-00-p7-sorcha.err" (.text [])
  have hc : ∃ e, (Cli.commandLine (existing logWorld before) logWorld.isDir logWorld.glob a before.paths).1 = .error e := by
    cases h : (Cli.commandLine (existing logWorld before) logWorld.isDir logWorld.glob a before.paths).1 with
    | error e => exact ⟨e, rfl⟩
    | ok c =>
      exfalso
      have h0 := ((Cli.Props.C22_no_force (c := c) (exist := existing logWorld before) (isDir := logWorld.isDir) (a := a) (fs := before.paths) charGlob_sound rfl).2 h).2.1 "a" rfl (by decide)
      exact h0 "out/a.b-2025-01-01-12-00-00-p7-sorcha.log" (by decide +kernel) ⟨"b-2025-01-01-12-00-00-p7-sorcha.log", by decide +kernel, by decide +kernel⟩
  obtain ⟨e, he⟩ := hc
  let x : Attempt (World Unit Unit Unit) :=
    { world := logWorld, argv := dottedArgv, before := before, after := checked logWorld a before, log := logWorld.start.flatMap fun l => l ++ ['\n'],
      outcome := .refused, path := "out/a.b-2025-01-01-12-00-00-p7-sorcha.log", args := a, verbose := true, stamp := "2025-01-01-12-00-00", pid := "7", errors := [] }
  have p1 : x.logPath = "out/a.b-2025-01-01-12-00-00-p7-sorcha.log" := by decide +kernel
  have p2 : x.errPath = "out/a.b-2025-01-01-12-00-00-p7-sorcha.err" := by decide +kernel
  refine ⟨x, _, .cons hargs p1.symm ?_ (Invoked.refused hargs he) .nil, rfl, rfl, rfl, by decide +kernel, ⟨by decide +kernel, by decide +kernel⟩, by unfold Spec.Decimal; decide +kernel, rfl⟩
  unfold Attempt.opened
  rw [p1, p2]

end Sorcha.Whole.Props
