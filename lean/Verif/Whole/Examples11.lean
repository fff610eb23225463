import Verif.Setup.LogsExamples
import Verif.Whole.DesExamples
import Verif.Whole.Examples9
import Verif.Whole.Props10

/-!
# C95: the logs of concrete runs
-/

namespace Sorcha.Whole.Props

open Sorcha.Csv (Str)
open Sorcha.History (Disk)
open Sorcha.Whole.Spec (Run sized)

/-- The world of C94's example, with what a run logs. -/
def logWorld : World Unit Unit Unit := { splitWorld with start := ["Sorcha Log".toList], messages := fun _ => ["round".toList], stamp := "12:00 ".toList }

theorem log_quiet : Spec.Quiet logWorld.start logWorld.messages := by
  have no : ∀ l : List Char, l.length < 29 → ¬ Cli.Spec.Occurs History.Spec.completed l := by
    rintro l hl ⟨a, b, h⟩
    have e : History.Spec.completed.length = 29 := by decide +kernel
    have := congrArg List.length h
    simp only [List.length_append, e] at this
    omega
  refine ⟨fun l hl => no l ?_, fun _ l hl => no l ?_⟩
  · rw [List.mem_singleton.1 hl]; decide
  · rw [List.mem_singleton.1 hl]; decide

/-- The log of the first part, run to its end, and the beginning of it that is there if the run is killed at once. -/
theorem log_ran : (go logWorld (splitArgs .one) splitDisk).isSome = true := by decide +kernel

example : goneLog logWorld (splitArgs .one) splitDisk = "Sorcha Log\nround\n12:00 Sorcha process is completed. \n".toList := by decide +kernel

theorem killed_invoked {G W V : Type} {w : World G W V} {argv : List Str} {args : Cli.Args} {v : Bool} (hargs : Argv.parseRun argv = .ok (args, v)) {d : Disk}
    (h : (go w args d).isSome = true) : Invoked w argv d (checked w args d) (w.start.flatMap fun l => l ++ ['\n']) .stopped := by
  obtain ⟨s, h⟩ := Option.isSome_iff_exists.1 h
  unfold go at h
  cases hc : (Cli.commandLine (existing w d) w.isDir w.glob args d.paths).1 with
  | error e => rw [hc] at h; cases h
  | ok a =>
    rw [hc] at h
    cases hp : plan w a (checked w args d) with
    | other => simp only [hp] at h; cases h
    | writes fmt chunks f =>
      simp only [hp] at h
      cases f with
      | false => cases h
      | true =>
        have hne : History.runEffects w.lines a fmt chunks w.stamp ≠ [] := by
          unfold History.runEffects
          intro h
          have := (List.append_eq_nil_iff.1 h).2
          simp at this
        obtain ⟨e, es, hes⟩ := List.exists_cons_of_ne_nil hne
        have he : History.Ends false (History.runEffects w.lines a fmt chunks w.stamp) ⟨checked w args d, w.start.flatMap fun l => l ++ ['\n']⟩
            ⟨checked w args d, w.start.flatMap fun l => l ++ ['\n']⟩ false := by
          rw [hes]
          exact .stopped
        exact Invoked.ran hargs hc hp he

/-! ## The directory with the logs -/

/-- A directory with two logs. -/
def logDisk (one two : List Char) : Setup.Disk := fun p =>
  if p = "/r" then some .dir else if p = "/r/1-sorcha.log" then some (.file one) else if p = "/r/2-sorcha.log" then some (.file two) else none

theorem logDisk_finite (one two : List Char) : Setup.Spec.Finite (logDisk one two) := by
  refine Set.Finite.subset (Set.toFinite ({"/r", "/r/1-sorcha.log", "/r/2-sorcha.log"} : Set String)) fun p hp => ?_
  have hp' : logDisk one two p ≠ none := hp
  simp only [logDisk] at hp'
  show p = "/r" ∨ p = "/r/1-sorcha.log" ∨ p = "/r/2-sorcha.log"
  split_ifs at hp' with h1 h2 h3
  · exact .inl h1
  · exact .inr (.inl h2)
  · exact .inr (.inr h3)
  · exact absurd rfl hp'

theorem logDisk_file {one two : List Char} {p : String} : Setup.Spec.FileAt (logDisk one two) p ↔ p = "/r/1-sorcha.log" ∨ p = "/r/2-sorcha.log" := by
  constructor
  · rintro ⟨t, ht⟩
    simp only [logDisk] at ht
    split_ifs at ht with h1 h2 h3
    · simp at ht
    · exact .inl h2
    · exact .inr h3
  · rintro (rfl | rfl)
    · exact ⟨one, by simp [logDisk]⟩
    · exact ⟨two, by simp [logDisk]⟩

theorem logDisk_below {p : String} (h : p = "/r/1-sorcha.log" ∨ p = "/r/2-sorcha.log") : Setup.Spec.Below "/r" p := by
  rcases h with rfl | rfl
  · exact ⟨"1-sorcha.log", by decide +kernel⟩
  · exact ⟨"2-sorcha.log", by decide +kernel⟩

theorem logDisk_log {one two : List Char} {p : String} : Setup.Spec.IsLog (logDisk one two) "/r" p ↔ p = "/r/1-sorcha.log" ∨ p = "/r/2-sorcha.log" := by
  constructor
  · exact fun h => logDisk_file.1 h.1
  · intro h
    refine ⟨logDisk_file.2 h, logDisk_below h, ?_⟩
    rcases h with rfl | rfl
    · exact ⟨"/r/1-".toList, by decide +kernel⟩
    · exact ⟨"/r/2-".toList, by decide +kernel⟩

/-- What `os.walk` lists there. -/
def logListing : List (String × List String) := [("/r", ["1-sorcha.log", "2-sorcha.log"])]

theorem logListing_lists (one two : List Char) : Setup.Spec.Lists logListing "/r" (logDisk one two) where
  names := by decide +kernel
  files := fun p => by
    have e1 : Setup.join "/r" "1-sorcha.log" = "/r/1-sorcha.log" := by decide +kernel
    have e2 : Setup.join "/r" "2-sorcha.log" = "/r/2-sorcha.log" := by decide +kernel
    have : (∃ e ∈ logListing, ∃ name ∈ e.2, p = Setup.join e.1 name) ↔ p = "/r/1-sorcha.log" ∨ p = "/r/2-sorcha.log" := by
      simp [logListing, e1, e2]
    rw [this]
    exact ⟨fun h => ⟨logDisk_file.2 h, logDisk_below h⟩, fun h => logDisk_file.1 h.1⟩
  once := by decide +kernel

/-- A walk as documented, and what it lists in this directory. -/
theorem log_walk (one two : List Char) : ∃ walk : Setup.Walk, Setup.Spec.WalkSound walk ∧ walk "/r" (logDisk one two) = logListing := by
  classical
  obtain ⟨w0, h0⟩ := Setup.Props.exists_walk
  refine ⟨fun root D => if root = "/r" ∧ D = logDisk one two then logListing else w0 root D, fun root D hD => ?_, if_pos ⟨rfl, rfl⟩⟩
  beta_reduce
  by_cases h : root = "/r" ∧ D = logDisk one two
  · rw [if_pos h, h.1, h.2]
    exact logListing_lists one two
  · rw [if_neg h]
    exact h0 root D hD

theorem cmd_walk {walk walk' : Setup.Walk} {br : Char → Bool} {csv : List Setup.LogRow → List Char} {dirname : String → String} {root : String} {force : Bool} {D : Setup.Disk}
    (h : walk root D = walk' root D) :
    Setup.cmdCheckLogs walk br csv dirname root none force D = Setup.cmdCheckLogs walk' br csv dirname root none force D := by
  simp only [Setup.cmdCheckLogs, Setup.checkLogs, Setup.findLogs, h]

/-- The line boundaries, here. -/
def lineEnd (c : Char) : Bool := c = '\n'

/-- The two runs: one came to its end, the other was killed. -/
def logRuns : List (Begun (World Unit Unit Unit)) :=
  [⟨logWorld, splitArgv .one, splitDisk, gone logWorld (splitArgs .one) splitDisk, goneLog logWorld (splitArgs .one) splitDisk, .finished, "/r/1-sorcha.log"⟩,
   ⟨logWorld, splitArgv .two, splitDisk, checked logWorld (splitArgs .two) splitDisk, logWorld.start.flatMap fun l => l ++ ['\n'], .stopped, "/r/2-sorcha.log"⟩]

def logRunsDisk : Setup.Disk := logDisk (goneLog logWorld (splitArgs .one) splitDisk) (logWorld.start.flatMap fun l => l ++ ['\n'])

theorem logRuns_ran : ∀ x ∈ logRuns, Invoked x.world x.argv x.before x.after x.log x.outcome := by
  intro x hx
  simp only [logRuns, List.mem_cons, List.not_mem_nil, or_false] at hx
  rcases hx with rfl | rfl
  · exact gone_invoked (splitArgv_args .one) log_ran
  · exact killed_invoked (splitArgv_args .two) (by decide +kernel)

theorem logRuns_quiet : ∀ x ∈ logRuns, Spec.Quiet x.world.start x.world.messages := by
  intro x hx
  simp only [logRuns, List.mem_cons, List.not_mem_nil, or_false] at hx
  rcases hx with rfl | rfl <;> exact log_quiet

theorem logRuns_logs : ∀ p, Setup.Spec.IsLog logRunsDisk "/r" p ↔ ∃ x ∈ logRuns, x.path = p := by
  intro p
  unfold logRunsDisk
  rw [logDisk_log]
  simp only [logRuns, List.mem_cons, List.not_mem_nil, or_false, exists_eq_or_imp, exists_eq_left]
  exact or_congr eq_comm eq_comm

theorem logRuns_text : ∀ x ∈ logRuns, logRunsDisk x.path = some (.file x.log) := by
  intro x hx
  simp only [logRuns, List.mem_cons, List.not_mem_nil, or_false] at hx
  rcases hx with rfl | rfl
  · show logDisk _ _ "/r/1-sorcha.log" = _
    simp [logDisk]
  · show logDisk _ _ "/r/2-sorcha.log" = _
    simp [logDisk]

theorem logRuns_told (csv : List Setup.LogRow → List Char) (dirname : String → String) :
    (Setup.cmdCheckLogs (fun _ _ => logListing) lineEnd csv dirname "/r" none false logRunsDisk).result = .ok (.printed [⟨"/r/2-sorcha.log", false, "Sorcha Log".toList⟩]) := by
  have h1 : logRunsDisk.isDir "/r" = true := by decide +kernel
  have h2 : Setup.findLogs (fun _ _ => logListing) "/r" logRunsDisk = ["/r/1-sorcha.log", "/r/2-sorcha.log"] := by decide +kernel
  have h3 : Setup.logTable lineEnd ["/r/1-sorcha.log", "/r/2-sorcha.log"] logRunsDisk =
    .ok [⟨"/r/1-sorcha.log", true, [' ']⟩, ⟨"/r/2-sorcha.log", false, "Sorcha Log".toList⟩] := by decide +kernel
  simp only [Setup.cmdCheckLogs, h1, Setup.checkLogs, h2, h3]
  rfl

theorem completed_line : ∀ c ∈ History.Spec.completed, lineEnd c = false := by decide +kernel

/-- C95 for two concrete runs: the killed one is named, and the other has left the files of a run that finished. -/
example (csv : List Setup.LogRow → List Char) (dirname : String → String) : ∃ walk, Setup.Spec.WalkSound walk ∧
    (Setup.cmdCheckLogs walk lineEnd csv dirname "/r" none false logRunsDisk).result = .ok (.printed [⟨"/r/2-sorcha.log", false, "Sorcha Log".toList⟩]) ∧
    (∃ log, Invoked logWorld (splitArgv .one) splitDisk (gone logWorld (splitArgs .one) splitDisk) log .finished) := by
  obtain ⟨walk, hw, hl⟩ := log_walk (goneLog logWorld (splitArgs .one) splitDisk) (logWorld.start.flatMap fun l => l ++ ['\n'])
  have h : (Setup.cmdCheckLogs walk lineEnd csv dirname "/r" none false logRunsDisk).result = .ok (.printed [⟨"/r/2-sorcha.log", false, "Sorcha Log".toList⟩]) :=
    (congrArg Setup.Ran.result (cmd_walk (walk' := fun _ _ => logListing) hl)).trans (logRuns_told csv dirname)
  refine ⟨walk, hw, h, ?_⟩
  have ht := C95_rubin logRuns_ran logRuns_quiet hw (by decide) completed_line (out := none) (fun _ h => by cases h) (logDisk_finite _ _) logRuns_logs logRuns_text h (by intro h; cases h)
  exact ((ht.printed _ rfl).2.2 _ (List.mem_cons_self ..)).2 (by decide +kernel)

/-- C95 for two concrete runs with DES: both came to their ends, and the command says so. -/
example (csv : List Setup.LogRow → List Char) (dirname : String → String) : ∃ walk D, Setup.Spec.WalkSound walk ∧
    (∃ d1 d2 log1 log2, DesInvoked desWorld desArgv (desDisk '1' someColumns desEphRows) d1 log1 .finished ∧
      DesInvoked desWorld desArgv (desDisk '3' someColumns desEphRows) d2 log2 .finished ∧ D = logDisk log1 log2) ∧
    (Setup.cmdCheckLogs walk lineEnd csv dirname "/r" none false D).result = .ok .allGood := by
  obtain ⟨d1, log1, h1⟩ := des_finishes true
  obtain ⟨d2, log2, h2⟩ := des_finishes false
  obtain ⟨walk, hw, hl⟩ := log_walk log1 log2
  refine ⟨walk, logDisk log1 log2, hw, ⟨d1, d2, log1, log2, h1, h2, rfl⟩, ?_⟩
  let runs : List (Begun (DesWorld Unit Unit Unit)) := [⟨desWorld, desArgv, desDisk '1' someColumns desEphRows, d1, log1, .finished, "/r/1-sorcha.log"⟩, ⟨desWorld, desArgv, desDisk '3' someColumns desEphRows, d2, log2, .finished, "/r/2-sorcha.log"⟩]
  have hall : ∀ {P : Begun (DesWorld Unit Unit Unit) → Prop}, P ⟨desWorld, desArgv, desDisk '1' someColumns desEphRows, d1, log1, .finished, "/r/1-sorcha.log"⟩ →
      P ⟨desWorld, desArgv, desDisk '3' someColumns desEphRows, d2, log2, .finished, "/r/2-sorcha.log"⟩ → ∀ x ∈ runs, P x := by
    intro P h1 h2 r hr
    rcases List.mem_cons.1 hr with rfl | hr
    · exact h1
    · rw [List.mem_singleton.1 hr]; exact h2
  have hdir : (logDisk log1 log2).isDir "/r" = true := by simp [Setup.Disk.isDir, logDisk]
  have hcmd : Setup.cmdCheckLogs walk lineEnd csv dirname "/r" none false (logDisk log1 log2) = Setup.checkLogs walk lineEnd csv "/r" none (logDisk log1 log2) := by
    simp only [Setup.cmdCheckLogs, hdir]
    rfl
  have hne : ∀ q, Setup.Spec.IsLog (logDisk log1 log2) "/r" q → logDisk log1 log2 q ≠ some (.file []) := by
    intro q hq
    obtain ⟨x, hx⟩ := desInvoked_finished h1
    obtain ⟨y, hy⟩ := desInvoked_finished h2
    rcases logDisk_log.1 hq with rfl | rfl
    · simp [logDisk, hx]
    · simp [logDisk, hy]
  have hok : ∃ t, (Setup.cmdCheckLogs walk lineEnd csv dirname "/r" none false (logDisk log1 log2)).result = .ok t ∧ t ≠ .refused := by
    rw [hcmd]
    rcases Setup.checkLogs_cases (br := lineEnd) (csv := csv) (hw "/r" _ (logDisk_finite log1 log2)) none with
      ⟨e, -, h | ⟨q, h, h'⟩ | ⟨q, h, h'⟩⟩ | ⟨rows, -, -, ⟨-, h⟩ | ⟨-, ⟨-, h⟩ | ⟨p', h, -⟩⟩⟩
    · exact absurd (logDisk_log.2 (.inl rfl)) (h _)
    · exact absurd h' (hne q h)
    · cases h
    · rw [h]; exact ⟨_, rfl, by intro h; cases h⟩
    · rw [h]; exact ⟨_, rfl, by intro h; cases h⟩
    · cases h
  obtain ⟨t, ht, hr⟩ := hok
  have hT := C95_des (runs := runs) (hall h1 h2) (hall ⟨fun _ h => (nomatch h), fun _ _ h => (nomatch h)⟩ ⟨fun _ h => (nomatch h), fun _ _ h => (nomatch h)⟩) hw (by decide) completed_line (out := none) (fun _ h => by cases h) (logDisk_finite _ _)
    (fun p => by
      rw [logDisk_log]
      simp only [runs, List.mem_cons, List.not_mem_nil, or_false, exists_eq_or_imp, exists_eq_left]
      exact or_congr eq_comm eq_comm)
    (hall (by simp [logDisk]) (by simp [logDisk])) ht hr
  rw [ht, hT.all (hall rfl rfl)]

/-! ## A campaign -/

def campaignDisk : Setup.Disk := logDisk (splitRun .one).log (splitRun .two).log

def campaignPath (r : Run) : String := if r.args.t = "part1" then "/r/1-sorcha.log" else "/r/2-sorcha.log"

theorem split_quiet : Spec.Quiet splitWorld.start splitWorld.messages :=
  ⟨fun _ h => (nomatch h), fun _ _ h => (nomatch h)⟩

theorem campaign_told (csv : List Setup.LogRow → List Char) (dirname : String → String) :
    (Setup.cmdCheckLogs (fun _ _ => logListing) lineEnd csv dirname "/r" none false campaignDisk).result = .ok .allGood := by
  have h1 : campaignDisk.isDir "/r" = true := by decide +kernel
  have h2 : Setup.findLogs (fun _ _ => logListing) "/r" campaignDisk = ["/r/1-sorcha.log", "/r/2-sorcha.log"] := by decide +kernel
  have h3 : Setup.logTable lineEnd ["/r/1-sorcha.log", "/r/2-sorcha.log"] campaignDisk =
    .ok [⟨"/r/1-sorcha.log", true, [' ']⟩, ⟨"/r/2-sorcha.log", true, [' ']⟩] := by decide +kernel
  simp only [Setup.cmdCheckLogs, h1, Setup.checkLogs, h2, h3]
  rfl

/-- C95 for the concrete population of C94: the command finds both parts successful, and the databases of the parts have the lines of the whole run's. -/
example (csv : List Setup.LogRow → List Char) (dirname : String → String) :
    Spec.TableTogether ((splitRun .whole).after.get "out/run.db") [(splitRun .one).after.get "res/part1.db", (splitRun .two).after.get "res/part2.db"] := by
  obtain ⟨walk, hw, hl⟩ := log_walk (splitRun .one).log (splitRun .two).log
  have h : (Setup.cmdCheckLogs walk lineEnd csv dirname "/r" none false campaignDisk).result = .ok .allGood :=
    (congrArg Setup.Ran.result (cmd_walk (walk' := fun _ _ => logListing) hl)).trans (campaign_told csv dirname)
  have hparts : ∀ {P : Run → Prop}, P (splitRun .one) → P (splitRun .two) → ∀ r ∈ [splitRun .one, splitRun .two], P r := by
    intro P h1 h2 r hr
    simp only [List.mem_cons, List.not_mem_nil, or_false] at hr
    rcases hr with rfl | rfl
    · exact h1
    · exact h2
  have hs : ∀ i, Started splitWorld splitCfg (splitRun i) .finished := fun i =>
    have h := split_finished i
    ⟨h.said, h.done, h.configured, h.names, h.one, h.objects⟩
  have p1 : campaignPath (splitRun .one) = "/r/1-sorcha.log" := by decide +kernel
  have p2 : campaignPath (splitRun .two) = "/r/2-sorcha.log" := by decide +kernel
  have hlogs : ∀ p, Setup.Spec.IsLog campaignDisk "/r" p ↔ ∃ r ∈ [splitRun .one, splitRun .two], campaignPath r = p := by
    intro p
    unfold campaignDisk
    rw [logDisk_log]
    simp only [List.mem_cons, List.not_mem_nil, or_false, exists_eq_or_imp, exists_eq_left, p1, p2]
    exact or_congr eq_comm eq_comm
  have htext : ∀ r ∈ [splitRun .one, splitRun .two], campaignDisk (campaignPath r) = some (.file r.log) :=
    hparts (by rw [p1]; simp [campaignDisk, logDisk]) (by rw [p2]; simp [campaignDisk, logDisk])
  exact (C95_campaign (whole := splitRun .whole) (parts := [splitRun .one, splitRun .two]) charGlob_sound (split_finished .whole) (outcome := fun _ => .finished)
    (path := campaignPath) (hparts (hs .one) (hs .two)) split_quiet hw (by decide) completed_line (out := none) (fun _ h => by cases h) (logDisk_finite _ _) hlogs htext h rfl
    (split_cases fun i => ⟨"e.csv", rfl, ex_table (ns := ["FieldID", "fieldMJD_TAI"]) (rows := exEphRows) (by cases i <;> decide +kernel) (by simp) (by decide)⟩)
    split_divided (fun p hp id _ => by
      simp only [List.mem_cons, List.not_mem_nil, or_false] at hp
      rcases hp with rfl | rfl <;> rfl)
    (by unfold Pipeline.Spec.OncePerTime; decide +kernel) (columns := ["ObjID", "optFilter", "fieldMJD_TAI"]) (split_cases fun _ _ _ => rfl)
    (E := Pipeline.Props.exEnv) (split_cases fun _ _ _ _ h => (Option.some.inj h).symm)
    (by
      have hr := Pipeline.Props.exRegular
      exact ⟨⟨rfl, rfl, fun _ _ h => by cases h; exact .inl rfl⟩, hr.visits, hr.sortIndex, hr.sortOut, hr.sortT, hr.weights, fun _ h => by cases h⟩)
    (shown := Csv.Props.someShown) rfl (by decide)).2 rfl

end Sorcha.Whole.Props
