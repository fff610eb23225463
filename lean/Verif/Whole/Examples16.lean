import Verif.Whole.Examples15
import Verif.Whole.Props17

/-!
# C102: concrete runs at the same time with their logs
-/

namespace Sorcha.Whole.Props

open Sorcha.Csv (Str)
open Sorcha.History (Disk Outcome)
open Sorcha.Whole.Spec (Run sized)

/-- Steps in the given order, the first of each process being its start. -/
def playLogged {ι : Type} [DecidableEq ι] (procs : ι → Proc) (args : ι → Cli.Args) (names : ι → Ident) : List ι → (ι → Option Phase) × Disk → (ι → Option Phase) × Disk
  | [], s => s
  | i :: is, s =>
    match s.1 i with
    | none => playLogged procs args names is (Function.update s.1 i (some .waiting), (names i).put (args i) [] [] s.2)
    | some p =>
      match move (procs i) (args i) p s.2 with
      | none => playLogged procs args names is s
      | some r => playLogged procs args names is (Function.update s.1 i (some r.1), (names i).put (args i) ((procs i).logged r.1) [] r.2)

theorem playLogged_schedule {ι : Type} [DecidableEq ι] {procs : ι → Proc} {args : ι → Cli.Args} {names : ι → Ident} {v : ι → Bool}
    (h : ∀ i, Argv.parseRun (procs i).argv = .ok (args i, v i)) {d : Disk} :
    ∀ {is : List ι} {s : (ι → Option Phase) × Disk}, LoggedSchedule procs args names d s.1 s.2 →
      LoggedSchedule procs args names d (playLogged procs args names is s).1 (playLogged procs args names is s).2
  | [], _, hs => hs
  | i :: is, s, hs => by
    unfold playLogged
    cases hp : s.1 i with
    | none => exact playLogged_schedule h (.start i hs hp (h i))
    | some p =>
      cases hm : move (procs i) (args i) p s.2 with
      | none =>
        simp only [hm]
        exact playLogged_schedule h hs
      | some r =>
        simp only [hm]
        exact playLogged_schedule h (.step i [] hs hp (move_step (h i) hm))

def bothNames (i : Bool) : Ident := ⟨"2025-01-01-12-00-00", if i then "8" else "7"⟩

def bothArgs (i : Bool) : Cli.Args := splitArgs (bothWhich i)

/-- The moment when the first part is through and the second is at its work. -/
def midState : (Bool → Option Phase) × Disk := playLogged bothProcs bothArgs bothNames ([false, true, true, false, true, true] ++ List.replicate 9 false) (fun _ => none, splitDisk)

/-- The end. -/
def lastState : (Bool → Option Phase) × Disk := playLogged bothProcs bothArgs bothNames (List.replicate 8 true) midState

theorem mid_schedule : LoggedSchedule bothProcs bothArgs bothNames splitDisk midState.1 midState.2 :=
  playLogged_schedule (v := fun _ => true) (fun i => splitArgv_args (bothWhich i)) .nil

theorem last_schedule : LoggedSchedule bothProcs bothArgs bothNames splitDisk lastState.1 lastState.2 :=
  playLogged_schedule (v := fun _ => true) (fun i => splitArgv_args (bothWhich i)) mid_schedule

/-- What is on the disk at that moment, and in the end. -/
example : midState.2.get "res/part1-2025-01-01-12-00-00-p7-sorcha.log" = some (.text "Sorcha Log\nround\n12:00 Sorcha process is completed. \n".toList) ∧
    midState.2.get "res/part2-2025-01-01-12-00-00-p8-sorcha.log" = some (.text "Sorcha Log\nround\n".toList) ∧
    (midState.2.get "res/part1.db").isSome = true ∧ midState.2.get "res/part2.db" = none := by decide +kernel

example : lastState.2.get "res/part2-2025-01-01-12-00-00-p8-sorcha.log" = some (.text "Sorcha Log\nround\n12:00 Sorcha process is completed. \n".toList) ∧
    (lastState.2.get "res/part2.db").isSome = true := by decide +kernel

theorem bothNames_well : WellNamed bothArgs (fun i => splitReads (bothWhich i)) bothNames where
  stamps i := by cases i <;> exact ⟨⟨by decide +kernel, by decide +kernel⟩, by unfold Spec.Decimal; decide +kernel⟩
  apart i := split_noClash (bothWhich i)
  unread i p h := by
    have key : ∀ q ∈ [(bothWhich i).phys, (bothWhich i).orb, (bothWhich i).conf, (bothWhich i).dir, "v.db", "e.csv"],
        ¬ "sorcha.log".toList <:+ q.toList ∧ ¬ "sorcha.err".toList <:+ q.toList := by cases i <;> decide +kernel
    exact key p (splitReads_mem h)

theorem both_below : ∀ i, Setup.Spec.Below "res" ((bothNames i).log (bothArgs i)) := by
  intro i
  cases i
  exacts [⟨"part1-2025-01-01-12-00-00-p7-sorcha.log", by decide +kernel⟩, ⟨"part2-2025-01-01-12-00-00-p8-sorcha.log", by decide +kernel⟩]

theorem sessDirs_finite : {p | sessDirs p = true}.Finite := Set.Finite.subset (Set.finite_singleton "res") fun p hp => by
  have : (decide (p = "res")) = true := hp
  exact of_decide_eq_true this

theorem mid_started (i : Bool) : midState.1 i ≠ none := by
  have h : (midState.1 i).isSome = true := by cases i <;> decide +kernel
  intro hn
  rw [hn] at h
  cases h

theorem last_finished (i : Bool) : ∃ log, lastState.1 i = some (.over log .finished) := by
  have h : ((lastState.1 i).map Phase.isFinished) = some true := by cases i <;> decide +kernel
  cases hp : lastState.1 i with
  | none => rw [hp] at h; cases h
  | some p =>
    rw [hp] at h
    exact ⟨_, congrArg some (isFinished_over (Option.some.inj h))⟩

/-- C102 for the two runs at that moment: the second run has not come to its end; if `check-logs` prints the failed ones without the first, this one has left its files. -/
example (bytes : History.Content → List Char) {walk : Setup.Walk} (hw : Setup.Spec.WalkSound walk) {csv : List Setup.LogRow → List Char} {dirname : String → String} {t : Setup.Told}
    (ht : (Setup.cmdCheckLogs walk lineEnd csv dirname "res" none false (asFiles sessDirs bytes midState.2)).result = .ok t) (hr : t ≠ .refused) :
    Spec.Tells [false, true] (fun i => (bothNames i).log (bothArgs i))
      (fun i => ∃ d' log', Invoked logWorld (splitArgv (bothWhich i)) splitDisk d' log' .finished ∧ ∀ p, Spec.IsOutput (bothArgs i) p → midState.2.get p = d'.get p)
      (fun i => ∃ log, midState.1 i = some (.over log .finished)) csv none t
      (Setup.cmdCheckLogs walk lineEnd csv dirname "res" none false (asFiles sessDirs bytes midState.2)).disk :=
  C102_told (w := fun _ => logWorld) both_reads both_separate bothNames_well (fun i => split_fresh (bothWhich i)) mid_schedule
    (fun i => ⟨fun _ => mid_started i, fun _ => by cases i <;> simp⟩) sess_clean (fun _ => log_quiet) sessDirs_finite bytes (fun i _ => both_below i) hw (by decide) completed_line
    (fun _ h => by cases h) ht hr

/-- C102_alone for the first run at that moment. -/
example {log : List Char} {out : Outcome} (h : midState.1 false = some (.over log out)) :
    ∃ d', Invoked logWorld (splitArgv .one) splitDisk d' log out ∧ ∀ p, Spec.IsOutput (bothArgs false) p → midState.2.get p = d'.get p :=
  (C102_alone both_reads both_separate bothNames_well (fun i => split_fresh (bothWhich i)) mid_schedule h).2.1 _ _ _ logWorld _ rfl

/-- C102_early_fails: the first part is through, the second has just been started; `check-logs` has no answer. -/
def earlyState : (Bool → Option Phase) × Disk := playLogged bothProcs bothArgs bothNames (List.replicate 12 false ++ [true]) (fun _ => none, splitDisk)

example (bytes : History.Content → List Char) {walk : Setup.Walk} (hw : Setup.Spec.WalkSound walk) {csv : List Setup.LogRow → List Char} {dirname : String → String} :
    ((earlyState.1 false).map Phase.isFinished) = some true ∧
    ∀ t, (Setup.cmdCheckLogs walk lineEnd csv dirname "res" none false (asFiles sessDirs bytes earlyState.2)).result = .ok t → t = .refused := by
  refine ⟨by decide +kernel, fun t ht => ?_⟩
  have h : (match earlyState.1 true with | some .waiting => true | _ => false) = true := by decide +kernel
  have h : earlyState.1 true = some .waiting := by
    cases hp : earlyState.1 true with
    | none => rw [hp] at h; cases h
    | some p => rw [hp] at h; cases p <;> first | rfl | cases h
  exact C102_early_fails both_reads both_separate bothNames_well (fun i => split_fresh (bothWhich i))
    (playLogged_schedule (v := fun _ => true) (fun i => splitArgv_args (bothWhich i)) .nil) h sessDirs_finite bytes (both_below true) hw (fun _ h => by cases h) ht

/-! ## In the end `check-logs` finds all good -/

theorem last_good (bytes : History.Content → List Char) {walk : Setup.Walk} (hw : Setup.Spec.WalkSound walk) (csv : List Setup.LogRow → List Char) (dirname : String → String) :
    (Setup.cmdCheckLogs walk lineEnd csv dirname "res" none false (asFiles sessDirs bytes lastState.2)).result = .ok .allGood := by
  have hfin : Setup.Spec.Finite (asFiles sessDirs bytes lastState.2) := asFiles_finite sessDirs_finite bytes lastState.2
  have hdir : (asFiles sessDirs bytes lastState.2).isDir "res" = true := by
    have : lastState.2.get "res" = none := by decide +kernel
    unfold Setup.Disk.isDir asFiles
    rw [this]
    rfl
  have hcmd : Setup.cmdCheckLogs walk lineEnd csv dirname "res" none false (asFiles sessDirs bytes lastState.2) =
      Setup.checkLogs walk lineEnd csv "res" none (asFiles sessDirs bytes lastState.2) := by
    simp only [Setup.cmdCheckLogs, hdir]
    rfl
  have hlist : ∀ q, q ∈ lastState.2.paths → "sorcha.log".toList <:+ q.toList → lastState.2.get q = some (.text "Sorcha Log\nround\n12:00 Sorcha process is completed. \n".toList) := by
    decide +kernel
  have hsome : ∃ t, (Setup.cmdCheckLogs walk lineEnd csv dirname "res" none false (asFiles sessDirs bytes lastState.2)).result = .ok t ∧ t ≠ .refused := by
    rw [hcmd]
    rcases Setup.checkLogs_cases (br := lineEnd) (csv := csv) (hw "res" _ hfin) none with
      ⟨e, -, h | ⟨q, h, h'⟩ | ⟨q, h, h'⟩⟩ | ⟨rows, -, -, ⟨-, h⟩ | ⟨-, ⟨-, h⟩ | ⟨p', h, -⟩⟩⟩
    · refine absurd ⟨asFiles_file.2 ?_, both_below false, logged_suffix ..⟩ (h ((bothNames false).log (bothArgs false)))
      decide +kernel
    · obtain ⟨k1, -, k3⟩ := h
      have k1 := hlist q ((History.mem_paths _ q).2 (asFiles_file.1 k1)) k3
      unfold asFiles at h'
      rw [k1] at h'
      injection h' with h'
      injection h' with h'
      exact absurd h' (by decide)
    · cases h
    · rw [h]; exact ⟨_, rfl, by intro h; cases h⟩
    · rw [h]; exact ⟨_, rfl, by intro h; cases h⟩
    · cases h
  obtain ⟨t, ht, hr⟩ := hsome
  have h := C102_told (w := fun _ => logWorld) both_reads both_separate bothNames_well (fun i => split_fresh (bothWhich i)) last_schedule (xs := [false, true])
    (fun i => ⟨fun _ => by obtain ⟨l, h⟩ := last_finished i; rw [h]; simp, fun _ => by cases i <;> simp⟩) sess_clean (fun _ => log_quiet) sessDirs_finite bytes (fun i _ => both_below i)
    hw (by decide) completed_line (out := none) (fun _ h => by cases h) ht hr
  rw [ht, h.all fun i _ => last_finished i]

theorem both_good : FoundGood (rubin logWorld) logWorld splitCfg bothRuns [false, true] (fun i => splitReads (bothWhich i)) splitDisk lastState.2 where
  said := both_atOnce.said
  looks := both_reads
  separate := both_separate
  before _ := rfl
  configured := both_atOnce.configured
  names := both_atOnce.names
  one := both_atOnce.one
  objects := both_atOnce.objects
  every i := by cases i <;> simp
  nolog := sess_clean
  quiet := log_quiet
  good := by
    obtain ⟨walk, hw, -⟩ := log_walk [] []
    exact ⟨bothNames, lastState.1, walk, lineEnd, fun _ => [], fun p => p, "res", none, false, sessDirs, fun _ => [], bothNames_well, last_schedule,
      fun i => by obtain ⟨l, h⟩ := last_finished i; rw [h]; simp, hw, by decide, completed_line, fun _ h => (by cases h), sessDirs_finite, both_below, last_good _ hw _ _⟩

/-- C102 for the population in two runs at the same time, found good by `check-logs`. -/
example : Spec.TableTogether (campWhole.after.get "out/run.db") [lastState.2.get "res/part1.db", lastState.2.get "res/part2.db"] :=
  (C102_external (whole := campWhole) (runs := bothRuns) (all := [false, true]) charGlob_sound campWhole_finished both_good rfl
    (both_cases ⟨"e.csv", rfl, ex_table (ns := ["FieldID", "fieldMJD_TAI"]) (rows := exEphRows) (by decide +kernel) (by simp) (by decide)⟩
      (fun _ => ⟨"e.csv", rfl, ex_table (ns := ["FieldID", "fieldMJD_TAI"]) (rows := exEphRows) (d := splitDisk) (by decide +kernel) (by simp) (by decide)⟩))
    both_divided (fun p hp id _ => by
      obtain ⟨x, hx, rfl⟩ := List.mem_map.1 hp
      rfl)
    (by unfold Pipeline.Spec.OncePerTime; decide +kernel) (columns := ["ObjID", "optFilter", "fieldMJD_TAI"]) (both_cases (fun _ _ => rfl) (fun _ _ _ => rfl))
    (E := Pipeline.Props.exEnv) (both_cases (fun _ _ _ h => (Option.some.inj h).symm) (fun _ _ _ _ h => (Option.some.inj h).symm))
    (by
      have hr := Pipeline.Props.exRegular
      exact ⟨⟨rfl, rfl, fun _ _ h => by cases h; exact .inl rfl⟩, hr.visits, hr.sortIndex, hr.sortOut, hr.sortT, hr.weights, fun _ h => by cases h⟩)
    (shown := Csv.Props.someShown) rfl (by decide)).2 rfl

end Sorcha.Whole.Props
