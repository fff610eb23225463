import Verif.Whole.Examples12
import Verif.Whole.Props12

/-!
# C97: a concrete campaign, in which one part is run twice
-/

namespace Sorcha.Whole.Props

open Sorcha.Csv (Str)
open Sorcha.History (Disk get_put_self get_put_ne)
open Sorcha.Whole.Spec (Run sized)

/-- A run with given logs. -/
def tryRun (i : Which) (stamp pid : String) (path : String) (before after : Disk) (log : List Char) (out : History.Outcome) : Attempt (World Unit Unit Unit) :=
  { world := logWorld, argv := splitArgv i, before, after, log, outcome := out, path, args := splitArgs i, verbose := true, stamp, pid, errors := [] }

def withLogs (d : Disk) (log err : String) : Disk := (d.put log (.text [])).put err (.text [])

/-- The first part, killed at once. -/
def camp1 : Attempt (World Unit Unit Unit) :=
  let before := withLogs splitDisk "res/part1-2025-01-01-12-00-00-p7-sorcha.log" "res/part1-2025-01-01-12-00-00-p7-sorcha.err"
  tryRun .one "2025-01-01-12-00-00" "7" "res/part1-2025-01-01-12-00-00-p7-sorcha.log" before (checked logWorld (splitArgs .one) before) (logWorld.start.flatMap fun l => l ++ ['\n']) .stopped

/-- The second part, to its end. -/
def camp2 : Attempt (World Unit Unit Unit) :=
  let before := withLogs (camp1.closed camp1.after) "res/part2-2025-01-01-12-00-01-p8-sorcha.log" "res/part2-2025-01-01-12-00-01-p8-sorcha.err"
  tryRun .two "2025-01-01-12-00-01" "8" "res/part2-2025-01-01-12-00-01-p8-sorcha.log" before (gone logWorld (splitArgs .two) before) (goneLog logWorld (splitArgs .two) before) .finished

/-- The first part again, to its end. -/
def camp3 : Attempt (World Unit Unit Unit) :=
  let before := withLogs (camp2.closed camp2.after) "res/part1-2025-01-01-12-05-00-p9-sorcha.log" "res/part1-2025-01-01-12-05-00-p9-sorcha.err"
  tryRun .one "2025-01-01-12-05-00" "9" "res/part1-2025-01-01-12-05-00-p9-sorcha.log" before (gone logWorld (splitArgs .one) before) (goneLog logWorld (splitArgs .one) before) .finished

def campEnd : Disk := camp3.closed camp3.after

theorem camp1_path : camp1.logPath = "res/part1-2025-01-01-12-00-00-p7-sorcha.log" ∧ camp1.errPath = "res/part1-2025-01-01-12-00-00-p7-sorcha.err" := by decide +kernel
theorem camp2_path : camp2.logPath = "res/part2-2025-01-01-12-00-01-p8-sorcha.log" ∧ camp2.errPath = "res/part2-2025-01-01-12-00-01-p8-sorcha.err" := by decide +kernel
theorem camp3_path : camp3.logPath = "res/part1-2025-01-01-12-05-00-p9-sorcha.log" ∧ camp3.errPath = "res/part1-2025-01-01-12-05-00-p9-sorcha.err" := by decide +kernel

theorem camp1_ran : Invoked logWorld (splitArgv .one) camp1.before camp1.after camp1.log .stopped := killed_invoked (splitArgv_args .one) (by decide +kernel)
theorem camp2_ran : Invoked logWorld (splitArgv .two) camp2.before camp2.after camp2.log .finished := gone_invoked (splitArgv_args .two) (by decide +kernel)
theorem camp3_ran : Invoked logWorld (splitArgv .one) camp3.before camp3.after camp3.log .finished := gone_invoked (splitArgv_args .one) (by decide +kernel)

theorem camp_session : Session Invoked [camp1, camp2, camp3] splitDisk campEnd := by
  refine .cons (splitArgv_args .one) camp1_path.1.symm ?_ camp1_ran
    (.cons (splitArgv_args .two) camp2_path.1.symm ?_ camp2_ran
      (.cons (splitArgv_args .one) camp3_path.1.symm ?_ camp3_ran .nil))
  · unfold Attempt.opened
    rw [camp1_path.1, camp1_path.2]
    rfl
  · unfold Attempt.opened
    rw [camp2_path.1, camp2_path.2]
    rfl
  · unfold Attempt.opened
    rw [camp3_path.1, camp3_path.2]
    rfl

theorem camp_cases {P : Attempt (World Unit Unit Unit) → Prop} (h1 : P camp1) (h2 : P camp2) (h3 : P camp3) : ∀ x ∈ [camp1, camp2, camp3], P x := by
  intro x hx
  simp only [List.mem_cons, List.not_mem_nil, or_false] at hx
  rcases hx with rfl | rfl | rfl
  exacts [h1, h2, h3]

theorem split_output {i : Which} {p : String} (h : Spec.IsOutput (splitArgs i) p) : (i.dir.toList ++ '/' :: i.stem.toList ++ ['.']) <+: p.toList := by
  rcases h with h | ⟨n, hn, -⟩ | ⟨n, hn, -⟩
  · exact History.Props.belongs_chars h
  · cases hn
  · cases hn

theorem split_apart : Spec.OutputsApart (splitArgs .one) (splitArgs .two) ∧ Spec.OutputsApart (splitArgs .two) (splitArgs .one) := by
  have key : ∀ p, Spec.IsOutput (splitArgs .one) p → ¬ Spec.IsOutput (splitArgs .two) p := by
    intro p h1 h2
    have e1 := split_output h1
    have e2 := split_output h2
    have := List.prefix_of_prefix_length_le e1 e2 (by decide)
    exact absurd this (by decide)
  exact ⟨key, fun p h2 h1 => key p h1 h2⟩

theorem split_noClash (i : Which) : Spec.NoClash (splitArgs i) :=
  ⟨by cases i <;> decide +kernel, by cases i <;> decide +kernel, fun _ h => (nomatch h)⟩

theorem camp_orderly : Orderly [camp1, camp2, camp3] where
  stamps := camp_cases ⟨⟨by decide +kernel, by decide +kernel⟩, by unfold Spec.Decimal; decide +kernel⟩ ⟨⟨by decide +kernel, by decide +kernel⟩, by unfold Spec.Decimal; decide +kernel⟩
    ⟨⟨by decide +kernel, by decide +kernel⟩, by unfold Spec.Decimal; decide +kernel⟩
  noClash := camp_cases (split_noClash .one) (split_noClash .two) (split_noClash .one)
  names := camp_cases (split_differ .one) (split_differ .two) (split_differ .one)
  apart := camp_cases
    (camp_cases (.inl ⟨rfl, rfl, rfl, rfl⟩) (.inr split_apart.1) (.inl ⟨rfl, rfl, rfl, rfl⟩))
    (camp_cases (.inr split_apart.2) (.inl ⟨rfl, rfl, rfl, rfl⟩) (.inr split_apart.2))
    (camp_cases (.inl ⟨rfl, rfl, rfl, rfl⟩) (.inr split_apart.1) (.inl ⟨rfl, rfl, rfl, rfl⟩))

theorem split_fresh (i : Which) : History.Spec.AtMostOne (splitArgs i) splitDisk := by
  constructor
  · intro p q hp _ h _
    exfalso
    have h1 := split_output (.inl h)
    have hm := (History.mem_paths _ p).2 hp
    have h2 : (splitDisk.paths.all fun p => !((i.dir.toList ++ '/' :: i.stem.toList ++ ['.']).isPrefixOf p.toList)) = true := by cases i <;> decide +kernel
    have h3 := List.all_eq_true.1 h2 p hm
    rw [List.isPrefixOf_iff_prefix.2 h1] at h3
    cases h3
  · rintro p q - - ⟨n, hn, -⟩
    cases hn

theorem split_inputs {i : Which} {q : String} (h : Spec.IsInput (splitArgs i) q) : q ∈ [i.conf, i.orb, i.phys, "e.csv"] := by
  rcases h with rfl | rfl | rfl | h | h
  · simp [splitArgs]
  · simp [splitArgs]
  · simp [splitArgs]
  · cases h
  · cases h
    simp

/-- The parts, with the run for each that counts. -/
def campPart (i : Which) : Part (World Unit Unit Unit) := ⟨match i with | .two => camp2 | _ => camp3, 3, recsOf i.orbRows, [recsOf i.physRows], recsOf exEphRows⟩

def campParts : List (Part (World Unit Unit Unit)) := [campPart .one, campPart .two]

theorem part_cases {P : Part (World Unit Unit Unit) → Prop} (h1 : P (campPart .one)) (h2 : P (campPart .two)) : ∀ p ∈ campParts, P p := by
  intro x hx
  simp only [campParts, List.mem_cons, List.not_mem_nil, or_false] at hx
  rcases hx with rfl | rfl
  exacts [h1, h2]

theorem split_same_inputs (i : Which) : ∀ q, Spec.IsInput (splitArgs i) q → splitDisk.get q = i.before.get q := by
  intro q hq
  have : ∀ q ∈ [i.conf, i.orb, i.phys, "e.csv"], splitDisk.get q = i.before.get q := by cases i <;> decide +kernel
  exact this q (split_inputs hq)

theorem camp_configured (i : Which) : Configured logWorld splitDisk (splitArgs i) (sized splitCfg i.size) :=
  configured_agree (w := logWorld) (split_same_inputs i _ (.inl rfl)) (split_configured i)

theorem camp_objects (i : Which) : Spec.Objects logWorld.ids splitDisk (splitArgs i) (sized splitCfg i.size) (recsOf i.orbRows) [recsOf i.physRows] :=
  objects_agree (split_same_inputs i) (split_objects i)

theorem camp_inputs (i j : Which) {q : String} (hq : Spec.IsInput (splitArgs i) q) : ¬ Spec.IsOutput (splitArgs j) q := by
  intro h
  have h1 := split_output h
  have h2 : ∀ q ∈ [i.conf, i.orb, i.phys, "e.csv"], ¬ (j.dir.toList ++ '/' :: j.stem.toList ++ ['.']) <+: q.toList := by cases i <;> cases j <;> decide +kernel
  exact h2 q (split_inputs hq) h1

theorem camp_logs (i : Which) {q : String} (hq : Spec.IsInput (splitArgs i) q) : ∀ x ∈ [camp1, camp2, camp3], q ≠ x.logPath ∧ q ≠ x.errPath := by
  have h2 : ∀ q ∈ [i.conf, i.orb, i.phys, "e.csv"], q.toList.length < 10 := by cases i <;> decide +kernel
  have hq := h2 q (split_inputs hq)
  refine camp_cases ⟨?_, ?_⟩ ⟨?_, ?_⟩ ⟨?_, ?_⟩
  · rw [camp1_path.1]; rintro rfl; exact absurd hq (by decide +kernel)
  · rw [camp1_path.2]; rintro rfl; exact absurd hq (by decide +kernel)
  · rw [camp2_path.1]; rintro rfl; exact absurd hq (by decide +kernel)
  · rw [camp2_path.2]; rintro rfl; exact absurd hq (by decide +kernel)
  · rw [camp3_path.1]; rintro rfl; exact absurd hq (by decide +kernel)
  · rw [camp3_path.2]; rintro rfl; exact absurd hq (by decide +kernel)

theorem camp_campaign : Campaign logWorld splitCfg [camp1, camp2, camp3] splitDisk campParts where
  world := camp_cases rfl rfl rfl
  orderly := camp_orderly
  first := camp_cases (split_fresh .one) (split_fresh .two) (split_fresh .one)
  last := part_cases ⟨[camp1, camp2], [], rfl, fun _ h => (nomatch h)⟩
    ⟨[camp1], [camp3], rfl, fun z hz => by
      rw [List.mem_singleton.1 hz]
      intro h
      have h2 : "part2" = "part1" := h.2.1
      exact absurd h2 (by decide)⟩
  configured := part_cases (camp_configured .one) (camp_configured .two)
  objects := part_cases (camp_objects .one) (camp_objects .two)
  inputs := part_cases
    (fun q hq x hx => ⟨(camp_cases (P := fun x => ¬ Spec.IsOutput x.args q) (camp_inputs .one .one hq) (camp_inputs .one .two hq) (camp_inputs .one .one hq)) x hx, camp_logs .one hq x hx⟩)
    (fun q hq x hx => ⟨(camp_cases (P := fun x => ¬ Spec.IsOutput x.args q) (camp_inputs .two .one hq) (camp_inputs .two .two hq) (camp_inputs .two .one hq)) x hx, camp_logs .two hq x hx⟩)

/-- One run on the whole population. -/
def campWhole : Run where
  argv := splitArgv .whole
  args := splitArgs .whole
  verbose := true
  before := splitDisk
  after := gone logWorld (splitArgs .whole) splitDisk
  log := goneLog logWorld (splitArgs .whole) splitDisk
  chunk := 1
  orb := recsOf exOrbRows
  others := [recsOf exPhysRows]
  eph := recsOf exEphRows

theorem campWhole_finished : Finished logWorld splitCfg campWhole :=
  ⟨splitArgv_args .whole, gone_invoked (splitArgv_args .whole) (by decide +kernel), camp_configured .whole, split_differ .whole, split_fresh .whole, camp_objects .whole⟩

theorem camp_divided : Spec.Divided campWhole (campParts.map Part.run) := by
  refine ⟨fun p hp => ?_, split_divided.objects⟩
  obtain ⟨x, hx, rfl⟩ := List.mem_map.1 hp
  exact part_cases (P := fun x => List.Forall₂ (fun t t' => ∀ x ∈ t, x ∈ t') (x.run.orb :: x.run.others) (campWhole.orb :: campWhole.others))
    (split_divided.rows (splitRun .one) (by simp)) (split_divided.rows (splitRun .two) (by simp)) x hx

/-- What is needed of runs, in this campaign. -/
theorem camp_runs {P : Run → Prop} (h0 : P campWhole) (h1 : P (campPart .one).run) (h2 : P (campPart .two).run) : ∀ r ∈ campWhole :: campParts.map Part.run, P r := by
  intro r hr
  rcases List.mem_cons.1 hr with rfl | hr
  · exact h0
  · obtain ⟨x, hx, rfl⟩ := List.mem_map.1 hr
    exact part_cases (P := fun x => P x.run) h1 h2 x hx

/-- C97 for the campaign: the databases in the directory have together the lines of the whole run's. -/
example : Spec.TableTogether (campWhole.after.get "out/run.db") [campEnd.get "res/part1.db", campEnd.get "res/part2.db"] :=
  (C97_external (whole := campWhole) (parts := campParts) charGlob_sound campWhole_finished camp_session camp_campaign
    (part_cases ⟨_, camp3_ran⟩ ⟨_, camp2_ran⟩) rfl
    ⟨"e.csv", rfl, ex_table (ns := ["FieldID", "fieldMJD_TAI"]) (rows := exEphRows) (by decide +kernel) (by simp) (by decide)⟩
    (part_cases ⟨"e.csv", rfl, ex_table (ns := ["FieldID", "fieldMJD_TAI"]) (rows := exEphRows) (by decide +kernel) (by simp) (by decide)⟩
      ⟨"e.csv", rfl, ex_table (ns := ["FieldID", "fieldMJD_TAI"]) (rows := exEphRows) (by decide +kernel) (by simp) (by decide)⟩)
    camp_divided (fun p hp id _ => by
      obtain ⟨x, hx, rfl⟩ := List.mem_map.1 hp
      exact part_cases (P := fun x => (x.run.eph.filter fun r => r.id = id) = campWhole.eph.filter fun r => r.id = id) rfl rfl x hx)
    (by unfold Pipeline.Spec.OncePerTime; decide +kernel) (columns := ["ObjID", "optFilter", "fieldMJD_TAI"]) (camp_runs (fun _ _ => rfl) (fun _ _ => rfl) (fun _ _ => rfl))
    (E := Pipeline.Props.exEnv) (camp_runs (fun _ _ _ h => (Option.some.inj h).symm) (fun _ _ _ h => (Option.some.inj h).symm) (fun _ _ _ h => (Option.some.inj h).symm))
    (by
      have hr := Pipeline.Props.exRegular
      exact ⟨⟨rfl, rfl, fun _ _ h => by cases h; exact .inl rfl⟩, hr.visits, hr.sortIndex, hr.sortOut, hr.sortT, hr.weights, fun _ h => by cases h⟩)
    (shown := Csv.Props.someShown) rfl (by decide)).2 rfl

/-- And what is there: the log of the first try says nothing of an end, the ones of the others do. -/
example : campEnd.get "res/part1-2025-01-01-12-00-00-p7-sorcha.log" = some (.text "Sorcha Log\n".toList) ∧
    campEnd.get "res/part1-2025-01-01-12-05-00-p9-sorcha.log" = some (.text "Sorcha Log\nround\n12:00 Sorcha process is completed. \n".toList) ∧
    (campEnd.get "res/part1.db").isSome = true ∧ (campEnd.get "res/part2.db").isSome = true := by
  decide +kernel

/-- C97_told for the campaign: whichever part's run `check-logs` does not name has gone through. -/
example (bytes : History.Content → List Char) {walk : Setup.Walk} (hw : Setup.Spec.WalkSound walk) {csv : List Setup.LogRow → List Char} {dirname : String → String} {t : Setup.Told}
    (ht : (Setup.cmdCheckLogs walk lineEnd csv dirname "res" none false (asFiles sessDirs bytes campEnd)).result = .ok t)
    (hn : Spec.NotNamed t "res/part1-2025-01-01-12-05-00-p9-sorcha.log") : ∃ log, Invoked logWorld (splitArgv .one) camp3.before camp3.after log .finished :=
  C97_told charGlob_sound camp_session camp_campaign
    (.cons (fun y hy => by
      simp only [List.mem_cons, List.not_mem_nil, or_false] at hy
      rcases hy with rfl | rfl
      · exact fun h => absurd h.2.2 (by decide +kernel)
      · exact fun h => absurd h.2.2 (by decide +kernel))
      (.cons (fun y hy => by
        rw [List.mem_singleton.1 hy]
        exact fun h => absurd h.2.2 (by decide +kernel)) (.cons (fun _ h => by cases h) .nil)))
    sess_clean log_quiet (Set.Finite.subset (Set.finite_singleton "res") fun p hp => by
      have : (decide (p = "res")) = true := hp
      exact of_decide_eq_true this) bytes
    (camp_cases ⟨"part1-2025-01-01-12-00-00-p7-sorcha.log", by decide +kernel⟩ ⟨"part2-2025-01-01-12-00-01-p8-sorcha.log", by decide +kernel⟩
      ⟨"part1-2025-01-01-12-05-00-p9-sorcha.log", by decide +kernel⟩)
    hw (by decide) completed_line ht (p := campPart .one) (by simp [campParts]) hn

end Sorcha.Whole.Props
