import Verif.Whole.Examples13
import Verif.Whole.Props13

/-!
# C98: a concrete campaign of DES runs
-/

namespace Sorcha.Whole.Props

open Sorcha.Csv (Str)
open Sorcha.History (Disk)
open Sorcha.Whole.Spec (Run sized)

/-! ## Runs that can be computed -/

/-- What a DES run that finishes leaves. -/
noncomputable def desGo {G W V : Type} (w : DesWorld G W V) (args : Cli.Args) (d : Disk) : Option History.State :=
  match (Cli.commandLine (existing w.base d) w.base.isDir w.base.glob args d.paths).1 with
  | .error _ => none
  | .ok a =>
    match desPlan w a (checked w.base args d) with
    | .writes fmt chunks true => performAll (History.runEffects w.base.lines a fmt chunks w.base.stamp) ⟨checked w.base args d, w.base.start.flatMap fun l => l ++ ['\n']⟩
    | _ => none

noncomputable def desGone {G W V : Type} (w : DesWorld G W V) (args : Cli.Args) (d : Disk) : Disk := ((desGo w args d).map fun s => s.disk).getD d
noncomputable def desGoneLog {G W V : Type} (w : DesWorld G W V) (args : Cli.Args) (d : Disk) : List Char := ((desGo w args d).map fun s => s.log).getD []

theorem desGo_any {G W V : Type} {w : DesWorld G W V} {argv : List Str} {args : Cli.Args} {v : Bool} (hargs : Argv.parseRun argv = .ok (args, v)) {d : Disk}
    (h : (desGo w args d).isSome = true) : DesInvoked w argv d (desGone w args d) (desGoneLog w args d) .finished ∧
      DesInvoked w argv d (checked w.base args d) (w.base.start.flatMap fun l => l ++ ['\n']) .stopped := by
  obtain ⟨s, hs⟩ := Option.isSome_iff_exists.1 h
  unfold desGone desGoneLog
  rw [hs]
  unfold desGo at hs
  cases hc : (Cli.commandLine (existing w.base d) w.base.isDir w.base.glob args d.paths).1 with
  | error e => rw [hc] at hs; cases hs
  | ok a =>
    rw [hc] at hs
    cases hp : desPlan w a (checked w.base args d) with
    | other => simp only [hp] at hs; cases hs
    | writes fmt chunks f =>
      simp only [hp] at hs
      cases f with
      | false => cases hs
      | true =>
        refine ⟨DesInvoked.ran hargs hc hp (performAll_ends hs), ?_⟩
        have hne : History.runEffects w.base.lines a fmt chunks w.base.stamp ≠ [] := by
          unfold History.runEffects
          intro h
          have := (List.append_eq_nil_iff.1 h).2
          simp at this
        obtain ⟨e, es, hes⟩ := List.exists_cons_of_ne_nil hne
        have he : History.Ends false (History.runEffects w.base.lines a fmt chunks w.base.stamp) ⟨checked w.base args d, w.base.start.flatMap fun l => l ++ ['\n']⟩
            ⟨checked w.base args d, w.base.start.flatMap fun l => l ++ ['\n']⟩ false := by
          rw [hes]
          exact .stopped
        exact DesInvoked.ran hargs hc hp he

/-! ## The population -/

def Which.desOrbits : Which → List (List Str)
  | .whole => desOrbRows | .one => [["F".toList, "40".toList], ["N".toList, "10".toList]] | .two => [["A".toList, "2".toList], ["M".toList, "3".toList]]

def desSplitArgv (i : Which) : List Str := ["-c", i.conf, "-o", i.dir, "-t", i.stem, "--pd", "v.db", "-p", i.phys, "--ob", i.orb, "--er", "e.csv", "-s", "DES", "-f"].map String.toList

def desSplitArgs (i : Which) : Cli.Args := ⟨i.phys, i.orb, i.conf, i.dir, "v.db", none, some "e.csv", none, none, none, none, true, "DES", i.stem⟩

theorem desSplitArgv_args (i : Which) : Argv.parseRun (desSplitArgv i) = .ok (desSplitArgs i, true) := by
  have val : ∀ {v : List Char}, v.head? ≠ some '-' → Argv.Spec.Value Argv.Spec.allNames v := fun h => .inl h
  refine (Argv.Props.C81_run _ _ _).2 ⟨[(.config, i.conf.toList), (.outfile, i.dir.toList), (.stem, i.stem.toList), (.pointings, "v.db".toList),
    (.parameters, i.phys.toList), (.orbits, i.orb.toList), (.ephemRead, "e.csv".toList), (.survey, "DES".toList), (.force, [])], ?_,
    Argv.Props.enough (by cases i <;> decide +kernel), by cases i <;> decide +kernel⟩
  refine .next (n := "-c".toList) (.inl ⟨"-c", by decide, rfl⟩) (by simp [Argv.Spec.Switch]) (val (by cases i <;> decide)) ?_
  refine .next (n := "-o".toList) (.inl ⟨"-o", by decide, rfl⟩) (by simp [Argv.Spec.Switch]) (val (by cases i <;> decide)) ?_
  refine .next (n := "-t".toList) (.inl ⟨"-t", by decide, rfl⟩) (by simp [Argv.Spec.Switch]) (val (by cases i <;> decide)) ?_
  refine .next (n := "--pd".toList) (.inl ⟨"--pd", by decide, rfl⟩) (by simp [Argv.Spec.Switch]) (val (by decide)) ?_
  refine .next (n := "-p".toList) (.inl ⟨"-p", by decide, rfl⟩) (by simp [Argv.Spec.Switch]) (val (by cases i <;> decide)) ?_
  refine .next (n := "--ob".toList) (.inl ⟨"--ob", by decide, rfl⟩) (by simp [Argv.Spec.Switch]) (val (by cases i <;> decide)) ?_
  refine .next (n := "--er".toList) (.inl ⟨"--er", by decide, rfl⟩) (by simp [Argv.Spec.Switch]) (val (by decide)) ?_
  refine .next (n := "-s".toList) (.inl ⟨"-s", by decide, rfl⟩) (by simp [Argv.Spec.Switch]) (val (by decide)) ?_
  exact .switch (n := "-f".toList) (.inl ⟨"-f", by decide, rfl⟩) (by simp [Argv.Spec.Switch]) .nil

def desLogWorld : DesWorld Unit Unit Unit :=
  { desWorld with base := { exWorld with isDir := fun p => p = "out" || p = "res", start := ["Sorcha Log".toList], messages := fun _ => ["round".toList], stamp := "12:00 ".toList } }

/-- The files before the runs; there are old results of the first part. -/
def desSplitDisk : Disk := [("c.ini", .text (desText '1' someColumns)), ("c3.ini", .text (desText '3' someColumns)), ("v.db", .text []),
  ("p.csv", .text (fileText ["ObjID", "H_r"] Which.whole.desOrbits)), ("o.csv", .text (fileText ["ObjID", "a"] Which.whole.desOrbits)),
  ("p1.csv", .text (fileText ["ObjID", "H_r"] Which.one.desOrbits)), ("o1.csv", .text (fileText ["ObjID", "a"] Which.one.desOrbits)),
  ("p2.csv", .text (fileText ["ObjID", "H_r"] Which.two.desOrbits)), ("o2.csv", .text (fileText ["ObjID", "a"] Which.two.desOrbits)),
  ("e.csv", .text (fileText ["ObjID", "FieldID", "fieldMJD_TAI"] desEphRows)), ("res/part1.csv", .text "old".toList)]

/-- A run with given logs. -/
def desTry (i : Which) (stamp pid : String) (path : String) (before after : Disk) (log : List Char) (out : History.Outcome) : Attempt (DesWorld Unit Unit Unit) :=
  { world := desLogWorld, argv := desSplitArgv i, before, after, log, outcome := out, path, args := desSplitArgs i, verbose := true, stamp, pid, errors := [] }

/-- The first part, killed when it has deleted the old results. -/
def desCamp1 : Attempt (DesWorld Unit Unit Unit) :=
  let before := withLogs desSplitDisk "res/part1-2025-01-01-12-00-00-p7-sorcha.log" "res/part1-2025-01-01-12-00-00-p7-sorcha.err"
  desTry .one "2025-01-01-12-00-00" "7" "res/part1-2025-01-01-12-00-00-p7-sorcha.log" before (checked desLogWorld.base (desSplitArgs .one) before)
    (desLogWorld.base.start.flatMap fun l => l ++ ['\n']) .stopped

/-- The second part, to its end. -/
noncomputable def desCamp2 : Attempt (DesWorld Unit Unit Unit) :=
  let before := withLogs (desCamp1.closed desCamp1.after) "res/part2-2025-01-01-12-00-01-p8-sorcha.log" "res/part2-2025-01-01-12-00-01-p8-sorcha.err"
  desTry .two "2025-01-01-12-00-01" "8" "res/part2-2025-01-01-12-00-01-p8-sorcha.log" before (desGone desLogWorld (desSplitArgs .two) before)
    (desGoneLog desLogWorld (desSplitArgs .two) before) .finished

/-- The first part again, to its end. -/
noncomputable def desCamp3 : Attempt (DesWorld Unit Unit Unit) :=
  let before := withLogs (desCamp2.closed desCamp2.after) "res/part1-2025-01-01-12-05-00-p9-sorcha.log" "res/part1-2025-01-01-12-05-00-p9-sorcha.err"
  desTry .one "2025-01-01-12-05-00" "9" "res/part1-2025-01-01-12-05-00-p9-sorcha.log" before (desGone desLogWorld (desSplitArgs .one) before)
    (desGoneLog desLogWorld (desSplitArgs .one) before) .finished

noncomputable def desCampEnd : Disk := desCamp3.closed desCamp3.after

theorem desCamp1_ran : DesInvoked desLogWorld (desSplitArgv .one) desCamp1.before desCamp1.after desCamp1.log .stopped := (desGo_any (desSplitArgv_args .one) (by decide +kernel)).2
theorem desCamp2_ran : DesInvoked desLogWorld (desSplitArgv .two) desCamp2.before desCamp2.after desCamp2.log .finished := (desGo_any (desSplitArgv_args .two) (by decide +kernel)).1
theorem desCamp3_ran : DesInvoked desLogWorld (desSplitArgv .one) desCamp3.before desCamp3.after desCamp3.log .finished := (desGo_any (desSplitArgv_args .one) (by decide +kernel)).1

theorem desCamp1_path : desCamp1.logPath = "res/part1-2025-01-01-12-00-00-p7-sorcha.log" ∧ desCamp1.errPath = "res/part1-2025-01-01-12-00-00-p7-sorcha.err" := by decide +kernel
theorem desCamp2_path : desCamp2.logPath = "res/part2-2025-01-01-12-00-01-p8-sorcha.log" ∧ desCamp2.errPath = "res/part2-2025-01-01-12-00-01-p8-sorcha.err" := by decide +kernel
theorem desCamp3_path : desCamp3.logPath = "res/part1-2025-01-01-12-05-00-p9-sorcha.log" ∧ desCamp3.errPath = "res/part1-2025-01-01-12-05-00-p9-sorcha.err" := by decide +kernel


theorem desCamp_session : Session DesInvoked [desCamp1, desCamp2, desCamp3] desSplitDisk desCampEnd := by
  refine .cons (desSplitArgv_args .one) desCamp1_path.1.symm ?_ desCamp1_ran
    (.cons (desSplitArgv_args .two) desCamp2_path.1.symm ?_ desCamp2_ran
      (.cons (desSplitArgv_args .one) desCamp3_path.1.symm ?_ desCamp3_ran .nil))
  · unfold Attempt.opened
    rw [desCamp1_path.1, desCamp1_path.2]
    rfl
  · unfold Attempt.opened
    rw [desCamp2_path.1, desCamp2_path.2]
    rfl
  · unfold Attempt.opened
    rw [desCamp3_path.1, desCamp3_path.2]
    rfl

theorem desCamp_cases {P : Attempt (DesWorld Unit Unit Unit) → Prop} (h1 : P desCamp1) (h2 : P desCamp2) (h3 : P desCamp3) : ∀ x ∈ [desCamp1, desCamp2, desCamp3], P x := by
  intro x hx
  simp only [List.mem_cons, List.not_mem_nil, or_false] at hx
  rcases hx with rfl | rfl | rfl
  exacts [h1, h2, h3]

theorem desSplit_output {i : Which} {p : String} (h : Spec.IsOutput (desSplitArgs i) p) : (i.dir.toList ++ '/' :: i.stem.toList ++ ['.']) <+: p.toList := by
  rcases h with h | ⟨n, hn, -⟩ | ⟨n, hn, -⟩
  · exact History.Props.belongs_chars h
  · cases hn
  · cases hn

theorem desSplit_apart : Spec.OutputsApart (desSplitArgs .one) (desSplitArgs .two) ∧ Spec.OutputsApart (desSplitArgs .two) (desSplitArgs .one) := by
  have key : ∀ p, Spec.IsOutput (desSplitArgs .one) p → ¬ Spec.IsOutput (desSplitArgs .two) p := by
    intro p h1 h2
    have e1 := desSplit_output h1
    have e2 := desSplit_output h2
    have := List.prefix_of_prefix_length_le e1 e2 (by decide)
    exact absurd this (by decide)
  exact ⟨key, fun p h2 h1 => key p h1 h2⟩

theorem desSplit_differ (i : Which) : History.Spec.NamesDiffer (desSplitArgs i) := by
  refine ⟨?_, ?_, ?_⟩
  · rintro p ⟨-, n, hn, -⟩; cases hn
  · rintro p ⟨-, n, hn, -⟩; cases hn
  · rintro p ⟨⟨n, hn, -⟩, -⟩; cases hn

theorem desSplit_noClash (i : Which) : Spec.NoClash (desSplitArgs i) :=
  ⟨by cases i <;> decide +kernel, by cases i <;> decide +kernel, fun _ h => (nomatch h)⟩

theorem desCamp_orderly : Orderly [desCamp1, desCamp2, desCamp3] where
  stamps := desCamp_cases ⟨⟨by decide +kernel, by decide +kernel⟩, by unfold Spec.Decimal; decide +kernel⟩ ⟨⟨by decide +kernel, by decide +kernel⟩, by unfold Spec.Decimal; decide +kernel⟩
    ⟨⟨by decide +kernel, by decide +kernel⟩, by unfold Spec.Decimal; decide +kernel⟩
  noClash := desCamp_cases (desSplit_noClash .one) (desSplit_noClash .two) (desSplit_noClash .one)
  names := desCamp_cases (desSplit_differ .one) (desSplit_differ .two) (desSplit_differ .one)
  apart := desCamp_cases
    (desCamp_cases (.inl ⟨rfl, rfl, rfl, rfl⟩) (.inr desSplit_apart.1) (.inl ⟨rfl, rfl, rfl, rfl⟩))
    (desCamp_cases (.inr desSplit_apart.2) (.inl ⟨rfl, rfl, rfl, rfl⟩) (.inr desSplit_apart.2))
    (desCamp_cases (.inl ⟨rfl, rfl, rfl, rfl⟩) (.inr desSplit_apart.1) (.inl ⟨rfl, rfl, rfl, rfl⟩))

theorem desSplit_fresh (i : Which) : History.Spec.AtMostOne (desSplitArgs i) desSplitDisk := by
  constructor
  · have key : ∀ p, desSplitDisk.get p ≠ none → History.Spec.IsResults (desSplitArgs i) p → p = "res/part1.csv" := by
      intro p hp h
      have h2 := desSplit_output (.inl h)
      have hm := (History.mem_paths _ p).2 hp
      have : ∀ q ∈ desSplitDisk.paths, (i.dir.toList ++ '/' :: i.stem.toList ++ ['.']) <+: q.toList → q = "res/part1.csv" := by cases i <;> decide +kernel
      exact this p hm h2
    intro p q hp hq h1 h2
    rw [key p hp h1, key q hq h2]
  · rintro p q - - ⟨n, hn, -⟩
    cases hn

theorem desSplit_inputs {i : Which} {q : String} (h : Spec.IsInput (desSplitArgs i) q) : q ∈ [i.conf, i.orb, i.phys, "e.csv"] := by
  rcases h with rfl | rfl | rfl | h | h
  · simp [desSplitArgs]
  · simp [desSplitArgs]
  · simp [desSplitArgs]
  · cases h
  · cases h
    simp

/-- The parts, with the run for each that counts. -/
noncomputable def desCampPart (i : Which) : Part (DesWorld Unit Unit Unit) := ⟨match i with | .two => desCamp2 | _ => desCamp3, 3, recsOf i.desOrbits, [recsOf i.desOrbits], recsOf desEphRows⟩

noncomputable def desCampParts : List (Part (DesWorld Unit Unit Unit)) := [desCampPart .one, desCampPart .two]

theorem desPart_cases {P : Part (DesWorld Unit Unit Unit) → Prop} (h1 : P (desCampPart .one)) (h2 : P (desCampPart .two)) : ∀ p ∈ desCampParts, P p := by
  intro x hx
  simp only [desCampParts, List.mem_cons, List.not_mem_nil, or_false] at hx
  rcases hx with rfl | rfl
  exacts [h1, h2]

/-- The settings, with the chunk size of the whole run. -/
def desSplitCfg : Config.Cfg := desRunCfg 1 (.listed ["ObjID", "optFilter"])

theorem desCamp_configured (i : Which) : Configured desLogWorld.base desSplitDisk (desSplitArgs i) (sized desSplitCfg i.size) := by
  have ht : desSplitDisk.get i.conf = some (.text (desText i.digit someColumns)) := by cases i <;> decide +kernel
  have h : (match Ini.configure desLogWorld.base.py desLogWorld.base.lightCurves desLogWorld.base.activities (desSplitArgs i).s (configLines (desText i.digit someColumns)) with
      | .ok (c, _) => decide (c = sized desSplitCfg i.size) | .error _ => false) = true := by
    cases i <;> decide +kernel
  cases hc : Ini.configure desLogWorld.base.py desLogWorld.base.lightCurves desLogWorld.base.activities (desSplitArgs i).s (configLines (desText i.digit someColumns)) with
  | error e => rw [hc] at h; cases h
  | ok x =>
    obtain ⟨c, y⟩ := x
    rw [hc] at h
    refine ⟨_, y, ht, ?_⟩
    rw [hc, of_decide_eq_true h]

theorem desCamp_objects (i : Which) :
    Spec.Objects desLogWorld.base.ids desSplitDisk (desSplitArgs i) (sized desSplitCfg i.size) (recsOf i.desOrbits) [recsOf i.desOrbits] where
  orbits := ex_table (ns := ["a"]) (by cases i <;> decide +kernel) (by simp) (by cases i <;> decide)
  unique := by cases i <;> decide +kernel
  given := .inl ⟨rfl, rfl, _, rfl, ex_table (ns := ["H_r"]) (by cases i <;> decide +kernel) (by simp) (by cases i <;> decide)⟩
  same := by
    intro t ht
    rw [List.mem_singleton] at ht
    subst ht
    cases i <;> decide +kernel

theorem desCamp_inputs (i j : Which) {q : String} (hq : Spec.IsInput (desSplitArgs i) q) : ¬ Spec.IsOutput (desSplitArgs j) q := by
  intro h
  have h1 := desSplit_output h
  have h2 : ∀ q ∈ [i.conf, i.orb, i.phys, "e.csv"], ¬ (j.dir.toList ++ '/' :: j.stem.toList ++ ['.']) <+: q.toList := by cases i <;> cases j <;> decide +kernel
  exact h2 q (desSplit_inputs hq) h1

theorem desCamp_logs (i : Which) {q : String} (hq : Spec.IsInput (desSplitArgs i) q) : ∀ x ∈ [desCamp1, desCamp2, desCamp3], q ≠ x.logPath ∧ q ≠ x.errPath := by
  have h2 : ∀ q ∈ [i.conf, i.orb, i.phys, "e.csv"], q.toList.length < 10 := by cases i <;> decide +kernel
  have hq := h2 q (desSplit_inputs hq)
  refine desCamp_cases ⟨?_, ?_⟩ ⟨?_, ?_⟩ ⟨?_, ?_⟩
  · rw [desCamp1_path.1]; rintro rfl; exact absurd hq (by decide +kernel)
  · rw [desCamp1_path.2]; rintro rfl; exact absurd hq (by decide +kernel)
  · rw [desCamp2_path.1]; rintro rfl; exact absurd hq (by decide +kernel)
  · rw [desCamp2_path.2]; rintro rfl; exact absurd hq (by decide +kernel)
  · rw [desCamp3_path.1]; rintro rfl; exact absurd hq (by decide +kernel)
  · rw [desCamp3_path.2]; rintro rfl; exact absurd hq (by decide +kernel)

theorem desCamp_campaign : DesCampaign desLogWorld desSplitCfg [desCamp1, desCamp2, desCamp3] desSplitDisk desCampParts where
  world := desCamp_cases rfl rfl rfl
  orderly := desCamp_orderly
  first := desCamp_cases (desSplit_fresh .one) (desSplit_fresh .two) (desSplit_fresh .one)
  survey := desPart_cases (.inl rfl) (.inl rfl)
  last := desPart_cases ⟨[desCamp1, desCamp2], [], rfl, fun _ h => (nomatch h)⟩
    ⟨[desCamp1], [desCamp3], rfl, fun z hz => by
      rw [List.mem_singleton.1 hz]
      intro h
      have h2 : "part2" = "part1" := h.2.1
      exact absurd h2 (by decide)⟩
  configured := desPart_cases (desCamp_configured .one) (desCamp_configured .two)
  objects := desPart_cases (desCamp_objects .one) (desCamp_objects .two)
  inputs := desPart_cases
    (fun q hq x hx => ⟨(desCamp_cases (P := fun x => ¬ Spec.IsOutput x.args q) (desCamp_inputs .one .one hq) (desCamp_inputs .one .two hq) (desCamp_inputs .one .one hq)) x hx, desCamp_logs .one hq x hx⟩)
    (fun q hq x hx => ⟨(desCamp_cases (P := fun x => ¬ Spec.IsOutput x.args q) (desCamp_inputs .two .one hq) (desCamp_inputs .two .two hq) (desCamp_inputs .two .one hq)) x hx, desCamp_logs .two hq x hx⟩)

/-- One run on the whole population. -/
noncomputable def desCampWhole : Run where
  argv := desSplitArgv .whole
  args := desSplitArgs .whole
  verbose := true
  before := desSplitDisk
  after := desGone desLogWorld (desSplitArgs .whole) desSplitDisk
  log := desGoneLog desLogWorld (desSplitArgs .whole) desSplitDisk
  chunk := 1
  orb := recsOf desOrbRows
  others := [recsOf desOrbRows]
  eph := recsOf desEphRows

theorem desCampWhole_finished : DesFinished desLogWorld desSplitCfg desCampWhole :=
  ⟨desSplitArgv_args .whole, .inl rfl, (desGo_any (desSplitArgv_args .whole) (by decide +kernel)).1, desCamp_configured .whole, desSplit_differ .whole, desSplit_fresh .whole, desCamp_objects .whole⟩

theorem desCamp_divided : Spec.Divided desCampWhole (desCampParts.map Part.run) := by
  refine ⟨fun p hp => ?_, by show (((Which.one.desOrbits ++ Which.two.desOrbits).map fun r => String.ofList (r.headD []))).Perm _; decide +kernel⟩
  obtain ⟨x, hx, rfl⟩ := List.mem_map.1 hp
  exact desPart_cases (P := fun x => List.Forall₂ (fun t t' => ∀ x ∈ t, x ∈ t') (x.run.orb :: x.run.others) (desCampWhole.orb :: desCampWhole.others))
    (.cons (by decide +kernel) (.cons (by decide +kernel) .nil)) (.cons (by decide +kernel) (.cons (by decide +kernel) .nil)) x hx

/-- What is needed of runs, in this campaign. -/
theorem desCamp_runs {P : Run → Prop} (h0 : P desCampWhole) (h1 : P (desCampPart .one).run) (h2 : P (desCampPart .two).run) : ∀ r ∈ desCampWhole :: desCampParts.map Part.run, P r := by
  intro r hr
  rcases List.mem_cons.1 hr with rfl | hr
  · exact h0
  · obtain ⟨x, hx, rfl⟩ := List.mem_map.1 hr
    exact desPart_cases (P := fun x => P x.run) h1 h2 x hx

/-- C98 for the campaign: the files in the directory have together the lines of the whole run's. -/
example : Spec.LinesTogether Csv.read (desCampWhole.after.get "out/run.csv") [desCampEnd.get "res/part1.csv", desCampEnd.get "res/part2.csv"] :=
  (C98_again_external (whole := desCampWhole) (parts := desCampParts) charGlob_sound desCampWhole_finished desCamp_session desCamp_campaign
    (desPart_cases ⟨_, desCamp3_ran⟩ ⟨_, desCamp2_ran⟩) rfl
    ⟨"e.csv", rfl, ex_table (ns := ["FieldID", "fieldMJD_TAI"]) (rows := desEphRows) (by decide +kernel) (by simp) (by decide)⟩
    (desPart_cases ⟨"e.csv", rfl, ex_table (ns := ["FieldID", "fieldMJD_TAI"]) (rows := desEphRows) (by decide +kernel) (by simp) (by decide)⟩
      ⟨"e.csv", rfl, ex_table (ns := ["FieldID", "fieldMJD_TAI"]) (rows := desEphRows) (by decide +kernel) (by simp) (by decide)⟩)
    desCamp_divided (fun p hp id _ => by
      obtain ⟨x, hx, rfl⟩ := List.mem_map.1 hp
      exact desPart_cases (P := fun x => (x.run.eph.filter fun r => r.id = id) = desCampWhole.eph.filter fun r => r.id = id) rfl rfl x hx)
    (columns := ["ObjID", "optFilter"]) (desCamp_runs (fun _ _ => rfl) (fun _ _ => rfl) (fun _ _ => rfl))
    (E := DesRun.Props.exEnv DesRun.Props.exExt fun _ => [])
    (desCamp_runs (fun _ _ _ h => (Option.some.inj h).symm) (fun _ _ _ h => (Option.some.inj h).symm) (fun _ _ _ h => (Option.some.inj h).symm))
    (des_deterministic _ _) (fun l => List.Perm.refl l) DesRun.Props.exSorts (shown := Csv.Props.someShown) rfl (by decide)).1 rfl

/-- And what is there: nine lines for each of N and A, below the headers, and nothing of the old results. -/
example : desCampEnd.get "res/part1.csv" = some (.text ("ObjID,optFilter\n".toList ++ (List.replicate 9 "N,r\n".toList).flatten)) ∧
    desCampEnd.get "res/part2.csv" = some (.text ("ObjID,optFilter\n".toList ++ (List.replicate 9 "A,r\n".toList).flatten)) := by
  decide +kernel

theorem desLog_quiet : Spec.Quiet desLogWorld.base.start desLogWorld.base.messages := log_quiet

theorem desCamp_clean : ∀ p, "sorcha.log".toList <:+ p.toList → desSplitDisk.get p = none := by
  intro p hp
  by_contra h
  have hm := (History.mem_paths _ p).2 h
  have : ∀ q ∈ desSplitDisk.paths, ¬ "sorcha.log".toList <:+ q.toList := by decide +kernel
  exact this p hm hp

/-- C98_told for the campaign: whichever part's run `check-logs` does not name has gone through. -/
example (bytes : History.Content → List Char) {walk : Setup.Walk} (hw : Setup.Spec.WalkSound walk) {csv : List Setup.LogRow → List Char} {dirname : String → String} {t : Setup.Told}
    (ht : (Setup.cmdCheckLogs walk lineEnd csv dirname "res" none false (asFiles sessDirs bytes desCampEnd)).result = .ok t)
    (hn : Spec.NotNamed t "res/part1-2025-01-01-12-05-00-p9-sorcha.log") : ∃ log, DesInvoked desLogWorld (desSplitArgv .one) desCamp3.before desCamp3.after log .finished :=
  C98_told charGlob_sound desCamp_session desCamp_campaign
    (.cons (fun y hy => by
      simp only [List.mem_cons, List.not_mem_nil, or_false] at hy
      rcases hy with rfl | rfl
      · exact fun h => absurd h.2.2 (by decide +kernel)
      · exact fun h => absurd h.2.2 (by decide +kernel))
      (.cons (fun y hy => by
        rw [List.mem_singleton.1 hy]
        exact fun h => absurd h.2.2 (by decide +kernel)) (.cons (fun _ h => by cases h) .nil)))
    desCamp_clean desLog_quiet (Set.Finite.subset (Set.finite_singleton "res") fun p hp => by
      have : (decide (p = "res")) = true := hp
      exact of_decide_eq_true this) bytes
    (desCamp_cases ⟨"part1-2025-01-01-12-00-00-p7-sorcha.log", by decide +kernel⟩ ⟨"part2-2025-01-01-12-00-01-p8-sorcha.log", by decide +kernel⟩
      ⟨"part1-2025-01-01-12-05-00-p9-sorcha.log", by decide +kernel⟩)
    hw (by decide) completed_line ht (p := desCampPart .one) (by simp [desCampParts]) hn

end Sorcha.Whole.Props
