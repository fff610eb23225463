import Verif.Whole.Props5
import Verif.Whole.Examples2

/-!
# Examples: runs on valid inputs
-/

namespace Sorcha.Whole.Props

open Sorcha.Csv (Str)
open Sorcha.History (Disk)

theorem ex_place (d : Disk) (h : ∀ p ∈ ["p.csv", "o.csv", "c.ini", "v.db", "e.csv"], d.get p ≠ none) : Spec.InPlace exWorld.isDir d exArgs where
  survey := rfl
  outdir := by decide
  inputs := by
    intro p hp
    refine ⟨h p (by simpa [exArgs] using hp), fun ho => ?_⟩
    have := ex_output ho
    simp only [exArgs, Option.toList, List.append_nil, List.cons_append, List.nil_append, List.mem_cons, List.not_mem_nil, or_false] at hp
    rcases hp with rfl | rfl | rfl | rfl | rfl
    all_goals revert this; decide
  named := by simp [exArgs]
  data := by simp [exArgs]
  visits := rfl
  fresh := .inl rfl

/-- C88 for a concrete run: six observations of three objects, one of them of an object without orbit, one at a visit that is not in the pointing table. -/
example (b : Bool) : ∃ d' log, Invoked exWorld exArgv (exDisk (exChunk b)) d' log .finished :=
  (C88_external exArgv_args charGlob_sound exArgs_differ (exDisk_one b)
    (ex_place _ (by
      intro p hp
      have hm : p ∈ (exDisk (exChunk b)).paths := by
        simp only [exDisk, Disk.paths, List.map_cons, List.map_nil]
        revert p
        decide
      exact (History.mem_paths _ p).1 hm))
    (ex_configured b) (by decide +kernel) ⟨by cases b <;> decide, by cases b <;> decide, by cases b <;> decide, fun _ => by simp [runCfg]⟩ rfl (ex_objects b) (pe := "e.csv") rfl
    (ex_table (ns := ["FieldID", "fieldMJD_TAI"]) (rows := exEphRows) rfl (by simp) (by decide)) (fun _ _ _ _ _ _ _ => rfl) (fun _ _ _ _ _ _ _ => rfl)
    (fun _ _ _ _ _ _ _ _ _ _ => rfl) (fun _ _ _ _ _ _ _ => rfl)
    (fun _ _ => ⟨by simp only [exWorld]; cases b <;> decide +kernel, fun h => absurd rfl h⟩)
    (fun _ _ => ⟨_, rfl, ⟨by
      simp only [exWorld]
      intro o ho v hv hid
      refine ⟨?_, by simp [Pipeline.Props.exEnv]⟩
      revert o
      revert v
      unfold Pointing.Spec.Agree
      cases b <;> decide +kernel, fun l => List.Perm.refl l, fun _ h => by cases h⟩⟩)).2

/-- C88 for a concrete run that makes its ephemerides. -/
example : ∃ d' log, Invoked arWorld exArgv arDisk d' log .finished :=
  (C88_generated (w := arWorld) exArgv_args charGlob_sound exArgs_differ arDisk_one
    (ex_place _ (by
      intro p hp
      have hm : p ∈ arDisk.paths := by
        simp only [arDisk, Disk.paths, List.map_cons, List.map_nil]
        revert p
        decide
      exact (History.mem_paths _ p).1 hm))
    ar_configured (by decide +kernel) ⟨by decide, by decide, by decide, fun h => by cases h⟩ (by decide) (orb := recsOf exOrbRows) (others := [recsOf exPhysRows])
    { orbits := ex_table (ns := ["a"]) rfl (by simp) (by decide), unique := by decide +kernel, given := .inl ⟨rfl, rfl, _, rfl, ex_table (ns := ["H_r"]) rfl (by simp) (by decide)⟩, same := by
        intro t ht
        rw [List.mem_singleton] at ht
        subst ht
        decide +kernel }
    (fun _ _ _ _ _ _ _ => rfl) (fun _ _ _ _ _ _ _ => rfl) (fun _ _ _ _ _ _ _ _ _ _ => rfl)
    (fun _ _ => ⟨by simp only [arWorld, exWorld]; decide +kernel, fun h => absurd rfl h⟩) (fun _ _ objs _ => by simp [arWorld])
    (fun _ _ => ⟨_, rfl, ⟨by
      simp only [arWorld, exWorld]
      intro o ho v hv hid
      refine ⟨?_, by simp [Pipeline.Props.exEnv]⟩
      revert o
      revert v
      unfold Pointing.Spec.Agree
      decide +kernel, fun l => List.Perm.refl l, fun _ h => by cases h⟩⟩)).2

/-! ## An input that is lost -/

def lostArgv : List Str := ["-c", "c.ini", "-o", "out", "-t", "run", "--pd", "v.db", "-p", "out/run.csv", "--ob", "o.csv", "--er", "e.csv", "-f"].map String.toList

def lostArgs : Cli.Args := ⟨"out/run.csv", "o.csv", "c.ini", "out", "v.db", none, some "e.csv", none, none, none, none, true, "rubin_sim", "run"⟩

theorem lostArgv_args : Argv.parseRun lostArgv = .ok (lostArgs, true) := by
  have val : ∀ {v : List Char}, v.head? ≠ some '-' → Argv.Spec.Value Argv.Spec.allNames v := fun h => .inl h
  refine (Argv.Props.C81_run _ _ _).2 ⟨[(.config, "c.ini".toList), (.outfile, "out".toList), (.stem, "run".toList), (.pointings, "v.db".toList),
    (.parameters, "out/run.csv".toList), (.orbits, "o.csv".toList), (.ephemRead, "e.csv".toList), (.force, [])], ?_, Argv.Props.enough (by decide +kernel), by decide +kernel⟩
  refine .next (n := "-c".toList) (.inl ⟨"-c", by decide, rfl⟩) (by simp [Argv.Spec.Switch]) (val (by decide)) ?_
  refine .next (n := "-o".toList) (.inl ⟨"-o", by decide, rfl⟩) (by simp [Argv.Spec.Switch]) (val (by decide)) ?_
  refine .next (n := "-t".toList) (.inl ⟨"-t", by decide, rfl⟩) (by simp [Argv.Spec.Switch]) (val (by decide)) ?_
  refine .next (n := "--pd".toList) (.inl ⟨"--pd", by decide, rfl⟩) (by simp [Argv.Spec.Switch]) (val (by decide)) ?_
  refine .next (n := "-p".toList) (.inl ⟨"-p", by decide, rfl⟩) (by simp [Argv.Spec.Switch]) (val (by decide)) ?_
  refine .next (n := "--ob".toList) (.inl ⟨"--ob", by decide, rfl⟩) (by simp [Argv.Spec.Switch]) (val (by decide)) ?_
  refine .next (n := "--er".toList) (.inl ⟨"--er", by decide, rfl⟩) (by simp [Argv.Spec.Switch]) (val (by decide)) ?_
  exact .switch (n := "-f".toList) (.inl ⟨"-f", by decide, rfl⟩) (by simp [Argv.Spec.Switch]) .nil

/-- The physical parameters are in the place of the results. -/
def lostDisk : Disk := [("c.ini", .text (configText '1')), ("v.db", .text []), ("out/run.csv", .text (fileText ["ObjID", "H_r"] exPhysRows)),
  ("o.csv", .text (fileText ["ObjID", "a"] exOrbRows)), ("e.csv", .text (fileText ["ObjID", "FieldID", "fieldMJD_TAI"] exEphRows))]

theorem lostDisk_one : History.Spec.AtMostOne lostArgs lostDisk := by
  constructor
  · have key : ∀ p, lostDisk.get p ≠ none → History.Spec.IsResults lostArgs p → p = "out/run.csv" := by
      intro p hp h
      have h1 := History.Props.belongs_chars h
      have hm := (History.mem_paths _ p).2 hp
      simp only [lostDisk, Disk.paths, List.map_cons, List.map_nil, List.mem_cons, List.not_mem_nil, or_false] at hm
      have h2 : ("out".toList ++ '/' :: "run".toList ++ ['.']) <+: p.toList := h1
      rcases hm with rfl | rfl | rfl | rfl | rfl
      all_goals first | rfl | (exfalso; revert h2; decide)
    intro p q hp hq h1 h2
    rw [key p hp h1, key q hq h2]
  · rintro p q - - ⟨n, hn, -⟩
    cases hn

/-- The hypotheses of `C88_input_lost_fails` are met, there is such a run, and the file was there before. -/
example : lostDisk.get "out/run.csv" ≠ none ∧ (∃ a, Accepted exWorld lostDisk lostArgs a) ∧ (∃ d' log, Invoked exWorld lostArgv lostDisk d' log .stopped) ∧
    ∀ d' log out, Invoked exWorld lostArgv lostDisk d' log out → out = .stopped ∧ d'.get "out/run.csv" = none := by
  have hout : Spec.IsOutput lostArgs "out/run.csv" := .inl ⟨"csv", by decide, by decide⟩
  cases hc : (Cli.commandLine (existing exWorld lostDisk) exWorld.isDir exWorld.glob lostArgs lostDisk.paths).1 with
  | error e =>
    have h : (Cli.commandLine (existing exWorld lostDisk) exWorld.isDir exWorld.glob lostArgs lostDisk.paths).1.toOption.isSome = true := by decide +kernel
    rw [hc] at h; cases h
  | ok a =>
    refine ⟨by decide, ⟨a, hc⟩, ?_, fun d' log out h => C88_input_lost_fails lostArgv_args charGlob_sound lostDisk_one (by simp [lostArgs]) hout hc h⟩
    have hp : (match (Cli.commandLine (existing exWorld lostDisk) exWorld.isDir exWorld.glob lostArgs lostDisk.paths).1 with
      | .ok a => (match plan exWorld a (checked exWorld lostArgs lostDisk) with | .writes _ [] false => true | _ => false)
      | .error _ => false) = true := by decide +kernel
    rw [hc] at hp
    simp only at hp
    split at hp
    · rename_i fmt hp'
      exact ⟨_, _, Invoked.failed lostArgv_args hc hp' .finished⟩
    · cases hp

end Sorcha.Whole.Props
