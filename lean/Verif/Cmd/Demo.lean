import Verif.Setup.Templates
import Verif.Argv.Props

/-!
# C67: the printed demo command is understood
-/

namespace Sorcha.Setup.Props

open Argv Argv.Spec
open Argv.Props (argvOf)

/-- The text that `get_demo_command` returns, sorcha_demo_command.py:17. -/
def demoText : String := "sorcha run -c sorcha_config_demo.ini -p sspp_testset_colours.txt --orbits sspp_testset_orbits.des --pointing-db baseline_v2.0_1yr.db -o ./ -t testrun_e2e --stats testrun_stats"

/-- A text is these words with a blank between them, and no word has a blank in it or a character that a shell would not take as it is. -/
def Words (text : String) (ws : List String) : Prop :=
  text = " ".intercalate ws ∧ ∀ w ∈ ws, w ≠ "" ∧ ∀ c ∈ w.toList, c.isAlphanum = true ∨ c ∈ ['-', '_', '.', '/']

theorem demo_says : Says (argvOf (demoCommand.drop 2)) [(.config, "sorcha_config_demo.ini".toList), (.parameters, "sspp_testset_colours.txt".toList),
    (.orbits, "sspp_testset_orbits.des".toList), (.pointings, "baseline_v2.0_1yr.db".toList), (.outfile, "./".toList), (.stem, "testrun_e2e".toList),
    (.stats, "testrun_stats".toList)] := by
  have val : ∀ {v : List Char}, v.head? ≠ some '-' → Value Argv.Spec.allNames v := fun h => .inl h
  refine .next (n := "-c".toList) (.inl ⟨"-c", by decide, rfl⟩) (by simp [Switch]) (val (by decide)) ?_
  refine .next (n := "-p".toList) (.inl ⟨"-p", by decide, rfl⟩) (by simp [Switch]) (val (by decide)) ?_
  refine .next (n := "--orbits".toList) (.inl ⟨"--orbits", by decide, rfl⟩) (by simp [Switch]) (val (by decide)) ?_
  refine .next (n := "--pointing-db".toList) (.inl ⟨"--pointing-db", by decide, rfl⟩) (by simp [Switch]) (val (by decide)) ?_
  refine .next (n := "-o".toList) (.inl ⟨"-o", by decide, rfl⟩) (by simp [Switch]) (val (by decide)) ?_
  refine .next (n := "-t".toList) (.inl ⟨"-t", by decide, rfl⟩) (by simp [Switch]) (val (by decide)) ?_
  exact .next (n := "--stats".toList) (.inl ⟨"--stats", by decide, rfl⟩) (by simp [Switch]) (val (by decide)) .nil

/-- **C67, demo run.** The printed command starts `sorcha-run` of the first directory of the path that has it, whatever else is in the path, and this takes the four
files of the demo for what they are: configuration, physical parameters, orbits and pointing database, in the working directory, where results, log and statistics
are to go too; nothing is to be overwritten. -/
theorem C67_demo_run (path : Path) (dir : List Char) (h : FirstIn path "sorcha-run".toList dir) : ∃ args : List (List Char),
    (∃ ws, Words demoText ("sorcha" :: "run" :: ws) ∧ args = ws.map String.toList) ∧
    main path ("run".toList :: args) = .run dir "sorcha-run".toList args ∧
    ∃ r, parseRun args = .ok (r, true) ∧ [r.c, r.p, r.ob, r.pd] = Spec.demoFiles ∧ r.o = "./" ∧ r.t = "testrun_e2e" ∧ r.st = some "testrun_stats" ∧
      r.s = "rubin_sim" ∧ r.f = false ∧ r.er = none ∧ r.ew = none ∧ r.cp = none ∧ r.vd = none ∧ r.ar = none := by
  refine ⟨argvOf (demoCommand.drop 2), ⟨demoCommand.drop 2, ⟨by decide +kernel, by decide +kernel⟩, rfl⟩, ?_, ?_⟩
  · refine (Argv.Props.C81_dispatch path _ dir _ _).2 ⟨"run".toList, .inl ⟨.inl (by decide), rfl, by decide⟩, ?_, by decide, rfl, h⟩
    intro before a after e _ hp
    have key : ∀ x ∈ "run".toList :: argvOf (demoCommand.drop 2), ¬['-', '-', '='].isPrefixOf x = true := by decide +kernel
    exact key a (by rw [e]; simp) (List.isPrefixOf_iff_prefix.2 hp)
  · exact ⟨⟨"sspp_testset_colours.txt", "sspp_testset_orbits.des", "sorcha_config_demo.ini", "./", "baseline_v2.0_1yr.db", none, none, none, none, some "testrun_stats",
      none, false, "rubin_sim", "testrun_e2e"⟩, (Argv.Props.C81_run _ _ _).2 ⟨_, demo_says, Argv.Props.enough (by decide +kernel), by decide +kernel⟩, rfl, rfl, rfl, rfl, rfl, rfl, rfl,
      rfl, rfl, rfl, rfl⟩

/-- A path with the commands in its second directory. -/
example : FirstIn [("/usr/bin".toList, some [⟨"sorcha-run".toList, false, false⟩]), ("/opt/bin".toList, some [⟨"sorcha".toList, true, false⟩,
    ⟨"sorcha-run".toList, true, false⟩])] "sorcha-run".toList "/opt/bin".toList :=
  ⟨[("/usr/bin".toList, some [⟨"sorcha-run".toList, false, false⟩])], _, [], rfl, ⟨⟨"sorcha-run".toList, true, false⟩, by simp, rfl, rfl, rfl⟩, by simp⟩

end Sorcha.Setup.Props
