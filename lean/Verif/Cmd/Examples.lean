import Verif.Cmd.Works
import Verif.Argv.Props

/-!
# C90: examples, and what the arguments do not say
-/

namespace Sorcha.Cmd.Props
open Argv Argv.Spec Spec
open Setup (Disk Node join)
open Argv.Props (argvOf)

/-- A path is what it says, in the directory `/home`. -/
def atHome (p : String) : String := if p = "./" then "/home" else if "/".toList <+: p.toList then p else "/home/" ++ p

theorem word {all : List String} {v : List Char} (h : v.head? ≠ some '-') : Value all v := .inl h

theorem letter {S : Type} {names : List (String × S)} {c : Char} {s : S} (h : (String.ofList ['-', c], s) ∈ names) : LetterIn names c s := h

/-- `sorcha init -vf --pa /configs`. -/
theorem init_example : InitSays (argvOf ["-vf", "--pa", "/configs"]) [(.verbose, []), (.force, []), (.path, "/configs".toList)] := by
  refine SaysIn.letters (names := initNames) (Switch := fun s => s = .verbose ∨ s = .force) (cs := ['v', 'f']) (ss := [.verbose, .force])
    (.cons (letter (names := initNames) (c := 'v') (s := .verbose) (by decide +kernel)) (.cons (letter (names := initNames) (c := 'f') (s := .force) (by decide +kernel)) .nil)) (by simp) (by decide)
    (.next (n := "--pa".toList) (.inr ⟨"--path", by decide, ⟨"pa".toList, rfl⟩, by decide, ⟨"th".toList, rfl⟩, ?_⟩) (by simp) (word (by decide)) .nil)
  intro m' hm' hp
  rw [← List.isPrefixOf_iff_prefix] at hp
  have : ∀ m' ∈ allNamesOf initNames, "--pa".toList.isPrefixOf m'.toList = true → m' = "--path" := by decide +kernel
  exact this m' hm' hp

example : initArgs (argvOf ["-vf", "--pa", "/configs"]) = .ok ⟨true, "/configs", true⟩ :=
  (C90_init _ _).2 ⟨_, init_example, by decide +kernel, by simp [Given], by simp [Given]⟩

/-- A disk with a directory `/configs` in which there is a template already. -/
def before : Disk := fun p => if p = "/configs" then some .dir else if p = "/configs/DES_config_file.ini" then some (.file "mine".toList) else none

def pack : String → List Char := fun fn => "text of ".toList ++ fn.toList

/-- The template that is there is replaced because of `-f`. -/
example : ∃ r, init (fun t => if t = "4" then some 4 else none) pack atHome "4" (argvOf ["-vf", "--pa", "/configs"]) before = .worked r ∧ r.result = .ok () ∧
    r.disk "/configs/DES_config_file.ini" = some (.file "text of DES_config_file.ini".toList) := by
  obtain ⟨r, h1, h2, h3, -⟩ := C90_init_files (int := fun t => if t = "4" then some 4 else none) (package := pack) (abspath := atHome) (answer := "4") (d := before)
    init_example (n := 4) (by decide +kernel) (by decide) (by decide) (by decide +kernel) (by
      intro fn hfn
      simp only [Setup.Spec.menu, List.mem_cons, List.not_mem_nil, or_false] at hfn
      subst hfn
      exact ⟨by decide +kernel, .inl (by simp [Given])⟩)
  refine ⟨r, h1, h2, ?_⟩
  have := h3 "DES_config_file.ini" (by simp [Setup.Spec.menu])
  rw [show join (atHome ((lastOf [(InitSetting.verbose, []), (.force, []), (.path, "/configs".toList)] .path).getD "./")) "DES_config_file.ini" = "/configs/DES_config_file.ini" by decide +kernel] at this
  rw [this]
  decide +kernel

/-- Arguments that cannot be read do not say `-f`: here a name is missing its value. -/
example : ∀ gs, InitSays (argvOf ["-f", "-p"]) gs → ¬ Given gs .force := by
  intro gs h
  classical
  have h1 : initArgs (argvOf ["-f", "-p"]) = .error .usage := rfl
  rw [(C90_init _ ⟨decide (Given gs .verbose), (lastOf gs .path).getD "./", decide (Given gs .force)⟩).2 ⟨gs, h, rfl, by simp, by simp⟩] at h1
  cases h1

/-- `sorcha demo prepare --path demo`. -/
theorem demo_example : DemoSays (argvOf ["--path", "demo"]) [(.path, "demo".toList)] :=
  .next (n := "--path".toList) (.inl ⟨"--path", by decide, rfl⟩) (by simp) (word (by decide)) .nil

example : demoArgs (argvOf ["prepare", "--path", "demo"]) = .ok (.some (.prepare ⟨"demo", false⟩)) :=
  (C90_demo_prepare _ _).2 ⟨_, _, rfl, demo_example, by decide +kernel, by simp [Given]⟩

example : ∃ r, demo pack atHome (argvOf ["prepare", "--path", "demo"]) (fun p => if p = "/home/demo" then some .dir else none) = .worked r ∧ r.result = .ok () := by
  obtain ⟨r, h1, h2, -⟩ := C90_demo_files (package := pack) (abspath := atHome) (d := fun p => if p = "/home/demo" then some .dir else none) demo_example
    (by decide +kernel) (by
      intro fn hfn
      have : ∀ fn ∈ Setup.Spec.demoFiles, (fun p => if p = "/home/demo" then some Node.dir else none : Disk) (join (atHome ((lastOf [(DemoSetting.path, "demo".toList)] .path).getD "./")) fn) = none := by
        decide +kernel
      exact ⟨fun h => absurd ((this fn hfn).symm.trans h) (by simp), .inr (this fn hfn)⟩)
  exact ⟨r, h1, h2⟩

/-- `sorcha bootstrap --cache=/data -f`. -/
example : bootArgs "/home/.cache/sorcha" (argvOf ["--cache=/data", "-f"]) = .ok ⟨"/data", true⟩ := by
  refine (C90_bootstrap _ _ _).2 ⟨[(.cache, "/data".toList), (.force, [])], ?_, by decide +kernel, by simp [Given]⟩
  exact .equal (n := "--cache".toList) (.inl ⟨"--cache", by decide, rfl⟩) (by simp) (.switch (n := "-f".toList) (.inl ⟨"-f", by decide, rfl⟩) rfl .nil)

/-- `sorcha cite`, without arguments. -/
example : ∃ r, sorchaCite atHome "/home" "text".toList [] (fun p => if p = "/home" then some .dir else none) = .worked r ∧ r.result = .ok .saved ∧
    r.disk "/home/sorcha_citation.txt" = some (.file "text".toList) := by
  obtain ⟨r, h1, h2, h3⟩ := C90_cite_file (abspath := atHome) (cwd := "/home") (text := "text".toList) (d := fun p => if p = "/home" then some .dir else none) (argv := []) (gs := []) .nil
    (by simp [Given]) (by decide +kernel) (by decide +kernel)
  refine ⟨r, h1, h2, ?_⟩
  rw [← h3]
  exact congrArg _ (by decide +kernel)

/-- `sorcha outputs create-sqlite -o all.db -i in -r out -c`. -/
example : outputsArgs (argvOf ["create-sqlite", "-o", "all.db", "-iin", "--results=out", "-c"]) = .ok (.some (.createSqlite ⟨"all.db", "in", "out", none, true⟩)) := by
  refine (C90_create_sqlite _ _).2 ⟨_, [(.output, "all.db".toList), (.inputs, "in".toList), (.results, "out".toList), (.complex, [])], rfl, ?_,
    by decide +kernel, by decide +kernel, by decide +kernel, by decide +kernel, by simp [Given]⟩
  refine .next (n := "-o".toList) (.inl ⟨"-o", by decide, rfl⟩) (by simp) (word (by decide)) ?_
  refine SaysIn.lettersGlued (names := sqlNames) (Switch := fun s => s = .complex) (cs := []) (ss := []) .nil (by simp) (c := 'i') (s := .inputs) (v := "in".toList) (letter (names := sqlNames) (c := 'i') (s := .inputs) (by decide +kernel)) (by simp) (by decide) (by decide) ?_
  refine .equal (n := "--results".toList) (.inl ⟨"--results", by decide, rfl⟩) (by simp) ?_
  exact .switch (n := "-c".toList) (.inl ⟨"-c", by decide, rfl⟩) rfl .nil

/-- `sorcha outputs check-logs -f logs -o report.csv`. -/
theorem logs_example : LogsSays (argvOf ["-f", "logs", "-o", "report.csv"]) [(.dir, "logs".toList), (.report, "report.csv".toList)] := by
  refine .next (n := "-f".toList) (.inl ⟨"-f", by decide, rfl⟩) (by simp) (word (by decide)) ?_
  exact .next (n := "-o".toList) (.inl ⟨"-o", by decide, rfl⟩) (by simp) (word (by decide)) .nil

example : outputsArgs (argvOf ["check-logs", "-f", "logs", "-o", "report.csv"]) = .ok (.some (.checkLogs ⟨"logs", some "report.csv", false⟩)) :=
  (C90_check_logs _ _).1.2 ⟨_, _, rfl, logs_example, by decide +kernel, by decide +kernel, by simp [Given]⟩

/-- The arguments of `logs_example` meet what `C90_logs_keeps` asks for. -/
example : (∀ gs, LogsSays (argvOf ["-f", "logs", "-o", "report.csv"]) gs → ¬ Given gs .force) ∧
    ∀ gs p, LogsSays (argvOf ["-f", "logs", "-o", "report.csv"]) gs → lastOf gs .report = some p → p ≠ "" → ".csv".toList <:+ (atHome p).toList := by
  classical
  have key : ∀ gs, LogsSays (argvOf ["-f", "logs", "-o", "report.csv"]) gs → ¬ Given gs .force ∧ lastOf gs .report = some "report.csv" := by
    intro gs h
    have hd : ∃ v, lastOf gs .dir = some v := by
      by_contra hn
      have hk : parseArgs logsTable [] (argvOf ["-f", "logs", "-o", "report.csv"]) = .ok (gs.map (storeOf logsDest)) :=
        (parseArgs_iff (T := logsTable) [] _ _).2 ⟨gs, h, rfl, by simp⟩
      have hk' : parseArgs logsTable [] (argvOf ["-f", "logs", "-o", "report.csv"]) = .ok [(.filepath, "logs".toList), (.outpath, "report.csv".toList)] := rfl
      rw [hk'] at hk
      injection hk with hk
      refine hn ((lastOf_some_iff gs .dir).2 ((given_dest (T := logsTable) gs .dir).1 ?_))
      rw [← hk]
      simp [logsDest]
    obtain ⟨v, hv⟩ := hd
    have h1 := (C90_check_logs ("check-logs".toList :: argvOf ["-f", "logs", "-o", "report.csv"]) ⟨v, lastOf gs .report, decide (Given gs .force)⟩).1.2 ⟨_, gs, rfl, h, hv, rfl, by simp⟩
    have h2 : outputsArgs ("check-logs".toList :: argvOf ["-f", "logs", "-o", "report.csv"]) = .ok (.some (.checkLogs ⟨"logs", some "report.csv", false⟩)) :=
      (C90_check_logs _ _).1.2 ⟨_, _, rfl, logs_example, by decide +kernel, by decide +kernel, by simp [Given]⟩
    rw [h2] at h1
    simp only [Except.ok.injEq, Sub.some.injEq, OutputsDo.checkLogs.injEq, LogsArgs.mk.injEq] at h1
    exact ⟨by simpa using h1.2.2.symm, h1.2.1.symm⟩
  refine ⟨fun gs h => (key gs h).1, fun gs p h hp _ => ?_⟩
  rw [(key gs h).2] at hp
  injection hp with hp
  subst hp
  rw [← List.isSuffixOf_iff_suffix]
  decide +kernel

/-- C90 (finding): for `check-logs`, `-f` is the directory of the logs, not `--force` as everywhere else: with `-force` another directory is searched, without a message. -/
theorem C90_check_logs_f_fails : outputsArgs (argvOf ["check-logs", "--filepath", "logs", "-o", "report.csv", "-force"]) = .ok (.some (.checkLogs ⟨"orce", some "report.csv", false⟩)) :=
  (C90_check_logs _ _).1.2 ⟨_, [(.dir, "logs".toList), (.report, "report.csv".toList), (.dir, "orce".toList)], rfl,
    .next (n := "--filepath".toList) (.inl ⟨"--filepath", by decide, rfl⟩) (by simp) (word (by decide))
      (.next (n := "-o".toList) (.inl ⟨"-o", by decide, rfl⟩) (by simp) (word (by decide))
        (SaysIn.lettersGlued (names := logsNames) (Switch := fun s => s = .force) (cs := []) (ss := []) .nil (by simp) (c := 'f') (s := .dir) (v := "orce".toList) (letter (names := logsNames) (c := 'f') (s := .dir) (by decide +kernel)) (by simp) (by decide) (by decide) .nil)),
    by decide +kernel, by decide +kernel, by simp [Given]⟩

/-- C90 (finding): `sorcha cite` replaces a file of the name `sorcha_citation.txt` without asking. -/
theorem C90_cite_overwrites_fails (old text : List Char) : ∃ (d : Disk) (r : Setup.Ran Cited), d "/home/sorcha_citation.txt" = some (.file old) ∧
    sorchaCite atHome "/home" text [] d = .worked r ∧ r.disk "/home/sorcha_citation.txt" = some (.file text) := by
  obtain ⟨r, h1, -, h3⟩ := C90_cite_file (abspath := atHome) (cwd := "/home") (text := text)
    (d := fun p => if p = "/home" then some .dir else if p = "/home/sorcha_citation.txt" then some (.file old) else none) (argv := []) (gs := []) .nil
    (by simp [Given]) (by rw [if_pos (by decide +kernel)]) (by
      rw [if_neg (by decide +kernel), if_pos (by decide +kernel)]
      simp)
  exact ⟨_, r, by rw [if_neg (by decide), if_pos rfl], h1, by rw [← h3]; exact congrArg _ (by decide +kernel)⟩

end Sorcha.Cmd.Props
