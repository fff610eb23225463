import Verif.Whole.Examples5
import Verif.Whole.Props9
import Verif.Cmd.Examples

/-!
# C94: a concrete population in two runs, and the combined database
-/

namespace Sorcha.Whole.Props

open Sorcha.Csv (Str)
open Sorcha.Readers (Rec)
open Sorcha.History (Disk)
open Sorcha.Output (Cell)
open Sorcha.Whole.Spec (Run sized)

/-! ## Runs that can be computed -/

/-- All effects, completely. -/
def performAll : List History.Effect → History.State → Option History.State
  | [], s => some s
  | e :: es, s =>
    match History.perform e s with
    | .ok s' => performAll es s'
    | .error _ => none

theorem performAll_ends : ∀ {es : List History.Effect} {s s' : History.State}, performAll es s = some s' → History.Ends false es s s' true
  | [], s, s', h => by cases h; exact .finished
  | e :: es, s, s', h => by
    unfold performAll at h
    cases hp : History.perform e s with
    | error x => rw [hp] at h; cases h
    | ok s1 => rw [hp] at h; exact .step hp (performAll_ends h)

/-- What a run that finishes leaves. -/
def go {G W V : Type} (w : World G W V) (args : Cli.Args) (d : Disk) : Option History.State :=
  match (Cli.commandLine (existing w d) w.isDir w.glob args d.paths).1 with
  | .error _ => none
  | .ok a =>
    match plan w a (checked w args d) with
    | .writes fmt chunks true => performAll (History.runEffects w.lines a fmt chunks w.stamp) ⟨checked w args d, w.start.flatMap fun l => l ++ ['\n']⟩
    | _ => none

theorem go_invoked {G W V : Type} {w : World G W V} {argv : List Str} {args : Cli.Args} {v : Bool} (hargs : Argv.parseRun argv = .ok (args, v)) {d : Disk} {s : History.State}
    (h : go w args d = some s) : Invoked w argv d s.disk s.log .finished := by
  unfold go at h
  cases hc : (Cli.commandLine (existing w d) w.isDir w.glob args d.paths).1 with
  | error e => rw [hc] at h; cases h
  | ok a =>
    rw [hc] at h
    cases hp : plan w a (checked w args d) with
    | other => simp only [hp] at h; cases h
    | writes fmt chunks f =>
      simp only [hp] at h
      cases f with
      | false => cases h
      | true => exact Invoked.ran hargs hc hp (performAll_ends h)

/-- The disk a run leaves, or the one before if it does not finish. -/
def gone {G W V : Type} (w : World G W V) (args : Cli.Args) (d : Disk) : Disk := ((go w args d).map fun s => s.disk).getD d
def goneLog {G W V : Type} (w : World G W V) (args : Cli.Args) (d : Disk) : List Char := ((go w args d).map fun s => s.log).getD []

theorem gone_invoked {G W V : Type} {w : World G W V} {argv : List Str} {args : Cli.Args} {v : Bool} (hargs : Argv.parseRun argv = .ok (args, v)) {d : Disk}
    (h : (go w args d).isSome = true) : Invoked w argv d (gone w args d) (goneLog w args d) .finished := by
  obtain ⟨s, hs⟩ := Option.isSome_iff_exists.1 h
  unfold gone goneLog
  rw [hs]
  exact go_invoked hargs hs

/-! ## The population -/

/-- The whole run and the parts. -/
inductive Which
  | whole | one | two

def Which.dir : Which → String
  | .whole => "out" | _ => "res"
def Which.stem : Which → String
  | .whole => "run" | .one => "part1" | .two => "part2"
def Which.phys : Which → String
  | .whole => "p.csv" | .one => "p1.csv" | .two => "p2.csv"
def Which.orb : Which → String
  | .whole => "o.csv" | .one => "o1.csv" | .two => "o2.csv"
def Which.conf : Which → String
  | .whole => "c.ini" | _ => "c3.ini"
def Which.size : Which → ℤ
  | .whole => 1 | _ => 3
def Which.digit : Which → Char
  | .whole => '1' | _ => '3'
def Which.orbRows : Which → List (List Str)
  | .whole => exOrbRows | .one => [["D".toList, "".toList], ["A".toList, "2.1".toList]] | .two => [["B".toList, "3".toList], ["C,1".toList, "40".toList]]
def Which.physRows : Which → List (List Str)
  | .whole => exPhysRows | .one => [["D".toList, "9".toList], ["A".toList, "6".toList]] | .two => [["B".toList, "7".toList], ["C,1".toList, "8".toList]]

def splitArgv (i : Which) : List Str := ["-c", i.conf, "-o", i.dir, "-t", i.stem, "--pd", "v.db", "-p", i.phys, "--ob", i.orb, "--er", "e.csv"].map String.toList

def splitArgs (i : Which) : Cli.Args := ⟨i.phys, i.orb, i.conf, i.dir, "v.db", none, some "e.csv", none, none, none, none, false, "rubin_sim", i.stem⟩

theorem splitArgv_args (i : Which) : Argv.parseRun (splitArgv i) = .ok (splitArgs i, true) := by
  have val : ∀ {v : List Char}, v.head? ≠ some '-' → Argv.Spec.Value Argv.Spec.allNames v := fun h => .inl h
  refine (Argv.Props.C81_run _ _ _).2 ⟨[(.config, i.conf.toList), (.outfile, i.dir.toList), (.stem, i.stem.toList), (.pointings, "v.db".toList),
    (.parameters, i.phys.toList), (.orbits, i.orb.toList), (.ephemRead, "e.csv".toList)], ?_, Argv.Props.enough (by cases i <;> decide +kernel), by cases i <;> decide +kernel⟩
  refine .next (n := "-c".toList) (.inl ⟨"-c", by decide, rfl⟩) (by simp [Argv.Spec.Switch]) (val (by cases i <;> decide)) ?_
  refine .next (n := "-o".toList) (.inl ⟨"-o", by decide, rfl⟩) (by simp [Argv.Spec.Switch]) (val (by cases i <;> decide)) ?_
  refine .next (n := "-t".toList) (.inl ⟨"-t", by decide, rfl⟩) (by simp [Argv.Spec.Switch]) (val (by cases i <;> decide)) ?_
  refine .next (n := "--pd".toList) (.inl ⟨"--pd", by decide, rfl⟩) (by simp [Argv.Spec.Switch]) (val (by decide)) ?_
  refine .next (n := "-p".toList) (.inl ⟨"-p", by decide, rfl⟩) (by simp [Argv.Spec.Switch]) (val (by cases i <;> decide)) ?_
  refine .next (n := "--ob".toList) (.inl ⟨"--ob", by decide, rfl⟩) (by simp [Argv.Spec.Switch]) (val (by cases i <;> decide)) ?_
  exact .next (n := "--er".toList) (.inl ⟨"--er", by decide, rfl⟩) (by simp [Argv.Spec.Switch]) (val (by decide)) .nil

/-- The world of the example: two directories for results. -/
def splitWorld : World Unit Unit Unit := { dbWorld with isDir := fun p => p = "out" || p = "res" }

/-- The files before the runs. -/
def splitDisk : Disk := [("c.ini", .text (dbText '1')), ("c3.ini", .text (dbText '3')), ("v.db", .text []),
  ("p.csv", .text (fileText ["ObjID", "H_r"] Which.whole.physRows)), ("o.csv", .text (fileText ["ObjID", "a"] Which.whole.orbRows)),
  ("p1.csv", .text (fileText ["ObjID", "H_r"] Which.one.physRows)), ("o1.csv", .text (fileText ["ObjID", "a"] Which.one.orbRows)),
  ("p2.csv", .text (fileText ["ObjID", "H_r"] Which.two.physRows)), ("o2.csv", .text (fileText ["ObjID", "a"] Which.two.orbRows)),
  ("e.csv", .text (fileText ["ObjID", "FieldID", "fieldMJD_TAI"] exEphRows))]

/-- The files before each run: they follow each other. -/
def Which.before : Which → Disk
  | .whole => splitDisk
  | .one => gone splitWorld (splitArgs .whole) splitDisk
  | .two => gone splitWorld (splitArgs .one) (gone splitWorld (splitArgs .whole) splitDisk)

/-- The runs. -/
def splitRun (i : Which) : Run where
  argv := splitArgv i
  args := splitArgs i
  verbose := true
  before := i.before
  after := gone splitWorld (splitArgs i) i.before
  log := goneLog splitWorld (splitArgs i) i.before
  chunk := i.size
  orb := recsOf i.orbRows
  others := [recsOf i.physRows]
  eph := recsOf exEphRows

/-- The settings, with the chunk size of the whole run. -/
def splitCfg : Config.Cfg := dbCfg 1

theorem split_ran (i : Which) : (go splitWorld (splitArgs i) i.before).isSome = true := by cases i <;> decide +kernel

/-- The files after all runs. -/
def splitEnd : Disk := (splitRun .two).after

theorem split_files : splitEnd.paths = splitDisk.paths ++ ["out/run.db", "res/part1.db", "res/part2.db"] ∧
    splitEnd.get "out/run.db" = some (.db (some (["ObjID", "fieldMJD_TAI", "optFilter"],
      [[.text "A", .null, .text "r"], [.text "A", .null, .text "r"], [.text "B", .null, .text "g"]])) ["ObjID", "fieldMJD_TAI", "optFilter"]) ∧
    splitEnd.get "res/part1.db" = some (.db (some (["ObjID", "fieldMJD_TAI", "optFilter"], [[.text "A", .null, .text "r"], [.text "A", .null, .text "r"]]))
      ["ObjID", "fieldMJD_TAI", "optFilter"]) ∧
    splitEnd.get "res/part2.db" = some (.db (some (["ObjID", "fieldMJD_TAI", "optFilter"], [[.text "B", .null, .text "g"]])) ["ObjID", "fieldMJD_TAI", "optFilter"]) := by
  refine ⟨?_, ?_, ?_, ?_⟩ <;> decide +kernel

theorem split_differ (i : Which) : History.Spec.NamesDiffer (splitArgs i) := by
  refine ⟨?_, ?_, ?_⟩
  · rintro p ⟨-, n, hn, -⟩; cases hn
  · rintro p ⟨-, n, hn, -⟩; cases hn
  · rintro p ⟨⟨n, hn, -⟩, -⟩; cases hn

/-- Before a run there are no results of it. -/
theorem split_one (i : Which) : History.Spec.AtMostOne (splitArgs i) i.before := by
  constructor
  · intro p q hp _ h _
    exfalso
    have h1 := History.Props.belongs_chars h
    have hm := (History.mem_paths _ p).2 hp
    have h2 : (i.before.paths.all fun p => !((i.dir.toList ++ '/' :: i.stem.toList ++ ['.']).isPrefixOf p.toList)) = true := by cases i <;> decide +kernel
    have h3 := List.all_eq_true.1 h2 p hm
    rw [List.isPrefixOf_iff_prefix.2 (show (i.dir.toList ++ '/' :: i.stem.toList ++ ['.']) <+: p.toList from h1)] at h3
    cases h3
  · rintro p q - - ⟨n, hn, -⟩
    cases hn

theorem split_configured (i : Which) : Configured splitWorld i.before (splitArgs i) (sized splitCfg i.size) := by
  have ht : i.before.get i.conf = some (.text (dbText i.digit)) := by cases i <;> decide +kernel
  have h : (match Ini.configure splitWorld.py splitWorld.lightCurves splitWorld.activities (splitArgs i).s (configLines (dbText i.digit)) with
      | .ok (c, _) => decide (c = sized splitCfg i.size) | .error _ => false) = true := by
    cases i <;> decide +kernel
  cases hc : Ini.configure splitWorld.py splitWorld.lightCurves splitWorld.activities (splitArgs i).s (configLines (dbText i.digit)) with
  | error e => rw [hc] at h; cases h
  | ok x =>
    obtain ⟨c, y⟩ := x
    rw [hc] at h
    refine ⟨_, y, ht, ?_⟩
    rw [hc, of_decide_eq_true h]

theorem split_objects (i : Which) : Spec.Objects splitWorld.ids i.before (splitArgs i) (sized splitCfg i.size) (recsOf i.orbRows) [recsOf i.physRows] where
  orbits := ex_table (ns := ["a"]) (by cases i <;> decide +kernel) (by simp) (by cases i <;> decide)
  unique := by cases i <;> decide +kernel
  given := .inl ⟨rfl, rfl, _, rfl, ex_table (ns := ["H_r"]) (by cases i <;> decide +kernel) (by simp) (by cases i <;> decide)⟩
  same := by
    intro t ht
    rw [List.mem_singleton] at ht
    subst ht
    cases i <;> decide +kernel

theorem split_finished (i : Which) : Finished splitWorld splitCfg (splitRun i) :=
  ⟨splitArgv_args i, gone_invoked (splitArgv_args i) (split_ran i), split_configured i, split_differ i, split_one i, split_objects i⟩

theorem split_cases {P : Run → Prop} (h : ∀ i, P (splitRun i)) : ∀ r ∈ splitRun .whole :: [splitRun .one, splitRun .two], P r := by
  intro r hr
  simp only [List.mem_cons, List.not_mem_nil, or_false] at hr
  rcases hr with rfl | rfl | rfl <;> exact h _

theorem split_divided : Spec.Divided (splitRun .whole) [splitRun .one, splitRun .two] where
  rows := fun p hp => by
    simp only [List.mem_cons, List.not_mem_nil, or_false] at hp
    rcases hp with rfl | rfl
    · exact .cons (by decide +kernel) (.cons (by decide +kernel) .nil)
    · exact .cons (by decide +kernel) (.cons (by decide +kernel) .nil)
  objects := by decide +kernel

/-- C94 for the concrete runs. -/
theorem split_together : Spec.TableTogether ((splitRun .whole).after.get "out/run.db") [(splitRun .one).after.get "res/part1.db", (splitRun .two).after.get "res/part2.db"] :=
  (C94_external (whole := splitRun .whole) (parts := [splitRun .one, splitRun .two]) charGlob_sound (split_cases split_finished) rfl
    (split_cases fun i => ⟨"e.csv", rfl, ex_table (ns := ["FieldID", "fieldMJD_TAI"]) (rows := exEphRows) (by cases i <;> decide +kernel) (by simp) (by decide)⟩)
    split_divided (fun p hp id _ => by
      simp only [List.mem_cons, List.not_mem_nil, or_false] at hp
      rcases hp with rfl | rfl <;> rfl)
    (by unfold Pipeline.Spec.OncePerTime; decide +kernel) (columns := ["ObjID", "optFilter", "fieldMJD_TAI"]) (split_cases fun _ _ _ => rfl)
    (E := Pipeline.Props.exEnv) (split_cases fun _ _ _ _ h => (Option.some.inj h).symm)
    (by
      have hr := Pipeline.Props.exRegular
      exact ⟨⟨rfl, rfl, fun _ _ h => by cases h; exact .inl rfl⟩, hr.visits, hr.sortIndex, hr.sortOut, hr.sortT, hr.weights, fun _ h => by cases h⟩)
    (shown := Csv.Props.someShown) rfl (by decide)).2 rfl

/-- The runs follow each other, so that the databases of all of them are there in the end. -/
theorem split_kept (i : Which) : ∀ q, History.Spec.IsResults (splitArgs i) q → splitEnd.get q = (splitRun i).after.get q := by
  have hpre : ∀ {i : Which} {q : String}, History.Spec.IsResults (splitArgs i) q → (i.dir.toList ++ '/' :: i.stem.toList ++ ['.']) <+: q.toList := fun h => History.Props.belongs_chars h
  have hno : ∀ i j : Which, i.stem ≠ j.stem → ∀ q, History.Spec.IsResults (splitArgs i) q →
      ¬ History.Spec.IsResults (splitArgs j) q ∧ ¬ History.Spec.IsEphemeris (splitArgs j) q ∧ ¬ History.Spec.IsStats (splitArgs j) q := by
    intro i j hij q hq
    refine ⟨fun h => ?_, fun ⟨n, hn, _⟩ => (nomatch hn), fun ⟨n, hn, _⟩ => (nomatch hn)⟩
    have h1 := hpre hq
    have h2 := hpre h
    have h3 := List.prefix_or_prefix_of_prefix h1 h2
    revert h3 hij
    cases i <;> cases j <;> decide +kernel
  have hm : splitRun i ∈ splitRun .whole :: [splitRun .one, splitRun .two] := by cases i <;> simp
  exact C94_kept charGlob_sound (parts := splitRun .whole :: [splitRun .one, splitRun .two]) (d := splitEnd)
    ⟨_, .next (r := splitRun .whole) (.next (r := splitRun .one) (.next (r := splitRun .two) (.done _)))⟩
    (split_cases fun i => ⟨splitArgv_args i, ⟨_, (split_finished i).done, by decide⟩, split_differ i, split_one i⟩)
    (.cons (fun r hr => by
      simp only [List.mem_cons, List.not_mem_nil, or_false] at hr
      rcases hr with rfl | rfl
      · exact hno .whole .one (by decide)
      · exact hno .whole .two (by decide)) (.cons (fun r hr => by
        simp only [List.mem_cons, List.not_mem_nil, or_false] at hr
        subst hr
        exact hno .one .two (by decide)) (.cons (fun _ h => by cases h) .nil)))
    (splitRun i) hm

/-! ## The combined database -/

/-- The surroundings of the command: columns are kept as texts, and the working directory is the root. -/
def splitShell : Shell where
  abspath p := p
  isDir _ p := p = "." || p = "res"
  glob d p := if p = "res/**/part*.db" then d.paths.filter (fun q => ["res/part1.db", "res/part2.db"].contains q)
    else if p = "./params*" then ["p.csv"] else if p = "./orbits*" then ["o.csv"] else []
  lines _ p := if p = "p.csv" then [chars! "ObjID H_r", chars! "A 6"] else [chars! "ObjID a", chars! "A 2.1", chars! "B 3"]
  lib := ⟨fun col => col.map fun v => v.elim .null fun t => .text (String.ofList t), fun n => .num (.fin n), .null, fun s => s⟩

def splitSqlArgv : List Str := Argv.Props.argvOf ["-o", "all.db", "-i", ".", "-r", "res", "-s", "part"]

theorem split_says : Cmd.Spec.SqlSays splitSqlArgv [(.output, "all.db".toList), (.inputs, ".".toList), (.results, "res".toList), (.stem, "part".toList)] := by
  refine .next (n := "-o".toList) (.inl ⟨"-o", by decide, rfl⟩) (by simp) (Cmd.Props.word (by decide)) ?_
  refine .next (n := "-i".toList) (.inl ⟨"-i", by decide, rfl⟩) (by simp) (Cmd.Props.word (by decide)) ?_
  refine .next (n := "-r".toList) (.inl ⟨"-r", by decide, rfl⟩) (by simp) (Cmd.Props.word (by decide)) ?_
  exact .next (n := "-s".toList) (.inl ⟨"-s", by decide, rfl⟩) (by simp) (Cmd.Props.word (by decide)) .nil

theorem split_below {q : String} (h : Spec.Below "res" "part" q) : "res/".toList <+: q.toList := by
  obtain ⟨subs, name, rfl, -⟩ := h
  simp only [String.toList_append, List.append_assoc]
  exact ⟨_, by rw [show "res/".toList = "res".toList ++ "/".toList from rfl, List.append_assoc]⟩

theorem split_found {q : String} (hq : (splitEnd.get q).isSome = true) (h : "res/".toList <+: q.toList) : q = "res/part1.db" ∨ q = "res/part2.db" := by
  have hm := (History.mem_paths splitEnd q).2 (by rw [Ne, ← Option.not_isSome_iff_eq_none, not_not]; exact hq)
  have hall : (splitEnd.paths.all fun q => !("res/".toList.isPrefixOf q.toList) || decide (q = "res/part1.db" ∨ q = "res/part2.db")) = true := by decide +kernel
  have h1 := List.all_eq_true.1 hall q hm
  rw [List.isPrefixOf_iff_prefix.2 h] at h1
  simpa using h1

theorem split_here (n : String) (hn : '/' ∉ n.toList) : Spec.Below "res" "part" ("res/part" ++ n ++ ".db") :=
  ⟨[], n, by simp only [List.map_nil, String.join_nil, String.append_assoc]; rfl, by simp, hn, by simp⟩

theorem split_settings : let gs : List (Cmd.Spec.SqlSetting × Str) := [(.output, "all.db".toList), (.inputs, ".".toList), (.results, "res".toList), (.stem, "part".toList)]
    Argv.Spec.lastOf gs .output = some "all.db" ∧ Argv.Spec.lastOf gs .inputs = some "." ∧ Argv.Spec.lastOf gs .results = some "res" ∧
    (Argv.Spec.lastOf gs .stem).getD "" = "part" := by
  refine ⟨?_, ?_, ?_, ?_⟩ <;> decide +kernel

theorem split_glob : splitShell.glob splitEnd ("res" ++ "/**/" ++ "part" ++ "*.db") = ["res/part1.db", "res/part2.db"] := by decide +kernel

theorem split_first : (splitShell.glob splitEnd (splitShell.abspath "res" ++ "/**/" ++ "part" ++ "*.db")).head? ≠ some (splitShell.abspath "all.db") := by
  rw [show splitShell.abspath "res" = "res" from rfl, split_glob]
  decide

theorem split_finds : Spec.Finds (splitShell.glob splitEnd) (fun q => (splitEnd.get q).isSome) (splitShell.abspath "res") "part" := by
  rw [show splitShell.abspath "res" = "res" from rfl]
  unfold Spec.Finds
  rw [split_glob]
  refine ⟨by decide, fun q => ?_⟩
  constructor
  · intro h
    simp only [List.mem_cons, List.not_mem_nil, or_false] at h
    rcases h with rfl | rfl
    · exact ⟨by decide +kernel, split_here "1" (by decide)⟩
    · exact ⟨by decide +kernel, split_here "2" (by decide)⟩
  · rintro ⟨h, hq⟩
    rcases split_found h (split_below hq) with rfl | rfl <;> simp

/-- C94 for a concrete database: the runs on the parts are combined to the results of the whole run. -/
example : ∃ db rows, outputsCombine splitShell ("create-sqlite".toList :: splitSqlArgv) splitEnd [] = some (.ok db) ∧
    Sqlite.Spec.Has db "sorcha_results" ⟨["ObjID", "fieldMJD_TAI", "optFilter"], rows⟩ ∧
    rows.Perm [[.text "A", .null, .text "r"], [.text "A", .null, .text "r"], [.text "B", .null, .text "g"]] := by
  have ha : Cmd.outputsArgs ("create-sqlite".toList :: splitSqlArgv) = .ok (.some (.createSqlite ⟨"all.db", ".", "res", some "part", false⟩)) :=
    (Cmd.Props.C90_create_sqlite _ _).2 ⟨_, _, rfl, split_says, by decide +kernel, by decide +kernel, by decide +kernel, by decide +kernel, by simp [Cmd.Spec.Given]⟩
  have hok : (createSqlite splitShell ⟨"all.db", ".", "res", some "part", false⟩ splitEnd []).toOption.isSome = true := by decide +kernel
  cases hc : createSqlite splitShell ⟨"all.db", ".", "res", some "part", false⟩ splitEnd [] with
  | error e => rw [hc] at hok; cases hok
  | ok db =>
    have hdone : outputsCombine splitShell ("create-sqlite".toList :: splitSqlArgv) splitEnd [] = some (.ok db) := by
      unfold outputsCombine
      rw [ha]
      exact congrArg some hc
    have hb : ∀ p ∈ [splitRun .one, splitRun .two], Spec.Below "res" "part" (dbPath p) ∧ dbPath p ≠ "all.db" := by
      intro p hp
      simp only [List.mem_cons, List.not_mem_nil, or_false] at hp
      rcases hp with rfl | rfl
      · exact ⟨split_here "1" (by decide), by decide +kernel⟩
      · exact ⟨split_here "2" (by decide), by decide +kernel⟩
    have hk : ∀ i : Which, splitEnd.get (dbPath (splitRun i)) = (splitRun i).after.get (dbPath (splitRun i)) := fun i => split_kept i _ (by cases i <;> exact ⟨"db", by decide, by decide +kernel⟩)
    have p0 : dbPath (splitRun .whole) = "out/run.db" := by decide +kernel
    have p1 : dbPath (splitRun .one) = "res/part1.db" := by decide +kernel
    have p2 : dbPath (splitRun .two) = "res/part2.db" := by decide +kernel
    have hwhole : (splitRun .whole).after.get (dbPath (splitRun .whole)) = some (.db (some (["ObjID", "fieldMJD_TAI", "optFilter"],
        [[.text "A", .null, .text "r"], [.text "A", .null, .text "r"], [.text "B", .null, .text "g"]])) ["ObjID", "fieldMJD_TAI", "optFilter"]) := by
      rw [← hk .whole, p0]
      exact split_files.2.1
    have htog : Spec.TableTogether ((splitRun .whole).after.get (dbPath (splitRun .whole))) ([splitRun .one, splitRun .two].map fun p => p.after.get (dbPath p)) := by
      rw [List.map_cons, List.map_cons, List.map_nil, p0, p1, p2]
      exact split_together
    have hkept : ∀ p ∈ [splitRun .one, splitRun .two], splitEnd.get (dbPath p) = p.after.get (dbPath p) := by
      intro p hp
      simp only [List.mem_cons, List.not_mem_nil, or_false] at hp
      rcases hp with rfl | rfl
      · exact hk .one
      · exact hk .two
    have hpaths : [splitRun .one, splitRun .two].map dbPath = ["res/part1.db", "res/part2.db"] := by rw [List.map_cons, List.map_cons, List.map_nil, p1, p2]
    have hdir : ∀ q, splitShell.isDir splitEnd q = true → splitEnd.get q = none := by
      intro q hq
      have : q = "." ∨ q = "res" := by simpa [splitShell] using hq
      rcases this with rfl | rfl <;> decide +kernel
    have honly : ∀ q, (splitEnd.get q).isSome → Spec.Below (splitShell.abspath "res") "part" q → q ∈ [splitRun .one, splitRun .two].map dbPath ∨ q = splitShell.abspath "all.db" := by
      intro q hq hbq
      left
      rw [hpaths]
      rcases split_found hq (split_below hbq) with rfl | rfl <;> simp
    have key := C94_create_sqlite (S := splitShell) split_says (output := "all.db") (inputs := ".") (results := "res") (stem := "part") split_settings.1 split_settings.2.1
      split_settings.2.2.1 split_settings.2.2.2 hdone hwhole htog hkept (by rw [hpaths]; decide) split_finds (by decide) (by decide) hdir hb honly split_first
    obtain ⟨rows, h1, h2⟩ := key
    exact ⟨db, rows, hdone, h1, h2⟩

end Sorcha.Whole.Props
