import Verif.Whole.DesExamples
import Verif.Whole.DesStats

/-!
# C93: concrete runs with statistics
-/

namespace Sorcha.Whole.Props

open Sorcha.Csv (Str)
open Sorcha.Readers (Rec)
open Sorcha.History (Disk Chunk)
open Sorcha.Output (Cell)
open Sorcha.Pipeline (Row own)

def stArgv : List Str := ["--st", "tally"].map String.toList ++ exArgv

def stArgs : Cli.Args := { exArgs with st := some "tally" }

theorem stArgv_args : Argv.parseRun stArgv = .ok (stArgs, true) := by
  have val : ∀ {v : List Char}, v.head? ≠ some '-' → Argv.Spec.Value Argv.Spec.allNames v := fun h => .inl h
  refine (Argv.Props.C81_run _ _ _).2 ⟨[(.stats, "tally".toList), (.config, "c.ini".toList), (.outfile, "out".toList), (.stem, "run".toList), (.pointings, "v.db".toList),
    (.parameters, "p.csv".toList), (.orbits, "o.csv".toList), (.ephemRead, "e.csv".toList), (.force, [])], ?_, Argv.Props.enough (by decide +kernel), by decide +kernel⟩
  refine .next (n := "--st".toList) (.inl ⟨"--st", by decide, rfl⟩) (by simp [Argv.Spec.Switch]) (val (by decide)) ?_
  refine .next (n := "-c".toList) (.inl ⟨"-c", by decide, rfl⟩) (by simp [Argv.Spec.Switch]) (val (by decide)) ?_
  refine .next (n := "-o".toList) (.inl ⟨"-o", by decide, rfl⟩) (by simp [Argv.Spec.Switch]) (val (by decide)) ?_
  refine .next (n := "-t".toList) (.inl ⟨"-t", by decide, rfl⟩) (by simp [Argv.Spec.Switch]) (val (by decide)) ?_
  refine .next (n := "--pd".toList) (.inl ⟨"--pd", by decide, rfl⟩) (by simp [Argv.Spec.Switch]) (val (by decide)) ?_
  refine .next (n := "-p".toList) (.inl ⟨"-p", by decide, rfl⟩) (by simp [Argv.Spec.Switch]) (val (by decide)) ?_
  refine .next (n := "--ob".toList) (.inl ⟨"--ob", by decide, rfl⟩) (by simp [Argv.Spec.Switch]) (val (by decide)) ?_
  refine .next (n := "--er".toList) (.inl ⟨"--er", by decide, rfl⟩) (by simp [Argv.Spec.Switch]) (val (by decide)) ?_
  exact .switch (n := "-f".toList) (.inl ⟨"-f", by decide, rfl⟩) (by simp [Argv.Spec.Switch]) .nil

/-- The filters of the pointing database: no object is seen in one of them. -/
def stFilters : List String := ["g", "i", "r"]

/-- The run of C85 with statistics. -/
def stWorld : World Unit Unit Unit := { exWorld with stats := fun rows => statistics stFilters (runCfg 1).linking (rows.map (seen fun _ => some 3)) }

def stCmd : Cli.CmdArgs := { exCmd with stats := some "tally" }

theorem st_configured (b : Bool) : Configured stWorld (exDisk (exChunk b)) stArgs (runCfg (exSize b)) := ex_configured b

theorem st_differ : History.Spec.NamesDiffer stArgs := by
  refine ⟨?_, ?_, ?_⟩
  · rintro p ⟨-, n, hn, -⟩; cases hn
  · rintro p ⟨h, n, hn, rfl⟩
    cases hn
    have h1 : ("out".toList ++ '/' :: "run".toList ++ ['.']) <+: ("out" ++ "/" ++ "tally" ++ ".csv").toList := History.Props.belongs_chars h
    revert h1
    decide
  · rintro p ⟨⟨n, hn, -⟩, -⟩; cases hn

theorem st_one (b : Bool) : History.Spec.AtMostOne stArgs (exDisk (exChunk b)) := exDisk_one b

theorem st_accepted (b : Bool) : (Cli.commandLine (existing stWorld (exDisk (exChunk b))) stWorld.isDir stWorld.glob stArgs []).1 = .ok stCmd := by
  have h : (Cli.commandLine (existing stWorld (exDisk (exChunk b))) stWorld.isDir stWorld.glob stArgs []).1.toOption = some stCmd := by
    cases b <;> decide +kernel
  cases h1 : (Cli.commandLine (existing stWorld (exDisk (exChunk b))) stWorld.isDir stWorld.glob stArgs []).1 with
  | error e => rw [h1] at h; cases h
  | ok x => rw [h1] at h; exact congrArg _ (Option.some.inj h)

theorem st_plan (b : Bool) : ∃ chunks, plan stWorld stCmd (checked stWorld stArgs (exDisk (exChunk b))) = .writes .csv chunks true := by
  have h : isFinishing (plan stWorld stCmd (checked stWorld stArgs (exDisk (exChunk b)))) = true := by
    cases b <;> decide +kernel
  cases hp : plan stWorld stCmd (checked stWorld stArgs (exDisk (exChunk b))) with
  | other => rw [hp] at h; cases h
  | writes fmt chunks f =>
    rw [hp] at h
    cases fmt <;> cases f <;> first | exact ⟨chunks, rfl⟩ | cases h

theorem st_finishes (b : Bool) : ∃ d' log, Invoked stWorld stArgv (exDisk (exChunk b)) d' log .finished := by
  obtain ⟨chunks, hp⟩ := st_plan b
  exact finishes stArgv_args rfl charGlob_sound st_differ (st_one b) (st_accepted b) hp

/-- The statistics: A has two rows in r, B one in g. -/
example (b : Bool) : (match plan stWorld stCmd (checked stWorld stArgs (exDisk (exChunk b))) with
    | .writes _ chunks _ => (chunks.filterMap fun c => c.results.map (·.2)).flatMap fun g => g.cells
    | .other => []) =
    [[.text "A", .text "g", .text "0", .null, .null, .null, .null, .null], [.text "A", .text "i", .text "0", .null, .null, .null, .null, .null],
     [.text "A", .text "r", .text "2", .num (.fin 21), .num (.fin 21), .num (.fin 21), .num (.fin 3), .num (.fin 3)],
     [.text "B", .text "g", .text "1", .num (.fin 21), .num (.fin 21), .num (.fin 21), .num (.fin 3), .num (.fin 3)],
     [.text "B", .text "i", .text "0", .null, .null, .null, .null, .null], [.text "B", .text "r", .text "0", .null, .null, .null, .null, .null]] := by
  cases b <;> decide +kernel

theorem st_objects (b : Bool) : Spec.Objects exWorld.ids (exDisk (exChunk b)) stArgs (runCfg (exSize b)) (recsOf exOrbRows) [recsOf exPhysRows] :=
  let h := ex_objects b
  ⟨h.orbits, h.unique, h.given, h.same⟩

/-- C93 for a concrete run. -/
example (b : Bool) : ∃ d' log, ∃ rows : List (Pipeline.Final Unit Unit), Invoked stWorld stArgv (exDisk (exChunk b)) d' log .finished ∧
    Spec.Lists stWorld.dist Csv.Props.someShown Csv.read (runCfg (exSize b)) ["ObjID", "optFilter", "trailedSourceMag"] stWorld.cells rows (d'.get "out/run.csv") ∧
    Spec.StatisticsFile Csv.Props.someShown Csv.read (runCfg (exSize b)) stFilters (rows.map (seen fun _ => some 3)) (d'.get "out/tally.csv") ∧
    (rows.map (·.row)).Perm (Pipeline.Spec.survivors Pipeline.Props.exEnv (runCfg (exSize b))
      (Spec.observed exWorld.parse (recsOf exEphRows) (recsOf exOrbRows) [recsOf exPhysRows])) := by
  obtain ⟨d', log, h⟩ := st_finishes b
  obtain ⟨a, E, rows, -, hE, h1, h2, h3⟩ := C93_external stArgv_args h (st_configured b) rfl charGlob_sound st_differ (st_one b) (st_objects b) (pe := "e.csv") rfl
    (ex_table (ns := ["FieldID", "fieldMJD_TAI"]) (rows := exEphRows) rfl (by simp) (by decide)) (shown := Csv.Props.someShown) (shown' := Csv.Props.someShown) rfl rfl
    (fun _ _ => by simp [stWorld, exWorld]) (n := "tally") rfl (filters := stFilters) (by decide) (phase := fun _ => some 3) (fun _ => rfl)
    (fun _ E _ hE => by cases hE; exact ⟨fun l => List.Perm.refl l, Pipeline.Props.exEnv_sortsOut, by decide⟩)
  cases hE
  exact ⟨d', log, rows, h, h1, h2, h3 ⟨rfl, rfl, fun _ _ h => by cases h; exact .inl rfl⟩ rfl⟩

/-! ## Generated ephemerides -/

def starWorld : World Unit Unit Unit := { arWorld with stats := fun rows => statistics stFilters (runCfg 1).linking (rows.map (seen fun _ => some 3)) }

theorem star_finishes : ∃ d' log, Invoked starWorld stArgv arDisk d' log .finished := by
  have h0 : (Cli.commandLine (existing starWorld arDisk) starWorld.isDir starWorld.glob stArgs []).1.toOption = some stCmd := by decide +kernel
  have h : isFinishing (plan starWorld stCmd (checked starWorld stArgs arDisk)) = true := by decide +kernel
  cases h1 : (Cli.commandLine (existing starWorld arDisk) starWorld.isDir starWorld.glob stArgs []).1 with
  | error e => rw [h1] at h0; cases h0
  | ok x =>
    rw [h1] at h0
    cases Option.some.inj h0
    cases hp : plan starWorld stCmd (checked starWorld stArgs arDisk) with
    | other => rw [hp] at h; cases h
    | writes fmt chunks f =>
      rw [hp] at h
      have : fmt = .csv ∧ f = true := by cases fmt <;> cases f <;> first | exact ⟨rfl, rfl⟩ | cases h
      obtain ⟨rfl, rfl⟩ := this
      exact finishes stArgv_args rfl charGlob_sound st_differ arDisk_one h1 hp

/-- C93 for a concrete run that makes its ephemerides. -/
example : ∃ d' log, ∃ rows : List (Pipeline.Final Unit Unit), Invoked starWorld stArgv arDisk d' log .finished ∧
    Spec.StatisticsFile Csv.Props.someShown Csv.read arCfg stFilters (rows.map (seen fun _ => some 3)) (d'.get "out/tally.csv") ∧
    (rows.map (·.row)).Perm (Pipeline.Spec.survivors Pipeline.Props.exEnv arCfg ((Spec.bright arCfg (fun r => r.id = "B") (recsOf exOrbRows) [recsOf exPhysRows]).flatMap fun r =>
        [⟨r.id, 1, 60000 + 1/4, ()⟩, ⟨r.id, 2, 60000 + 7/25, ()⟩])) := by
  obtain ⟨d', log, h⟩ := star_finishes
  obtain ⟨a, E, rows, -, hE, -, h2, h3⟩ := C93_generated stArgv_args h (show Configured starWorld arDisk stArgs arCfg from ar_configured) (by decide) charGlob_sound st_differ
    arDisk_one (orb := recsOf exOrbRows) (others := [recsOf exPhysRows])
    ⟨ex_table (ns := ["a"]) rfl (by simp) (by decide), by decide +kernel, .inl ⟨rfl, rfl, _, rfl, ex_table (ns := ["H_r"]) rfl (by simp) (by decide)⟩, by
      intro t ht
      rw [List.mem_singleton] at ht
      subst ht
      decide +kernel⟩
    (fun a _ k _ o ho => by
      obtain ⟨r, hr, ho⟩ := List.mem_flatMap.1 ho
      refine List.mem_map.2 ⟨r, hr, ?_⟩
      rcases List.mem_cons.1 ho with rfl | ho
      · rfl
      · rw [List.mem_singleton] at ho; subst ho; rfl)
    (shown := Csv.Props.someShown) (shown' := Csv.Props.someShown) rfl rfl
    (fun _ _ => by simp [starWorld, arWorld, exWorld]) (n := "tally") rfl (filters := stFilters) (by decide) (phase := fun _ => some 3) (fun _ => rfl)
    (fun _ E _ hE => by cases hE; exact ⟨fun l => List.Perm.refl l, Pipeline.Props.exEnv_sortsOut, by decide⟩)
  cases hE
  exact ⟨d', log, rows, h, h2, h3 ⟨rfl, rfl, fun _ _ h => by cases h; exact .inl rfl⟩ rfl (fun objs _ => by simp [starWorld, arWorld])⟩

/-! ## DES -/

def stDesArgv : List Str := ["--st", "tally"].map String.toList ++ desArgv

def stDesArgs : Cli.Args := { desArgs with st := some "tally" }

theorem stDesArgv_args : Argv.parseRun stDesArgv = .ok (stDesArgs, true) := by
  have val : ∀ {v : List Char}, v.head? ≠ some '-' → Argv.Spec.Value Argv.Spec.allNames v := fun h => .inl h
  refine (Argv.Props.C81_run _ _ _).2 ⟨[(.stats, "tally".toList), (.config, "c.ini".toList), (.outfile, "out".toList), (.stem, "run".toList), (.pointings, "v.db".toList),
    (.parameters, "p.csv".toList), (.orbits, "o.csv".toList), (.ephemRead, "e.csv".toList), (.survey, "DES".toList), (.force, [])], ?_, Argv.Props.enough (by decide +kernel),
    by decide +kernel⟩
  refine .next (n := "--st".toList) (.inl ⟨"--st", by decide, rfl⟩) (by simp [Argv.Spec.Switch]) (val (by decide)) ?_
  refine .next (n := "-c".toList) (.inl ⟨"-c", by decide, rfl⟩) (by simp [Argv.Spec.Switch]) (val (by decide)) ?_
  refine .next (n := "-o".toList) (.inl ⟨"-o", by decide, rfl⟩) (by simp [Argv.Spec.Switch]) (val (by decide)) ?_
  refine .next (n := "-t".toList) (.inl ⟨"-t", by decide, rfl⟩) (by simp [Argv.Spec.Switch]) (val (by decide)) ?_
  refine .next (n := "--pd".toList) (.inl ⟨"--pd", by decide, rfl⟩) (by simp [Argv.Spec.Switch]) (val (by decide)) ?_
  refine .next (n := "-p".toList) (.inl ⟨"-p", by decide, rfl⟩) (by simp [Argv.Spec.Switch]) (val (by decide)) ?_
  refine .next (n := "--ob".toList) (.inl ⟨"--ob", by decide, rfl⟩) (by simp [Argv.Spec.Switch]) (val (by decide)) ?_
  refine .next (n := "--er".toList) (.inl ⟨"--er", by decide, rfl⟩) (by simp [Argv.Spec.Switch]) (val (by decide)) ?_
  refine .next (n := "-s".toList) (.inl ⟨"-s", by decide, rfl⟩) (by simp [Argv.Spec.Switch]) (val (by decide)) ?_
  exact .switch (n := "-f".toList) (.inl ⟨"-f", by decide, rfl⟩) (by simp [Argv.Spec.Switch]) .nil

def stDesWorld : DesWorld Unit Unit Unit :=
  { desWorld with stats := fun rows => statistics ["g", "r"] (desRunCfg 1 (.named "all")).linking (rows.map (desSeen fun _ => some 3)) }

def stDesCmd : Cli.CmdArgs := { desCmd with stats := some "tally" }

theorem stDes_accepted (chunk : Char) (columns : Str) (eph : List (List Str)) :
    (Cli.commandLine (existing exWorld (desDisk chunk columns eph)) exWorld.isDir exWorld.glob stDesArgs []).1 = .ok stDesCmd := by
  have he : existing exWorld (desDisk chunk columns eph) = existing exWorld (desDisk '1' [] []) := rfl
  rw [he]
  have h : (Cli.commandLine (existing exWorld (desDisk '1' [] [])) exWorld.isDir exWorld.glob stDesArgs []).1.toOption = some stDesCmd := by decide +kernel
  cases h1 : (Cli.commandLine (existing exWorld (desDisk '1' [] [])) exWorld.isDir exWorld.glob stDesArgs []).1 with
  | error e => rw [h1] at h; cases h
  | ok x => rw [h1] at h; exact congrArg _ (Option.some.inj h)

theorem stDes_differ : History.Spec.NamesDiffer stDesArgs := by
  refine ⟨?_, ?_, ?_⟩
  · rintro p ⟨-, n, hn, -⟩; cases hn
  · rintro p ⟨h, n, hn, rfl⟩
    cases hn
    have h1 : ("out".toList ++ '/' :: "run".toList ++ ['.']) <+: ("out" ++ "/" ++ "tally" ++ ".csv").toList := History.Props.belongs_chars h
    revert h1
    decide
  · rintro p ⟨⟨n, hn, -⟩, -⟩; cases hn

theorem stDes_finishes (b : Bool) : ∃ d' log, DesInvoked stDesWorld stDesArgv (desDisk (exChunk b) someColumns desEphRows) d' log .finished :=
  des_finish stDesArgv_args rfl charGlob_sound stDes_differ (desDisk_one _ _ _) (stDes_accepted _ _ _) (by cases b <;> decide +kernel)

/-- The statistics: N and A are seen nine times in r. -/
example (b : Bool) : (match desPlan stDesWorld stDesCmd (checked exWorld stDesArgs (desDisk (exChunk b) someColumns desEphRows)) with
    | .writes _ chunks _ => ((chunks.filterMap fun c => c.results.map (·.2)).flatMap fun g => g.cells).map (·.take 3)
    | .other => []) =
    [[.text "N", .text "g", .text "0"], [.text "N", .text "r", .text "9"], [.text "A", .text "g", .text "0"], [.text "A", .text "r", .text "9"]] := by
  cases b <;> decide +kernel

/-- C93 for a concrete run. -/
example (b : Bool) : ∃ d' log, ∃ rows : List (Row Unit Unit), DesInvoked stDesWorld stDesArgv (desDisk (exChunk b) someColumns desEphRows) d' log .finished ∧
    Spec.Passed (DesRun.Props.exEnv DesRun.Props.exExt fun _ => []) (desRunCfg (exSize b) (.listed ["ObjID", "optFilter"])) desObs rows ∧
    Spec.StatisticsFile Csv.Props.someShown Csv.read (desRunCfg (exSize b) (.listed ["ObjID", "optFilter"])) ["g", "r"] (rows.map (desSeen fun _ => some 3))
      (d'.get "out/tally.csv") := by
  obtain ⟨d', log, h⟩ := stDes_finishes b
  have hob := des_objects b someColumns desEphRows (.listed ["ObjID", "optFilter"])
  obtain ⟨a, E, rows, -, hE, h2, -, h3⟩ := C93_des stDesArgv_args (.inl rfl) h
    (show Configured stDesWorld.base (desDisk (exChunk b) someColumns desEphRows) stDesArgs (desRunCfg (exSize b) (.listed ["ObjID", "optFilter"])) from des_configured b _)
    (des_sensible _ _) charGlob_sound stDes_differ (desDisk_one _ _ _) (orb := recsOf desOrbRows) (others := [recsOf desOrbRows])
    ⟨hob.orbits, hob.unique, hob.given, hob.same⟩ (obs := fun _ => desObs)
    (fun a _ => .inl ⟨rfl, "e.csv", _, rfl, ex_table (ns := ["FieldID", "fieldMJD_TAI"]) (rows := desEphRows) rfl (by simp) (by decide), rfl⟩)
    (shown := Csv.Props.someShown) (shown' := Csv.Props.someShown) rfl rfl (fun _ _ _ => by simp [stDesWorld, desWorld]) (n := "tally") rfl (filters := ["g", "r"]) (by decide)
    (phase := fun _ => some 3) (fun _ => rfl)
    (fun _ E _ hE => by cases hE; exact ⟨⟨fun l => List.Perm.refl _, DesRun.Props.exSorts, fun q h => by cases h⟩, by decide⟩)
  cases hE
  exact ⟨d', log, rows, h, h2, h3⟩

end Sorcha.Whole.Props
