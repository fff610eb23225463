import Verif.Csv.TextProps
import Verif.History.Examples
import Verif.Ini.Accept
import Verif.Pipeline.Props2
import Verif.Whole.Props2

/-!
# C85: a concrete run
-/

namespace Sorcha.Whole.Props

open Sorcha.Csv (Str)
open Sorcha.Readers (Rec IdParse)
open Sorcha.History (Disk Chunk)
open Sorcha.Output (Cell)

/-- What is left of a text behind an initial part. -/
def after : List Char → List Char → Option (List Char)
  | [], t => some t
  | _ :: _, [] => none
  | c :: p, d :: t => if c = d then after p t else none

theorem after_some (p : List Char) : ∀ t r, after p t = some r ↔ t = p ++ r := by
  induction p with
  | nil => intro t r; simp [after]
  | cons c p ih =>
    intro t r
    cases t with
    | nil => simp [after]
    | cons d t =>
      simp only [after]
      split_ifs with h
      · rw [ih, h]; simp
      · simp only [List.cons_append, List.cons.injEq, false_iff, not_and, reduceCtorEq]
        intro h1; exact absurd h1.symm h

/-- A `glob` that looks at the characters. -/
def charGlob : Cli.Glob :=
  ⟨fun dir stem fs => fs.filter fun p => match after (dir ++ "/" ++ stem ++ ".").toList p.toList with | none => false | some ext => !ext.contains '/',
    fun dir stem fs => fs.filter fun p => p = dir ++ "/" ++ stem ++ ".csv"⟩

theorem charGlob_sound : Cli.Spec.GlobSound charGlob := by
  constructor
  · intro dir stem fs p
    simp only [charGlob, List.mem_filter, Cli.Spec.BelongsTo]
    refine and_congr_right fun _ => ?_
    constructor
    · intro h
      cases ha : after (dir ++ "/" ++ stem ++ ".").toList p.toList with
      | none => rw [ha] at h; cases h
      | some e =>
        rw [ha] at h
        refine ⟨String.ofList e, by simpa using h, ?_⟩
        rw [after_some] at ha
        apply String.toList_injective
        rw [ha]
        simp
    · rintro ⟨ext, h1, rfl⟩
      have : after (dir ++ "/" ++ stem ++ ".").toList (dir ++ "/" ++ stem ++ "." ++ ext).toList = some ext.toList := by
        rw [after_some]; simp
      rw [this]
      simpa using h1
  · intro dir stem fs p
    simp [charGlob]

/-- A number of digits. -/
def digits (s : Str) : ℕ := s.foldl (fun n c => 10 * n + (c.toNat - 48)) 0

/-- The configuration of the example. -/
def configText (chunk : Char) : Str :=
  chars! "[INPUT]\nephemerides_type = external\neph_format = csv\nsize_serial_chunk = " ++ chunk ::
    chars! "\naux_format = csv\npointing_sql_query = SELECT\n[SIMULATION]\n[FILTERS]\nobserving_filters = r, g\n[PHASECURVES]\nphase_function = HG\n[FOV]\ncamera_model = circle\ncircle_radius = 2.0\n[OUTPUT]\noutput_format = csv\noutput_columns = ObjID, optFilter, trailedSourceMag\n[EXPERT]\nrandomization_on = False\ntrailing_losses_on = False\nvignetting_on = False\n[SATURATION]\nbright_limit = 16.0\n"

def exWorld : World Unit Unit Unit where
  py := Ini.Props.plainPy
  lightCurves := []
  activities := []
  ids := ⟨fun _ => false, fun _ => none, fun _ => none, fun _ => none⟩
  missing := []
  goodEphemeris _ := true
  goodOrbits _ := true
  goodParameters _ := true
  goodComplex _ := true
  env _ _ _ := some Pipeline.Props.exEnv
  state _ _ := Pipeline.Props.exState
  parse cells := (digits (cells.headD []), (digits (cells.getD 1 []) : ℚ) / 100, ())
  cull _ _ _ := false
  ephem _ _ _ := []
  ephemFrame _ := ⟨[], []⟩
  columns _ _ := ["ObjID", "optFilter", "trailedSourceMag"]
  cells f := fun c => if c = "ObjID" then .text f.row.objId else if c = "optFilter" then .text f.row.optFilter else .null
  dist _ _ _ := .null
  stats _ := ⟨[], []⟩
  start := []
  messages _ := []
  stamp := []
  glob := charGlob
  lines := Csv.Props.textLines
  isDir p := p = "out"

def exArgv : List Str := ["-c", "c.ini", "-o", "out", "-t", "run", "--pd", "v.db", "-p", "p.csv", "--ob", "o.csv", "--er", "e.csv", "-f"].map String.toList

def exArgs : Cli.Args := ⟨"p.csv", "o.csv", "c.ini", "out", "v.db", none, some "e.csv", none, none, none, none, true, "rubin_sim", "run"⟩

theorem exArgv_args : Argv.parseRun exArgv = .ok (exArgs, true) := by
  have val : ∀ {v : List Char}, v.head? ≠ some '-' → Argv.Spec.Value Argv.Spec.allNames v := fun h => .inl h
  refine (Argv.Props.C81_run _ _ _).2 ⟨[(.config, "c.ini".toList), (.outfile, "out".toList), (.stem, "run".toList), (.pointings, "v.db".toList),
    (.parameters, "p.csv".toList), (.orbits, "o.csv".toList), (.ephemRead, "e.csv".toList), (.force, [])], ?_, Argv.Props.enough (by decide +kernel), by decide +kernel⟩
  refine .next (n := "-c".toList) (.inl ⟨"-c", by decide, rfl⟩) (by simp [Argv.Spec.Switch]) (val (by decide)) ?_
  refine .next (n := "-o".toList) (.inl ⟨"-o", by decide, rfl⟩) (by simp [Argv.Spec.Switch]) (val (by decide)) ?_
  refine .next (n := "-t".toList) (.inl ⟨"-t", by decide, rfl⟩) (by simp [Argv.Spec.Switch]) (val (by decide)) ?_
  refine .next (n := "--pd".toList) (.inl ⟨"--pd", by decide, rfl⟩) (by simp [Argv.Spec.Switch]) (val (by decide)) ?_
  refine .next (n := "-p".toList) (.inl ⟨"-p", by decide, rfl⟩) (by simp [Argv.Spec.Switch]) (val (by decide)) ?_
  refine .next (n := "--ob".toList) (.inl ⟨"--ob", by decide, rfl⟩) (by simp [Argv.Spec.Switch]) (val (by decide)) ?_
  refine .next (n := "--er".toList) (.inl ⟨"--er", by decide, rfl⟩) (by simp [Argv.Spec.Switch]) (val (by decide)) ?_
  exact .switch (n := "-f".toList) (.inl ⟨"-f", by decide, rfl⟩) (by simp [Argv.Spec.Switch]) .nil

/-- The rows of the tables: objects A, B (twice seen), C and D; the name of C has a comma in it. -/
def exOrbRows : List (List Str) := [["A".toList, "2.1".toList], ["B".toList, "3".toList], ["C,1".toList, "40".toList], ["D".toList, "".toList]]
def exPhysRows : List (List Str) := [["D".toList, "9".toList], ["C,1".toList, "8".toList], ["B".toList, "7".toList], ["A".toList, "6".toList]]
def exEphRows : List (List Str) := [["A".toList, "1".toList, "6000025".toList], ["B".toList, "2".toList, "6000028".toList], ["A".toList, "3".toList, "6000125".toList],
  ["D".toList, "1".toList, "6000025".toList], ["X".toList, "1".toList, "6000025".toList], ["B".toList, "7".toList, "6000029".toList]]

def fileText (names : List String) (rows : List (List Str)) : Str := ((names.map String.toList) :: rows).flatMap Csv.record

def exDisk (chunk : Char) : Disk := [("c.ini", .text (configText chunk)), ("v.db", .text []), ("p.csv", .text (fileText ["ObjID", "H_r"] exPhysRows)),
  ("o.csv", .text (fileText ["ObjID", "a"] exOrbRows)), ("e.csv", .text (fileText ["ObjID", "FieldID", "fieldMJD_TAI"] exEphRows)), ("out/run.csv", .text "old".toList)]

/-- The settings of the example. -/
def runCfg (n : ℤ) : Config.Cfg where
  input := ⟨"external", "csv", n, "csv", "SELECT"⟩
  simulation := none
  filters := ["r", "g"]
  saturation := ⟨.bool true, some [.fin 16, .fin 16]⟩
  phase := "HG"
  fov := .circle none (some (.fin 2))
  fading := .off
  linking := ⟨none, true, .unset, .unset, none, .unset, none⟩
  output := ⟨"csv", .listed ["ObjID", "optFilter", "trailedSourceMag"], none, none⟩
  lightcurve := none
  activity := none
  expert := ⟨none, none, true, true, .bool false, .bool false, .bool false⟩

def exChunk (b : Bool) : Char := if b then '1' else '3'
def exSize (b : Bool) : ℤ := if b then 1 else 3

theorem ex_configured (b : Bool) : Configured exWorld (exDisk (exChunk b)) exArgs (runCfg (exSize b)) := by
  have h : (match Ini.configure exWorld.py exWorld.lightCurves exWorld.activities exArgs.s (configLines (configText (exChunk b))) with
      | .ok (c, _) => decide (c = runCfg (exSize b)) | .error _ => false) = true := by
    cases b <;> decide +kernel
  cases hc : Ini.configure exWorld.py exWorld.lightCurves exWorld.activities exArgs.s (configLines (configText (exChunk b))) with
  | error e => rw [hc] at h; cases h
  | ok x =>
    obtain ⟨c, y⟩ := x
    rw [hc] at h
    refine ⟨_, y, rfl, ?_⟩
    rw [hc, of_decide_eq_true h]

def exCmd : Cli.CmdArgs := ⟨"p.csv", "o.csv", "c.ini", "out", "v.db", none, some "e.csv", none, none, "rubin_sim", "run", none, none⟩

deriving instance DecidableEq for Cli.CmdArgs

theorem ex_empty (b : Bool) : (Cli.commandLine (existing exWorld (exDisk (exChunk b))) exWorld.isDir exWorld.glob exArgs []).1 = .ok exCmd := by
  have h : (Cli.commandLine (existing exWorld (exDisk (exChunk b))) exWorld.isDir exWorld.glob exArgs []).1.toOption = some exCmd := by
    cases b <;> decide +kernel
  cases h1 : (Cli.commandLine (existing exWorld (exDisk (exChunk b))) exWorld.isDir exWorld.glob exArgs []).1 with
  | error e => rw [h1] at h; cases h
  | ok x => rw [h1] at h; exact congrArg _ (Option.some.inj h)

def isFinishing : Plan → Bool
  | .writes .csv _ true => true
  | _ => false

theorem ex_plan (b : Bool) : ∃ chunks, plan exWorld exCmd (checked exWorld exArgs (exDisk (exChunk b))) = .writes .csv chunks true := by
  have h : isFinishing (plan exWorld exCmd (checked exWorld exArgs (exDisk (exChunk b)))) = true := by
    cases b <;> decide +kernel
  cases hp : plan exWorld exCmd (checked exWorld exArgs (exDisk (exChunk b))) with
  | other => rw [hp] at h; cases h
  | writes fmt chunks f =>
    rw [hp] at h
    cases fmt <;> cases f <;> first | exact ⟨chunks, rfl⟩ | cases h

theorem exArgs_differ : History.Spec.NamesDiffer exArgs := by
  refine ⟨?_, ?_, ?_⟩
  · rintro p ⟨-, n, hn, -⟩; cases hn
  · rintro p ⟨-, n, hn, -⟩; cases hn
  · rintro p ⟨⟨n, hn, -⟩, -⟩; cases hn

theorem exDisk_one (b : Bool) : History.Spec.AtMostOne exArgs (exDisk (exChunk b)) := by
  constructor
  · have key : ∀ p, (exDisk (exChunk b)).get p ≠ none → History.Spec.IsResults exArgs p → p = "out/run.csv" := by
      intro p hp h
      have h1 := History.Props.belongs_chars h
      have hm := (History.mem_paths _ p).2 hp
      simp only [exDisk, Disk.paths, List.map_cons, List.map_nil, List.mem_cons, List.not_mem_nil, or_false] at hm
      have h2 : ("out".toList ++ '/' :: "run".toList ++ ['.']) <+: p.toList := h1
      rcases hm with rfl | rfl | rfl | rfl | rfl | rfl
      all_goals first | rfl | (exfalso; revert h2; decide)
    intro p q hp hq h1 h2
    rw [key p hp h1, key q hq h2]
  · rintro p q - - ⟨n, hn, -⟩
    cases hn

theorem ex_stable (recs : List (Rec Str)) : Readers.Spec.StableIds exWorld.ids recs := Readers.Stable.plain fun _ _ => ⟨rfl, rfl, rfl, rfl⟩

def recsOf (rows : List (List Str)) : List (Rec Str) := rows.map fun r => ⟨String.ofList (r.headD []), r.tail⟩

theorem ex_table {d : Disk} {p : String} {ns : List String} {rows : List (List Str)} (hd : d.get p = some (.text (fileText ("ObjID" :: ns) rows)))
    (hns : ns ≠ []) (hr : ∀ row ∈ rows, row.length = ns.length + 1 ∧ row.headD [] ≠ []) : Spec.Table exWorld.ids "csv" d p (recsOf rows) :=
  ⟨_, _, rows, hd, (Csv.Props.C84_written (ns.map String.toList) (by simpa using hns) rows (by simpa using hr) (.inl rfl)).1, rfl, ex_stable _⟩

theorem ex_objects (b : Bool) : Spec.Objects exWorld.ids (exDisk (exChunk b)) exArgs (runCfg (exSize b)) (recsOf exOrbRows) [recsOf exPhysRows] where
  orbits := ex_table (ns := ["a"]) rfl (by simp) (by decide)
  unique := by decide +kernel
  given := .inl ⟨rfl, rfl, _, rfl, ex_table (ns := ["H_r"]) rfl (by simp) (by decide)⟩
  same := by
    intro t ht
    rw [List.mem_singleton] at ht
    subst ht
    decide +kernel

/-- The runs of the example finish. -/
theorem ex_finishes (b : Bool) : ∃ d' log, Invoked exWorld exArgv (exDisk (exChunk b)) d' log .finished := by
  obtain ⟨chunks, hp⟩ := ex_plan b
  exact finishes exArgv_args rfl charGlob_sound exArgs_differ (exDisk_one b) (ex_empty b) hp

/-- The rows of the example: of A and B, but not of D, which is too bright, of X, which has no orbit, or of visit 7, which is not in the database. -/
example : (match plan exWorld exCmd (checked exWorld exArgs (exDisk '1')) with
    | .writes _ chunks _ => (chunks.filterMap fun c => c.results.map (·.1)).flatMap fun g => g.cells
    | .other => []) = [[.text "A", .text "r", .null], [.text "A", .text "r", .null], [.text "B", .text "g", .null]] := by
  decide +kernel

/-- C85 for a concrete run. -/
example (b : Bool) : ∃ d' log, Invoked exWorld exArgv (exDisk (exChunk b)) d' log .finished ∧
    Spec.ResultsFile exWorld.dist Csv.Props.someShown Csv.read (runCfg (exSize b)) ["ObjID", "optFilter", "trailedSourceMag"] (fun r => exWorld.cells ⟨r, none⟩)
      (Pipeline.Spec.survivors Pipeline.Props.exEnv (runCfg (exSize b)) (Spec.observed exWorld.parse (recsOf exEphRows) (recsOf exOrbRows) [recsOf exPhysRows]))
      (d'.get "out/run.csv") := by
  obtain ⟨d', log, h⟩ := ex_finishes b
  refine ⟨d', log, h, ?_⟩
  obtain ⟨a, E, -, hE, hf⟩ := C85_external exArgv_args h (ex_configured b) rfl rfl ⟨rfl, rfl, fun _ _ h => by cases h; exact .inl rfl⟩ rfl charGlob_sound exArgs_differ
    (exDisk_one b) (ex_objects b) (pe := "e.csv") rfl (ex_table (ns := ["FieldID", "fieldMJD_TAI"]) (rows := exEphRows) rfl (by simp) (by decide))
    (shown := Csv.Props.someShown) rfl (fun _ _ => by simp [exWorld]) (fun _ E _ hE => by cases hE; exact fun l => List.Perm.refl l)
  cases hE
  exact hf

/-- C85 for a pair of concrete runs with different chunk sizes. -/
example : ∃ d1 d2 log1 log2, Invoked exWorld exArgv (exDisk '1') d1 log1 .finished ∧ Invoked exWorld exArgv (exDisk '3') d2 log2 .finished ∧
    Spec.SameLines Csv.read (d1.get "out/run.csv") (d2.get "out/run.csv") := by
  obtain ⟨d1, log1, h1⟩ := ex_finishes true
  obtain ⟨d2, log2, h2⟩ := ex_finishes false
  refine ⟨d1, d2, log1, log2, h1, h2, ?_⟩
  have he : ∀ b, Spec.Table exWorld.ids "csv" (exDisk (exChunk b)) "e.csv" (recsOf exEphRows) := fun b =>
    ex_table (ns := ["FieldID", "fieldMJD_TAI"]) (rows := exEphRows) rfl (by simp) (by decide)
  exact C85_chunks exArgv_args exArgv_args h1 h2 (c := runCfg 1) (n := 3) (ex_configured true) (ex_configured false) rfl rfl charGlob_sound exArgs_differ exArgs_differ
    (exDisk_one true) (exDisk_one false) (ex_objects true) (ex_objects false) rfl rfl (he true) (he false)
    (by unfold Pipeline.Spec.OncePerTime; decide +kernel)
    (shown := Csv.Props.someShown) rfl (fun _ _ => by simp [exWorld]) (fun _ _ _ _ => rfl) (fun _ _ _ _ => rfl)
    (fun _ E _ hE => by
      cases hE
      have hr := Pipeline.Props.exRegular
      exact ⟨⟨rfl, rfl, fun _ _ h => by cases h; exact .inl rfl⟩, hr.visits, hr.sortIndex, hr.sortOut, hr.sortT, hr.weights, fun _ h => by cases h⟩)

/-! ## Generated ephemerides -/

/-- A configuration for generated ephemerides. -/
def arText : Str :=
  chars! "[INPUT]\nephemerides_type = ar\neph_format = csv\nsize_serial_chunk = 3\naux_format = csv\npointing_sql_query = SELECT\n[SIMULATION]\nar_ang_fov = 2.0\nar_fov_buffer = 0.2\nar_picket = 1\nar_obs_code = X05\nar_healpix_order = 6\n[FILTERS]\nobserving_filters = r, g\n[PHASECURVES]\nphase_function = HG\n[FOV]\ncamera_model = circle\ncircle_radius = 2.0\n[OUTPUT]\noutput_format = csv\noutput_columns = ObjID, optFilter, trailedSourceMag\n[EXPERT]\nrandomization_on = False\ntrailing_losses_on = False\nvignetting_on = False\nbrute_force = False\n"

/-- Each object is seen in the first two visits; the faint object filter would drop B. -/
def arWorld : World Unit Unit Unit :=
  { exWorld with ephem := fun _ _ objs => objs.flatMap fun r => [⟨r.id, 1, 60000 + 1/4, ()⟩, ⟨r.id, 2, 60000 + 7/25, ()⟩], cull := fun _ _ r => r.id = "B" }

def arDisk : Disk := [("c.ini", .text arText), ("v.db", .text []), ("p.csv", .text (fileText ["ObjID", "H_r"] exPhysRows)),
  ("o.csv", .text (fileText ["ObjID", "a"] exOrbRows)), ("e.csv", .text []), ("out/run.csv", .text "old".toList)]

def arCfg : Config.Cfg :=
  { runCfg 3 with input := ⟨"ar", "csv", 3, "csv", "SELECT"⟩, simulation := some ⟨.fin 2, .fin (1/5), 1, "X05", 6, 101⟩, saturation := ⟨.unset, none⟩, expert := ⟨none, none, true, false, .bool false, .bool false, .bool false⟩ }

theorem ar_configured : Configured arWorld arDisk exArgs arCfg := by
  have h : (match Ini.configure arWorld.py arWorld.lightCurves arWorld.activities exArgs.s (configLines arText) with
      | .ok (c, _) => decide (c = arCfg) | .error _ => false) = true := by decide +kernel
  cases hc : Ini.configure arWorld.py arWorld.lightCurves arWorld.activities exArgs.s (configLines arText) with
  | error e => rw [hc] at h; cases h
  | ok x =>
    obtain ⟨c, y⟩ := x
    rw [hc] at h
    refine ⟨_, y, rfl, ?_⟩
    rw [hc, of_decide_eq_true h]

theorem arDisk_one : History.Spec.AtMostOne exArgs arDisk := by
  constructor
  · have key : ∀ p, arDisk.get p ≠ none → History.Spec.IsResults exArgs p → p = "out/run.csv" := by
      intro p hp h
      have h1 := History.Props.belongs_chars h
      have hm := (History.mem_paths _ p).2 hp
      simp only [arDisk, Disk.paths, List.map_cons, List.map_nil, List.mem_cons, List.not_mem_nil, or_false] at hm
      have h2 : ("out".toList ++ '/' :: "run".toList ++ ['.']) <+: p.toList := h1
      rcases hm with rfl | rfl | rfl | rfl | rfl | rfl
      all_goals first | rfl | (exfalso; revert h2; decide)
    intro p q hp hq h1 h2
    rw [key p hp h1, key q hq h2]
  · rintro p q - - ⟨n, hn, -⟩
    cases hn

theorem ar_finishes : ∃ d' log, Invoked arWorld exArgv arDisk d' log .finished := by
  have h0 : (Cli.commandLine (existing arWorld arDisk) arWorld.isDir arWorld.glob exArgs []).1.toOption = some exCmd := by decide +kernel
  have h : isFinishing (plan arWorld exCmd (checked arWorld exArgs arDisk)) = true := by decide +kernel
  cases h1 : (Cli.commandLine (existing arWorld arDisk) arWorld.isDir arWorld.glob exArgs []).1 with
  | error e => rw [h1] at h0; cases h0
  | ok x =>
    rw [h1] at h0
    cases Option.some.inj h0
    cases hp : plan arWorld exCmd (checked arWorld exArgs arDisk) with
    | other => rw [hp] at h; cases h
    | writes fmt chunks f =>
      rw [hp] at h
      have : fmt = .csv ∧ f = true := by cases fmt <;> cases f <;> first | exact ⟨rfl, rfl⟩ | cases h
      obtain ⟨rfl, rfl⟩ := this
      exact finishes exArgv_args rfl charGlob_sound exArgs_differ arDisk_one h1 hp

/-- The rows: object B has been dropped as faint. -/
example : (match plan arWorld exCmd (checked arWorld exArgs arDisk) with
    | .writes _ chunks _ => (chunks.filterMap fun c => c.results.map (·.1)).flatMap fun g => g.cells.map (·.take 2)
    | .other => []) = [[.text "A", .text "r"], [.text "A", .text "g"], [.text "C,1", .text "r"], [.text "C,1", .text "g"], [.text "D", .text "r"], [.text "D", .text "g"]] := by
  decide +kernel

/-- C85 for a concrete run that makes its ephemerides. -/
example : ∃ d' log, Invoked arWorld exArgv arDisk d' log .finished ∧
    Spec.ResultsFile arWorld.dist Csv.Props.someShown Csv.read arCfg ["ObjID", "optFilter", "trailedSourceMag"] (fun r => arWorld.cells ⟨r, none⟩)
      (Pipeline.Spec.survivors Pipeline.Props.exEnv arCfg ((Spec.bright arCfg (fun r => r.id = "B") (recsOf exOrbRows) [recsOf exPhysRows]).flatMap fun r =>
        [⟨r.id, 1, 60000 + 1/4, ()⟩, ⟨r.id, 2, 60000 + 7/25, ()⟩])) (d'.get "out/run.csv") := by
  obtain ⟨d', log, h⟩ := ar_finishes
  refine ⟨d', log, h, ?_⟩
  obtain ⟨a, E, -, hE, hf⟩ := C85_generated exArgv_args h ar_configured (by decide) rfl ⟨rfl, rfl, fun _ _ h => by cases h; exact .inl rfl⟩ rfl charGlob_sound
    exArgs_differ arDisk_one (orb := recsOf exOrbRows) (others := [recsOf exPhysRows])
    ⟨ex_table (ns := ["a"]) rfl (by simp) (by decide), by decide +kernel, .inl ⟨rfl, rfl, _, rfl, ex_table (ns := ["H_r"]) rfl (by simp) (by decide)⟩, by
      intro t ht
      rw [List.mem_singleton] at ht
      subst ht
      decide +kernel⟩
    (fun a _ objs _ => by simp [arWorld])
    (shown := Csv.Props.someShown) rfl (fun _ _ => by simp [arWorld, exWorld]) (fun _ E _ hE => by cases hE; exact fun l => List.Perm.refl l)
  cases hE
  exact hf

end Sorcha.Whole.Props
