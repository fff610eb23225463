import Verif.DesRun.Examples
import Verif.Whole.DesProps
import Verif.Whole.Examples

/-!
# C91: concrete DES runs
-/

namespace Sorcha.Whole.Props

open Sorcha.Csv (Str)
open Sorcha.Readers (Rec IdParse)
open Sorcha.History (Disk Chunk)
open Sorcha.Output (Cell)
open Sorcha.DesRun.Spec (survivors kept Discoveries Deterministic Sound Sensible)

/-- The configuration of the examples, with the columns as given. -/
def desText (chunk : Char) (columns : Str) : Str :=
  chars! "[INPUT]\nephemerides_type = external\neph_format = csv\nsize_serial_chunk = " ++ chunk ::
    chars! "\naux_format = csv\npointing_sql_query = SELECT\n[SIMULATION]\n[FILTERS]\nobserving_filters = r, g\n[PHASECURVES]\nphase_function = HG\n[FOV]\ncamera_model = circle\ncircle_radius = 2.0\n[FADINGFUNCTION]\nfading_function_on = False\n[LINKINGFILTER]\ndes_discovery_on = True\ndistance_cut_upper = 30\ndistance_cut_lower = 1.5\nmotion_cut_upper = 3\nmotion_cut_lower = 0.5\n[SATURATION]\nbright_limit = 16.0\n[OUTPUT]\noutput_format = csv\noutput_columns = " ++ columns ++ ['\n']

def desWorld : DesWorld Unit Unit Unit where
  base := exWorld
  env _ _ _ := some (DesRun.Props.exEnv DesRun.Props.exExt fun _ => [])
  columns _ _ := ["ObjID", "optFilter"]
  cells r := fun c => if c = "ObjID" then .text r.objId else if c = "optFilter" then .text r.optFilter else .null
  stats _ := ⟨[], []⟩

def desArgv : List Str := ["-c", "c.ini", "-o", "out", "-t", "run", "--pd", "v.db", "-p", "p.csv", "--ob", "o.csv", "--er", "e.csv", "-s", "DES", "-f"].map String.toList

def desArgs : Cli.Args := ⟨"p.csv", "o.csv", "c.ini", "out", "v.db", none, some "e.csv", none, none, none, none, true, "DES", "run"⟩

theorem desArgv_args : Argv.parseRun desArgv = .ok (desArgs, true) := by
  have val : ∀ {v : List Char}, v.head? ≠ some '-' → Argv.Spec.Value Argv.Spec.allNames v := fun h => .inl h
  refine (Argv.Props.C81_run _ _ _).2 ⟨[(.config, "c.ini".toList), (.outfile, "out".toList), (.stem, "run".toList), (.pointings, "v.db".toList),
    (.parameters, "p.csv".toList), (.orbits, "o.csv".toList), (.ephemRead, "e.csv".toList), (.survey, "DES".toList), (.force, [])], ?_, Argv.Props.enough (by decide +kernel),
    by decide +kernel⟩
  refine .next (n := "-c".toList) (.inl ⟨"-c", by decide, rfl⟩) (by simp [Argv.Spec.Switch]) (val (by decide)) ?_
  refine .next (n := "-o".toList) (.inl ⟨"-o", by decide, rfl⟩) (by simp [Argv.Spec.Switch]) (val (by decide)) ?_
  refine .next (n := "-t".toList) (.inl ⟨"-t", by decide, rfl⟩) (by simp [Argv.Spec.Switch]) (val (by decide)) ?_
  refine .next (n := "--pd".toList) (.inl ⟨"--pd", by decide, rfl⟩) (by simp [Argv.Spec.Switch]) (val (by decide)) ?_
  refine .next (n := "-p".toList) (.inl ⟨"-p", by decide, rfl⟩) (by simp [Argv.Spec.Switch]) (val (by decide)) ?_
  refine .next (n := "--ob".toList) (.inl ⟨"--ob", by decide, rfl⟩) (by simp [Argv.Spec.Switch]) (val (by decide)) ?_
  refine .next (n := "--er".toList) (.inl ⟨"--er", by decide, rfl⟩) (by simp [Argv.Spec.Switch]) (val (by decide)) ?_
  refine .next (n := "-s".toList) (.inl ⟨"-s", by decide, rfl⟩) (by simp [Argv.Spec.Switch]) (val (by decide)) ?_
  exact .switch (n := "-f".toList) (.inl ⟨"-f", by decide, rfl⟩) (by simp [Argv.Spec.Switch]) .nil

/-- Objects N, M, F and A; N and A are seen in nine nights, M in two, and F, which is too far away, in nine. -/
def desOrbRows : List (List Str) := [["N".toList, "10".toList], ["M".toList, "3".toList], ["F".toList, "40".toList], ["A".toList, "2".toList]]
def desEphRows : List (List Str) :=
  (["0", "1", "2", "3", "4", "5", "6", "7", "8"].flatMap fun n => ["N", "A", "F"].map fun o => [o.toList, n.toList, ("5700" ++ n ++ "00").toList]) ++
    [["M".toList, "0".toList, "5700000".toList], ["M".toList, "1".toList, "5700100".toList]]

def desDisk (chunk : Char) (columns : Str) (eph : List (List Str)) : Disk := [("c.ini", .text (desText chunk columns)), ("v.db", .text []), ("p.csv", .text (fileText ["ObjID", "H_r"] desOrbRows)),
  ("o.csv", .text (fileText ["ObjID", "a"] desOrbRows)), ("e.csv", .text (fileText ["ObjID", "FieldID", "fieldMJD_TAI"] eph)), ("out/run.csv", .text "old".toList)]

def desRunCfg (n : ℤ) (columns : Config.Columns) : Config.Cfg where
  input := ⟨"external", "csv", n, "csv", "SELECT"⟩
  simulation := none
  filters := ["r", "g"]
  saturation := ⟨.bool true, some [.fin 16, .fin 16]⟩
  phase := "HG"
  fov := .circle none (some (.fin 2))
  fading := .off
  linking := ⟨none, true, .bool true, .bool true, some (.fin 30, .fin (3/2)), .bool true, some (.fin 3, .fin (1/2))⟩
  output := ⟨"csv", columns, none, none⟩
  lightcurve := none
  activity := none
  expert := ⟨none, none, true, true, .bool false, .bool false, .bool false⟩

/-- The columns asked for. -/
def someColumns : Str := chars! "ObjID, optFilter"

theorem des_configured (b : Bool) (eph : List (List Str)) :
    Configured exWorld (desDisk (exChunk b) someColumns eph) desArgs (desRunCfg (exSize b) (.listed ["ObjID", "optFilter"])) := by
  have h : (match Ini.configure exWorld.py exWorld.lightCurves exWorld.activities desArgs.s (configLines (desText (exChunk b) someColumns)) with
      | .ok (c, _) => decide (c = desRunCfg (exSize b) (.listed ["ObjID", "optFilter"])) | .error _ => false) = true := by
    cases b <;> decide +kernel
  cases hc : Ini.configure exWorld.py exWorld.lightCurves exWorld.activities desArgs.s (configLines (desText (exChunk b) someColumns)) with
  | error e => rw [hc] at h; cases h
  | ok x =>
    obtain ⟨c, y⟩ := x
    rw [hc] at h
    refine ⟨_, y, rfl, ?_⟩
    rw [hc, of_decide_eq_true h]

theorem des_basic (eph : List (List Str)) : Configured exWorld (desDisk '3' "basic".toList eph) desArgs (desRunCfg 3 (.named "basic")) := by
  have h : (match Ini.configure exWorld.py exWorld.lightCurves exWorld.activities desArgs.s (configLines (desText '3' "basic".toList)) with
      | .ok (c, _) => decide (c = desRunCfg 3 (.named "basic")) | .error _ => false) = true := by decide +kernel
  cases hc : Ini.configure exWorld.py exWorld.lightCurves exWorld.activities desArgs.s (configLines (desText '3' "basic".toList)) with
  | error e => rw [hc] at h; cases h
  | ok x =>
    obtain ⟨c, y⟩ := x
    rw [hc] at h
    refine ⟨_, y, rfl, ?_⟩
    rw [hc, of_decide_eq_true h]

def desCmd : Cli.CmdArgs := ⟨"p.csv", "o.csv", "c.ini", "out", "v.db", none, some "e.csv", none, none, "DES", "run", none, none⟩

theorem des_empty (chunk : Char) (columns : Str) (eph : List (List Str)) :
    (Cli.commandLine (existing exWorld (desDisk chunk columns eph)) exWorld.isDir exWorld.glob desArgs []).1 = .ok desCmd := by
  have he : existing exWorld (desDisk chunk columns eph) = existing exWorld (desDisk '1' [] []) := rfl
  rw [he]
  have h : (Cli.commandLine (existing exWorld (desDisk '1' [] [])) exWorld.isDir exWorld.glob desArgs []).1.toOption = some desCmd := by decide +kernel
  cases h1 : (Cli.commandLine (existing exWorld (desDisk '1' [] [])) exWorld.isDir exWorld.glob desArgs []).1 with
  | error e => rw [h1] at h; cases h
  | ok x => rw [h1] at h; exact congrArg _ (Option.some.inj h)

theorem desDisk_one (chunk : Char) (columns : Str) (eph : List (List Str)) : History.Spec.AtMostOne desArgs (desDisk chunk columns eph) := by
  constructor
  · have key : ∀ p, (desDisk chunk columns eph).get p ≠ none → History.Spec.IsResults desArgs p → p = "out/run.csv" := by
      intro p hp h
      have h1 := History.Props.belongs_chars h
      have hm := (History.mem_paths _ p).2 hp
      simp only [desDisk, Disk.paths, List.map_cons, List.map_nil, List.mem_cons, List.not_mem_nil, or_false] at hm
      have h2 : ("out".toList ++ '/' :: "run".toList ++ ['.']) <+: p.toList := h1
      rcases hm with rfl | rfl | rfl | rfl | rfl | rfl
      all_goals first | rfl | (exfalso; revert h2; decide)
    intro p q hp hq h1 h2
    rw [key p hp h1, key q hq h2]
  · rintro p q - - ⟨n, hn, -⟩
    cases hn

theorem desArgs_differ : History.Spec.NamesDiffer desArgs := by
  refine ⟨?_, ?_, ?_⟩
  · rintro p ⟨-, n, hn, -⟩; cases hn
  · rintro p ⟨-, n, hn, -⟩; cases hn
  · rintro p ⟨⟨n, hn, -⟩, -⟩; cases hn

/-- A run with CSV output and `-f` can finish. -/
theorem des_finish {G W V : Type} {w : DesWorld G W V} {argv : List Str} {args : Cli.Args} {v : Bool} (hargs : Argv.parseRun argv = .ok (args, v)) {d : Disk}
    (hf : args.f = true) (hg : Cli.Spec.GlobSound w.base.glob) (hnames : History.Spec.NamesDiffer args) (hone : History.Spec.AtMostOne args d) {a : Cli.CmdArgs}
    (hacc : (Cli.commandLine (existing w.base d) w.base.isDir w.base.glob args []).1 = .ok a) (hp : isFinishing (desPlan w a (checked w.base args d)) = true) :
    ∃ d' log, DesInvoked w argv d d' log .finished := by
  have hpl : ∃ chunks, desPlan w a (checked w.base args d) = .writes .csv chunks true := by
    cases hq : desPlan w a (checked w.base args d) with
    | other => rw [hq] at hp; cases hp
    | writes fmt chunks f => rw [hq] at hp; cases fmt <;> cases f <;> first | exact ⟨chunks, rfl⟩ | cases hp
  obtain ⟨chunks, hp⟩ := hpl
  obtain ⟨d', log, h⟩ := History.Props.C65_rerun (ls := w.base.lines) (js := []) hg (j := ⟨args, .csv, chunks, w.base.stamp, w.base.start⟩) hnames
    (fun i hi => by cases hi) hone .nil hf hacc (fun h => by cases h)
  refine ⟨d', log, ?_⟩
  have ha := History.Props.accepted_force hf hacc (fs' := d.paths)
  generalize ho : History.Outcome.finished = out at h
  cases h with
  | refused h => cases ho
  | @ran c s done h he =>
    have h' : (Cli.commandLine (existing w.base d) w.base.isDir w.base.glob args d.paths).1 = .ok c := h
    rw [ha] at h'
    cases h'
    exact DesInvoked.ran hargs ha hp he

theorem des_finishes (b : Bool) : ∃ d' log, DesInvoked desWorld desArgv (desDisk (exChunk b) someColumns desEphRows) d' log .finished :=
  des_finish desArgv_args rfl charGlob_sound desArgs_differ (desDisk_one _ _ _) (des_empty _ _ _) (by cases b <;> decide +kernel)

/-- The run writes the nine rows of each of N and A, with either chunk size. -/
example (b : Bool) : (match desPlan desWorld desCmd (checked exWorld desArgs (desDisk (exChunk b) someColumns desEphRows)) with
    | .writes _ chunks _ => ["N", "M", "F", "A"].map fun n => (((chunks.filterMap fun c => c.results.map (·.1)).flatMap fun g => g.cells).filter fun r => r.head? = some (.text n)).length
    | .other => []) = [9, 0, 0, 9] := by
  cases b <;> decide +kernel

theorem des_objects (b : Bool) (columns : Str) (eph : List (List Str)) (cols : Config.Columns) :
    Spec.Objects exWorld.ids (desDisk (exChunk b) columns eph) desArgs (desRunCfg (exSize b) cols) (recsOf desOrbRows) [recsOf desOrbRows] where
  orbits := ex_table (ns := ["a"]) rfl (by simp) (by decide)
  unique := by decide +kernel
  given := .inl ⟨rfl, rfl, _, rfl, ex_table (ns := ["H_r"]) rfl (by simp) (by decide)⟩
  same := by
    intro t ht
    rw [List.mem_singleton] at ht
    subst ht
    decide +kernel

/-- The observations of the example. -/
def desObs : List (Pointing.Obs Unit) := Spec.observed exWorld.parse (recsOf desEphRows) (recsOf desOrbRows) [recsOf desOrbRows]

theorem des_observes (b : Bool) (cols : Config.Columns) (a : Cli.CmdArgs) :
    Observes exWorld (desDisk (exChunk b) someColumns desEphRows) desArgs (desRunCfg (exSize b) cols) a (recsOf desOrbRows) [recsOf desOrbRows] desObs :=
  .inl ⟨rfl, "e.csv", _, rfl, ex_table (ns := ["FieldID", "fieldMJD_TAI"]) (rows := desEphRows) rfl (by simp) (by decide), rfl⟩

theorem des_sensible (n : ℤ) (cols : Config.Columns) : Sensible (desRunCfg n cols) := by
  refine ⟨fun u l h => ?_, fun u l h => ?_⟩
  · obtain ⟨rfl, rfl⟩ := Prod.mk.inj (Option.some.inj h)
    exact ⟨_, _, rfl, rfl, by norm_num, by norm_num⟩
  · obtain ⟨rfl, rfl⟩ := Prod.mk.inj (Option.some.inj h)
    exact ⟨_, _, rfl, rfl, by norm_num, by norm_num⟩

theorem des_deterministic (n : ℤ) (cols : Config.Columns) : Deterministic (desRunCfg n cols) := ⟨rfl, fun _ _ h => by cases h; exact .inl rfl, fun _ h => by cases h⟩

/-- C91 for a concrete run. -/
example (b : Bool) : ∃ d' log rows, DesInvoked desWorld desArgv (desDisk (exChunk b) someColumns desEphRows) d' log .finished ∧
    Discoveries (kept (desRunCfg (exSize b) (.listed ["ObjID", "optFilter"]))
      (survivors (DesRun.Props.exEnv DesRun.Props.exExt fun _ => []) (desRunCfg (exSize b) (.listed ["ObjID", "optFilter"])) desObs)) rows ∧
    Spec.ResultsFile exWorld.dist Csv.Props.someShown Csv.read (desRunCfg (exSize b) (.listed ["ObjID", "optFilter"])) ["ObjID", "optFilter"] desWorld.cells rows
      (d'.get "out/run.csv") := by
  obtain ⟨d', log, h⟩ := des_finishes b
  obtain ⟨a, E, rows, -, hE, -, h2, h3, -⟩ := C91_exact desArgv_args (.inl rfl) h (des_configured b _) (des_sensible _ _) (des_deterministic _ _) charGlob_sound desArgs_differ
    (desDisk_one _ _ _) (des_objects b _ _ _) (obs := fun _ => desObs) (fun a _ => des_observes b _ a) (shown := Csv.Props.someShown) rfl (fun _ _ _ => by simp [desWorld])
    (fun _ E _ hE => by cases hE; exact ⟨fun l => List.Perm.refl l, DesRun.Props.exSorts⟩)
  cases hE
  exact ⟨d', log, rows, h, h2 rfl, h3 rfl⟩

example (b : Bool) : ∃ d' log rows, DesInvoked desWorld desArgv (desDisk (exChunk b) someColumns desEphRows) d' log .finished ∧
    Spec.Passed (DesRun.Props.exEnv DesRun.Props.exExt fun _ => []) (desRunCfg (exSize b) (.listed ["ObjID", "optFilter"])) desObs rows ∧
    Spec.Results exWorld.dist Csv.Props.someShown Csv.read (desRunCfg (exSize b) (.listed ["ObjID", "optFilter"])) ["ObjID", "optFilter"] desWorld.cells rows
      (d'.get (Spec.resultsAt desArgs (desRunCfg (exSize b) (.listed ["ObjID", "optFilter"])))) := by
  obtain ⟨d', log, h⟩ := des_finishes b
  obtain ⟨a, E, rows, -, hE, h2, h3⟩ := C91_results desArgv_args (.inl rfl) h (des_configured b _) (des_sensible _ _) charGlob_sound desArgs_differ
    (desDisk_one _ _ _) (des_objects b _ _ _) (obs := fun _ => desObs) (fun a _ => des_observes b _ a) (shown := Csv.Props.someShown) rfl (fun _ _ _ => by simp [desWorld])
    (fun _ E _ hE => by cases hE; exact ⟨fun l => List.Perm.refl _, DesRun.Props.exSorts, fun q h => by cases h⟩)
  cases hE
  exact ⟨d', log, rows, h, h2, h3⟩

/-- C91 for a pair of concrete runs with different chunk sizes. -/
example : ∃ d1 d2 log1 log2, DesInvoked desWorld desArgv (desDisk '1' someColumns desEphRows) d1 log1 .finished ∧
    DesInvoked desWorld desArgv (desDisk '3' someColumns desEphRows) d2 log2 .finished ∧ Spec.SameLines Csv.read (d1.get "out/run.csv") (d2.get "out/run.csv") := by
  obtain ⟨d1, log1, h1⟩ := des_finishes true
  obtain ⟨d2, log2, h2⟩ := des_finishes false
  refine ⟨d1, d2, log1, log2, h1, h2, ?_⟩
  exact (C91_chunks desArgv_args desArgv_args (.inl rfl) (.inl rfl) h1 h2 (c := desRunCfg 1 (.listed ["ObjID", "optFilter"])) (n := 3) (des_configured true _)
    (des_configured false _) (des_deterministic _ _) charGlob_sound desArgs_differ desArgs_differ (desDisk_one _ _ _) (desDisk_one _ _ _) (des_objects true _ _ _)
    (des_objects false _ _ _) (obs := desObs) (fun a _ => des_observes true _ a) (fun a _ => des_observes false _ a) (shown := Csv.Props.someShown) rfl
    (fun _ _ _ => by simp [desWorld]) (fun _ _ _ _ => rfl) (fun _ _ _ _ => rfl)
    (fun _ E _ hE => by cases hE; exact ⟨fun l => List.Perm.refl l, DesRun.Props.exSorts⟩)).1 rfl

/-- C91 for a concrete run that is stopped before it writes: the results of the earlier run are gone, and the inputs are still there. -/
example : ∃ d' log, DesInvoked desWorld desArgv (desDisk '1' someColumns desEphRows) d' log .stopped ∧ d'.get "out/run.csv" = none ∧
    d'.get "e.csv" = some (.text (fileText ["ObjID", "FieldID", "fieldMJD_TAI"] desEphRows)) := by
  have ha := History.Props.accepted_force (a := desArgs) rfl (des_empty '1' someColumns desEphRows) (fs' := (desDisk '1' someColumns desEphRows).paths)
  have hp : isFinishing (desPlan desWorld desCmd (checked exWorld desArgs (desDisk '1' someColumns desEphRows))) = true := by decide +kernel
  cases hq : desPlan desWorld desCmd (checked exWorld desArgs (desDisk '1' someColumns desEphRows)) with
  | other => rw [hq] at hp; cases hp
  | writes fmt chunks f =>
    rw [hq] at hp
    have : fmt = .csv ∧ f = true := by cases fmt <;> cases f <;> first | exact ⟨rfl, rfl⟩ | cases hp
    obtain ⟨rfl, rfl⟩ := this
    have hstop : ∀ (es : List History.Effect) (s : History.State), es ≠ [] → History.Ends false es s s false := by
      intro es s hes
      cases es with
      | nil => exact absurd rfl hes
      | cons e es => exact .stopped
    have hr := DesInvoked.ran (w := desWorld) desArgv_args ha hq (s := ⟨checked exWorld desArgs (desDisk '1' someColumns desEphRows), _⟩) (done := false) (hstop _ _ (by simp [History.runEffects]))
    exact ⟨_, _, hr, by decide +kernel, by decide +kernel⟩

/-- However the run of the example ends, the lines in its results are of rows that have passed. -/
example {d' : Disk} {log : List Char} {out : History.Outcome} (h : DesInvoked desWorld desArgv (desDisk '1' someColumns desEphRows) d' log out) (hout : out ≠ .refused) :
    d'.get "out/run.csv" = none ∨ ∃ rows, Spec.Passed (DesRun.Props.exEnv DesRun.Props.exExt fun _ => []) (desRunCfg 1 (.listed ["ObjID", "optFilter"])) desObs rows ∧
      Spec.PartFile exWorld.dist Csv.Props.someShown Csv.read (desRunCfg 1 (.listed ["ObjID", "optFilter"])) ["ObjID", "optFilter"] desWorld.cells rows
        (d'.get "out/run.csv") := by
  have := C91_stopped desArgv_args (.inl rfl) h hout (des_configured true _) (des_sensible _ _) rfl charGlob_sound desArgs_differ
    (desDisk_one _ _ _) (des_objects true _ _ _) (obs := fun _ => desObs) (fun a _ => des_observes true _ a) (shown := Csv.Props.someShown) rfl (fun _ _ => by simp [desWorld])
    (fun _ E _ hE => by cases hE; exact ⟨fun l => List.Perm.refl _, DesRun.Props.exSorts, fun q h => by cases h⟩)
  rcases this with h0 | ⟨a, E, rows, -, hE, h2, h3⟩
  · exact .inl h0
  · cases hE
    exact .inr ⟨rows, h2, h3⟩

/-- With the columns `basic` the run of the example fails: N and A come through, but have no uncertainties. -/
example : (match desPlan desWorld desCmd (checked exWorld desArgs (desDisk '3' "basic".toList desEphRows)) with | .writes _ chunks b => (chunks.length, b) | .other => (0, true)) =
    (1, false) := by
  decide +kernel

/-- It finishes if none comes through: then there are no results. -/
example : ∃ d' log, DesInvoked desWorld desArgv (desDisk '3' "basic".toList [["M".toList, "0".toList, "5700000".toList]]) d' log .finished ∧ d'.get "out/run.csv" = none := by
  obtain ⟨d', log, h⟩ := des_finish (w := desWorld) desArgv_args rfl charGlob_sound desArgs_differ
    (desDisk_one '3' "basic".toList [["M".toList, "0".toList, "5700000".toList]]) (des_empty _ _ _) (by decide +kernel)
  exact ⟨d', log, h, C91_basic_fails desArgv_args (.inl rfl) h (des_basic _) rfl (fun _ => by simp [desWorld]) charGlob_sound desArgs_differ (desDisk_one _ _ _)
    (shown := Csv.Props.someShown) rfl⟩

end Sorcha.Whole.Props
