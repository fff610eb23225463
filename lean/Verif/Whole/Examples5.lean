import Verif.Whole.Examples
import Verif.Whole.Props6

/-!
# C85: concrete runs with a database of results
-/

namespace Sorcha.Whole.Props

open Sorcha.Csv (Str)
open Sorcha.Readers (Rec)
open Sorcha.History (Disk Chunk)
open Sorcha.Output (Cell)

/-- A run with `-f` and a database of results whose plan gets to its end, and whose tables can be indexed, can finish. -/
theorem finishes_db {G W V : Type} {w : World G W V} {argv : List Str} {args : Cli.Args} {v : Bool} (hargs : Argv.parseRun argv = .ok (args, v)) {d : Disk}
    (hf : args.f = true) (hg : Cli.Spec.GlobSound w.glob) (hnames : History.Spec.NamesDiffer args) (hone : History.Spec.AtMostOne args d) {a : Cli.CmdArgs}
    (hacc : (Cli.commandLine (existing w d) w.isDir w.glob args []).1 = .ok a) {chunks} (hp : plan w a (checked w args d) = .writes .sqlite chunks true)
    (hix : History.Spec.Indexable (chunks.filterMap fun c => c.results.map (·.1))) :
    ∃ d' log, Invoked w argv d d' log .finished := by
  obtain ⟨d', log, h⟩ := History.Props.C65_rerun (ls := w.lines) (js := []) hg (j := ⟨args, .sqlite, chunks, w.stamp, w.start⟩) hnames (fun i hi => by cases hi) hone
    .nil hf hacc (fun _ => hix)
  refine ⟨d', log, ?_⟩
  have ha := History.Props.accepted_force hf hacc (fs' := d.paths)
  generalize ho : History.Outcome.finished = out at h
  cases h with
  | refused h => cases ho
  | @ran c s done h he =>
    have h' : (Cli.commandLine (existing w d) w.isDir w.glob args d.paths).1 = .ok c := h
    rw [ha] at h'
    cases h'
    exact Invoked.ran hargs ha hp he

/-- A configuration with a database of results. -/
def dbText (chunk : Char) : Str :=
  chars! "[INPUT]\nephemerides_type = external\neph_format = csv\nsize_serial_chunk = " ++ chunk ::
    chars! "\naux_format = csv\npointing_sql_query = SELECT\n[SIMULATION]\n[FILTERS]\nobserving_filters = r, g\n[PHASECURVES]\nphase_function = HG\n[FOV]\ncamera_model = circle\ncircle_radius = 2.0\n[OUTPUT]\noutput_format = sqlite3\noutput_columns = ObjID, fieldMJD_TAI, optFilter\n[EXPERT]\nrandomization_on = False\ntrailing_losses_on = False\nvignetting_on = False\n[SATURATION]\nbright_limit = 16.0\n"

def dbWorld : World Unit Unit Unit :=
  { exWorld with columns := fun _ _ => ["ObjID", "optFilter", "fieldMJD_TAI"],
                 cells := fun f c => if c = "ObjID" then .text f.row.objId else if c = "optFilter" then .text f.row.optFilter else .null }

def dbDisk (chunk : Char) : Disk := [("c.ini", .text (dbText chunk)), ("v.db", .text []), ("p.csv", .text (fileText ["ObjID", "H_r"] exPhysRows)),
  ("o.csv", .text (fileText ["ObjID", "a"] exOrbRows)), ("e.csv", .text (fileText ["ObjID", "FieldID", "fieldMJD_TAI"] exEphRows)),
  ("out/run.db", .db (some (["ObjID"], [[.text "old"]])) [])]

def dbCfg (n : ℤ) : Config.Cfg := { runCfg n with output := ⟨"sqlite3", .listed ["ObjID", "fieldMJD_TAI", "optFilter"], none, none⟩ }

theorem db_configured (b : Bool) : Configured dbWorld (dbDisk (exChunk b)) exArgs (dbCfg (exSize b)) := by
  have h : (match Ini.configure dbWorld.py dbWorld.lightCurves dbWorld.activities exArgs.s (configLines (dbText (exChunk b))) with
      | .ok (c, _) => decide (c = dbCfg (exSize b)) | .error _ => false) = true := by
    cases b <;> decide +kernel
  cases hc : Ini.configure dbWorld.py dbWorld.lightCurves dbWorld.activities exArgs.s (configLines (dbText (exChunk b))) with
  | error e => rw [hc] at h; cases h
  | ok x =>
    obtain ⟨c, y⟩ := x
    rw [hc] at h
    refine ⟨_, y, rfl, ?_⟩
    rw [hc, of_decide_eq_true h]

theorem db_empty (b : Bool) : (Cli.commandLine (existing dbWorld (dbDisk (exChunk b))) dbWorld.isDir dbWorld.glob exArgs []).1 = .ok exCmd := by
  have h : (Cli.commandLine (existing dbWorld (dbDisk (exChunk b))) dbWorld.isDir dbWorld.glob exArgs []).1.toOption = some exCmd := by
    cases b <;> decide +kernel
  cases h1 : (Cli.commandLine (existing dbWorld (dbDisk (exChunk b))) dbWorld.isDir dbWorld.glob exArgs []).1 with
  | error e => rw [h1] at h; cases h
  | ok x => rw [h1] at h; exact congrArg _ (Option.some.inj h)

/-- The tables of a plan all have the three columns of the example. -/
def isIndexing : Plan → Bool
  | .writes .sqlite chunks true => (chunks.filterMap fun c => c.results.map (·.1)).all fun g => decide (g.cols = ["ObjID", "fieldMJD_TAI", "optFilter"])
  | _ => false

theorem db_plan (b : Bool) : ∃ chunks, plan dbWorld exCmd (checked dbWorld exArgs (dbDisk (exChunk b))) = .writes .sqlite chunks true ∧
    History.Spec.Indexable (chunks.filterMap fun c => c.results.map (·.1)) := by
  have h : isIndexing (plan dbWorld exCmd (checked dbWorld exArgs (dbDisk (exChunk b)))) = true := by
    cases b <;> decide +kernel
  cases hp : plan dbWorld exCmd (checked dbWorld exArgs (dbDisk (exChunk b))) with
  | other => rw [hp] at h; cases h
  | writes fmt chunks f =>
    rw [hp] at h
    cases fmt <;> cases f <;> try cases h
    refine ⟨chunks, rfl, ?_⟩
    have h' := List.all_eq_true.1 h
    intro g rest hg
    rw [hg] at h'
    have hcols : ∀ x ∈ g :: rest, History.Spec.dbColumns x = ["ObjID", "fieldMJD_TAI", "optFilter"] := by
      intro x hx
      unfold History.Spec.dbColumns
      rw [of_decide_eq_true (h' x hx)]
      decide
    refine ⟨fun x hx y hy => ?_, fun y hy => ?_⟩
    · rw [hcols x (List.mem_cons_of_mem _ hx)] at hy
      rw [hcols g (List.mem_cons_self ..)]
      exact hy
    · rw [hcols g (List.mem_cons_self ..)]
      exact hy

theorem dbDisk_one (b : Bool) : History.Spec.AtMostOne exArgs (dbDisk (exChunk b)) := by
  constructor
  · have key : ∀ p, (dbDisk (exChunk b)).get p ≠ none → History.Spec.IsResults exArgs p → p = "out/run.db" := by
      intro p hp h
      have h1 := History.Props.belongs_chars h
      have hm := (History.mem_paths _ p).2 hp
      simp only [dbDisk, Disk.paths, List.map_cons, List.map_nil, List.mem_cons, List.not_mem_nil, or_false] at hm
      have h2 : ("out".toList ++ '/' :: "run".toList ++ ['.']) <+: p.toList := h1
      rcases hm with rfl | rfl | rfl | rfl | rfl | rfl
      all_goals first | rfl | (exfalso; revert h2; decide)
    intro p q hp hq h1 h2
    rw [key p hp h1, key q hq h2]
  · rintro p q - - ⟨n, hn, -⟩
    cases hn

theorem db_objects (b : Bool) : Spec.Objects dbWorld.ids (dbDisk (exChunk b)) exArgs (dbCfg (exSize b)) (recsOf exOrbRows) [recsOf exPhysRows] where
  orbits := ex_table (ns := ["a"]) rfl (by simp) (by decide)
  unique := by decide +kernel
  given := .inl ⟨rfl, rfl, _, rfl, ex_table (ns := ["H_r"]) rfl (by simp) (by decide)⟩
  same := by
    intro t ht
    rw [List.mem_singleton] at ht
    subst ht
    decide +kernel

/-- The runs of the example finish. -/
theorem db_finishes (b : Bool) : ∃ d' log, Invoked dbWorld exArgv (dbDisk (exChunk b)) d' log .finished := by
  obtain ⟨chunks, hp, hix⟩ := db_plan b
  exact finishes_db exArgv_args rfl charGlob_sound exArgs_differ (dbDisk_one b) (db_empty b) hp hix

/-- The rows of the example. -/
example : (match plan dbWorld exCmd (checked dbWorld exArgs (dbDisk '1')) with
    | .writes _ chunks _ => (chunks.filterMap fun c => c.results.map (·.1)).flatMap fun g => g.cells
    | .other => []) = [[.text "A", .null, .text "r"], [.text "A", .null, .text "r"], [.text "B", .null, .text "g"]] := by
  decide +kernel

/-- C85 for a concrete run with a database of results, in place of an old one. -/
example (b : Bool) : ∃ d' log, Invoked dbWorld exArgv (dbDisk (exChunk b)) d' log .finished ∧
    Spec.ResultsTable dbWorld.dist (dbCfg (exSize b)) ["ObjID", "optFilter", "fieldMJD_TAI"] (fun r => dbWorld.cells ⟨r, none⟩)
      (Pipeline.Spec.survivors Pipeline.Props.exEnv (dbCfg (exSize b)) (Spec.observed dbWorld.parse (recsOf exEphRows) (recsOf exOrbRows) [recsOf exPhysRows]))
      (d'.get "out/run.db") := by
  obtain ⟨d', log, h⟩ := db_finishes b
  refine ⟨d', log, h, ?_⟩
  obtain ⟨a, E, -, hE, hf⟩ := C85_external_sqlite exArgv_args h (db_configured b) rfl rfl ⟨rfl, rfl, fun _ _ h => by cases h; exact .inl rfl⟩ rfl charGlob_sound
    exArgs_differ (dbDisk_one b) (db_objects b) (pe := "e.csv") rfl (ex_table (ns := ["FieldID", "fieldMJD_TAI"]) (rows := exEphRows) rfl (by simp) (by decide))
    (fun _ E _ hE => by cases hE; exact fun l => List.Perm.refl l)
  cases hE
  exact hf

/-- C85 for a pair of concrete runs with databases of results and different chunk sizes. -/
example : ∃ d1 d2 log1 log2, Invoked dbWorld exArgv (dbDisk '1') d1 log1 .finished ∧ Invoked dbWorld exArgv (dbDisk '3') d2 log2 .finished ∧
    Spec.SameTable (d1.get "out/run.db") (d2.get "out/run.db") := by
  obtain ⟨d1, log1, h1⟩ := db_finishes true
  obtain ⟨d2, log2, h2⟩ := db_finishes false
  refine ⟨d1, d2, log1, log2, h1, h2, ?_⟩
  have he : ∀ b, Spec.Table dbWorld.ids "csv" (dbDisk (exChunk b)) "e.csv" (recsOf exEphRows) := fun b =>
    ex_table (ns := ["FieldID", "fieldMJD_TAI"]) (rows := exEphRows) rfl (by simp) (by decide)
  exact C85_chunks_sqlite exArgv_args exArgv_args h1 h2 (c := dbCfg 1) (n := 3) (db_configured true) (db_configured false) rfl rfl charGlob_sound exArgs_differ
    exArgs_differ (dbDisk_one true) (dbDisk_one false) (db_objects true) (db_objects false) rfl rfl (he true) (he false)
    (by unfold Pipeline.Spec.OncePerTime; decide +kernel) (fun _ _ _ _ => rfl) (fun _ _ _ _ => rfl)
    (fun _ E _ hE => by
      cases hE
      have hr := Pipeline.Props.exRegular
      exact ⟨⟨rfl, rfl, fun _ _ h => by cases h; exact .inl rfl⟩, hr.visits, hr.sortIndex, hr.sortOut, hr.sortT, hr.weights, fun _ h => by cases h⟩)

end Sorcha.Whole.Props
