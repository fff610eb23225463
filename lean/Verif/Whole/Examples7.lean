import Verif.Csv.BlankProps
import Verif.Whole.Examples

/-!
# C85: a concrete run with blanks between the fields of its inputs
-/

namespace Sorcha.Whole.Props

open Sorcha.Csv (Str)
open Sorcha.Readers (Rec)
open Sorcha.History (Disk Chunk)
open Sorcha.Output (Cell)

/-- A configuration for inputs with blanks. -/
def blankText (chunk : Char) : Str :=
  chars! "[INPUT]\nephemerides_type = external\neph_format = whitespace\nsize_serial_chunk = " ++ chunk ::
    chars! "\naux_format = whitespace\npointing_sql_query = SELECT\n[SIMULATION]\n[FILTERS]\nobserving_filters = r, g\n[PHASECURVES]\nphase_function = HG\n[FOV]\ncamera_model = circle\ncircle_radius = 2.0\n[OUTPUT]\noutput_format = csv\noutput_columns = ObjID, optFilter, trailedSourceMag\n[EXPERT]\nrandomization_on = False\ntrailing_losses_on = False\nvignetting_on = False\n[SATURATION]\nbright_limit = 16.0\n"

def blankCfg (n : ℤ) : Config.Cfg := { runCfg n with input := ⟨"external", "whitespace", n, "whitespace", "SELECT"⟩ }

/-- The orbits: the name of the third has a blank in it. -/
def blankOrbRows : List (List Str) := [["A".toList, "2.1".toList], ["B".toList, "3".toList], ["2011 OB60".toList, "40".toList], ["D".toList, "50".toList]]
def blankPhysRows : List (List Str) := [["D".toList, "9".toList], ["2011 OB60".toList, "8".toList], ["B".toList, "7".toList], ["A".toList, "6".toList]]

def blankFile (names : List String) (rows : List (List Str)) : Str := ((names.map String.toList) :: rows).flatMap Csv.blankRecord

def blankDisk (chunk : Char) : Disk := [("c.ini", .text (blankText chunk)), ("v.db", .text []), ("p.csv", .text (blankFile ["ObjID", "H_r"] blankPhysRows)),
  ("o.csv", .text (blankFile ["ObjID", "a"] blankOrbRows)), ("e.csv", .text (blankFile ["ObjID", "FieldID", "fieldMJD_TAI"] exEphRows)), ("out/run.csv", .text "old".toList)]

theorem blank_configured (b : Bool) : Configured exWorld (blankDisk (exChunk b)) exArgs (blankCfg (exSize b)) := by
  have h : (match Ini.configure exWorld.py exWorld.lightCurves exWorld.activities exArgs.s (configLines (blankText (exChunk b))) with
      | .ok (c, _) => decide (c = blankCfg (exSize b)) | .error _ => false) = true := by
    cases b <;> decide +kernel
  cases hc : Ini.configure exWorld.py exWorld.lightCurves exWorld.activities exArgs.s (configLines (blankText (exChunk b))) with
  | error e => rw [hc] at h; cases h
  | ok x =>
    obtain ⟨c, y⟩ := x
    rw [hc] at h
    refine ⟨_, y, rfl, ?_⟩
    rw [hc, of_decide_eq_true h]

theorem blank_empty (b : Bool) : (Cli.commandLine (existing exWorld (blankDisk (exChunk b))) exWorld.isDir exWorld.glob exArgs []).1 = .ok exCmd := by
  have h : (Cli.commandLine (existing exWorld (blankDisk (exChunk b))) exWorld.isDir exWorld.glob exArgs []).1.toOption = some exCmd := by
    cases b <;> decide +kernel
  cases h1 : (Cli.commandLine (existing exWorld (blankDisk (exChunk b))) exWorld.isDir exWorld.glob exArgs []).1 with
  | error e => rw [h1] at h; cases h
  | ok x => rw [h1] at h; exact congrArg _ (Option.some.inj h)

theorem blank_plan (b : Bool) : ∃ chunks, plan exWorld exCmd (checked exWorld exArgs (blankDisk (exChunk b))) = .writes .csv chunks true := by
  have h : isFinishing (plan exWorld exCmd (checked exWorld exArgs (blankDisk (exChunk b)))) = true := by
    cases b <;> decide +kernel
  cases hp : plan exWorld exCmd (checked exWorld exArgs (blankDisk (exChunk b))) with
  | other => rw [hp] at h; cases h
  | writes fmt chunks f =>
    rw [hp] at h
    cases fmt <;> cases f <;> first | exact ⟨chunks, rfl⟩ | cases h

theorem blankDisk_one (b : Bool) : History.Spec.AtMostOne exArgs (blankDisk (exChunk b)) := by
  constructor
  · have key : ∀ p, (blankDisk (exChunk b)).get p ≠ none → History.Spec.IsResults exArgs p → p = "out/run.csv" := by
      intro p hp h
      have h1 := History.Props.belongs_chars h
      have hm := (History.mem_paths _ p).2 hp
      simp only [blankDisk, Disk.paths, List.map_cons, List.map_nil, List.mem_cons, List.not_mem_nil, or_false] at hm
      have h2 : ("out".toList ++ '/' :: "run".toList ++ ['.']) <+: p.toList := h1
      rcases hm with rfl | rfl | rfl | rfl | rfl | rfl
      all_goals first | rfl | (exfalso; revert h2; decide)
    intro p q hp hq h1 h2
    rw [key p hp h1, key q hq h2]
  · rintro p q - - ⟨n, hn, -⟩
    cases hn

theorem blank_table {d : Disk} {p : String} {ns : List String} {rows : List (List Str)} (hd : d.get p = some (.text (blankFile ("ObjID" :: ns) rows)))
    (hns : ns ≠ []) (hn : ∀ n ∈ ns.map String.toList, '\t' ∉ n ∧ '\n' ∉ n ∧ '\r' ∉ n ∧ ∃ c ∈ n, c.isAlphanum = true)
    (hr : ∀ row ∈ rows, row.length = ns.length + 1 ∧ ∀ f ∈ row, f ≠ [] ∧ '\t' ∉ f) : Spec.Table exWorld.ids "whitespace" d p (recsOf rows) :=
  ⟨_, _, rows, hd, Csv.Props.C92_written (ns.map String.toList) hn (by simpa using hns) rows (by simpa using hr), rfl, ex_stable _⟩

theorem blank_objects (b : Bool) : Spec.Objects exWorld.ids (blankDisk (exChunk b)) exArgs (blankCfg (exSize b)) (recsOf blankOrbRows) [recsOf blankPhysRows] where
  orbits := blank_table (ns := ["a"]) rfl (by simp) (by decide) (by decide)
  unique := by decide +kernel
  given := .inl ⟨rfl, rfl, _, rfl, blank_table (ns := ["H_r"]) rfl (by simp) (by decide) (by decide)⟩
  same := by
    intro t ht
    rw [List.mem_singleton] at ht
    subst ht
    decide +kernel

/-- C85 for a concrete run with blanks between the fields of its inputs. -/
example (b : Bool) : ∃ d' log, Invoked exWorld exArgv (blankDisk (exChunk b)) d' log .finished ∧
    Spec.ResultsFile exWorld.dist Csv.Props.someShown Csv.read (blankCfg (exSize b)) ["ObjID", "optFilter", "trailedSourceMag"] (fun r => exWorld.cells ⟨r, none⟩)
      (Pipeline.Spec.survivors Pipeline.Props.exEnv (blankCfg (exSize b)) (Spec.observed exWorld.parse (recsOf exEphRows) (recsOf blankOrbRows) [recsOf blankPhysRows]))
      (d'.get "out/run.csv") := by
  obtain ⟨chunks, hp⟩ := blank_plan b
  obtain ⟨d', log, h⟩ := finishes exArgv_args rfl charGlob_sound exArgs_differ (blankDisk_one b) (blank_empty b) hp
  refine ⟨d', log, h, ?_⟩
  obtain ⟨a, E, -, hE, hf⟩ := C85_external exArgv_args h (blank_configured b) rfl rfl ⟨rfl, rfl, fun _ _ h => by cases h; exact .inl rfl⟩ rfl charGlob_sound exArgs_differ
    (blankDisk_one b) (blank_objects b) (pe := "e.csv") rfl (blank_table (ns := ["FieldID", "fieldMJD_TAI"]) (rows := exEphRows) rfl (by simp) (by decide) (by decide))
    (shown := Csv.Props.someShown) rfl (fun _ _ => by simp [exWorld]) (fun _ E _ hE => by cases hE; exact fun l => List.Perm.refl l)
  cases hE
  exact hf

/-- The rows of that run: of A and B. -/
example : (match plan exWorld exCmd (checked exWorld exArgs (blankDisk '1')) with
    | .writes _ chunks _ => (chunks.filterMap fun c => c.results.map (·.1)).flatMap fun g => g.cells
    | .other => []) = [[.text "A", .text "r", .null], [.text "A", .text "r", .null], [.text "B", .text "g", .null]] := by
  decide +kernel

end Sorcha.Whole.Props
