import Verif.Whole.Props4
import Verif.Whole.Examples

/-!
# Examples: ephemerides that were saved and are used again
-/

namespace Sorcha.Whole.Props

open Sorcha.Csv (Str)
open Sorcha.Readers (Rec)
open Sorcha.History (Disk Chunk)

/-- The fields of an ephemeris of the example. -/
def savedFields (o : Pointing.Obs Unit) : List Str := if o.field = 1 then ["1".toList, "6000025".toList] else ["2".toList, "6000028".toList]

/-- The world of the example for generated ephemerides, with a table of ephemerides that can be saved. -/
def savedWorld : World Unit Unit Unit :=
  { arWorld with ephemFrame := fun obs => ⟨["ObjID", "FieldID", "fieldMJD_TAI"], obs.map fun o x =>
      if x = "ObjID" then .text o.obj else if x = "FieldID" then .text (String.ofList ((savedFields o).headD [])) else .text (String.ofList ((savedFields o).getD 1 []))⟩ }

theorem saved_saves : Spec.Saves Csv.Props.someShown savedWorld.ephemFrame ["FieldID".toList, "fieldMJD_TAI".toList] savedFields where
  header _ := rfl
  more := by simp
  rows obs := by
    simp only [savedWorld, List.map_map]
    apply List.map_congr_left
    intro o _
    simp only [Function.comp_apply, savedFields]
    split_ifs <;> rfl
  width o := by unfold savedFields; split_ifs <;> rfl

def savingArgv : List Str := ["-c", "c.ini", "-o", "out", "-t", "run", "--pd", "v.db", "-p", "p.csv", "--ob", "o.csv", "--ew", "eph", "-f"].map String.toList

def savingArgs : Cli.Args := ⟨"p.csv", "o.csv", "c.ini", "out", "v.db", none, none, some "eph", none, none, none, true, "rubin_sim", "run"⟩

theorem savingArgv_args : Argv.parseRun savingArgv = .ok (savingArgs, true) := by
  have val : ∀ {v : List Char}, v.head? ≠ some '-' → Argv.Spec.Value Argv.Spec.allNames v := fun h => .inl h
  refine (Argv.Props.C81_run _ _ _).2 ⟨[(.config, "c.ini".toList), (.outfile, "out".toList), (.stem, "run".toList), (.pointings, "v.db".toList),
    (.parameters, "p.csv".toList), (.orbits, "o.csv".toList), (.ephemWrite, "eph".toList), (.force, [])], ?_, Argv.Props.enough (by decide +kernel), by decide +kernel⟩
  refine .next (n := "-c".toList) (.inl ⟨"-c", by decide, rfl⟩) (by simp [Argv.Spec.Switch]) (val (by decide)) ?_
  refine .next (n := "-o".toList) (.inl ⟨"-o", by decide, rfl⟩) (by simp [Argv.Spec.Switch]) (val (by decide)) ?_
  refine .next (n := "-t".toList) (.inl ⟨"-t", by decide, rfl⟩) (by simp [Argv.Spec.Switch]) (val (by decide)) ?_
  refine .next (n := "--pd".toList) (.inl ⟨"--pd", by decide, rfl⟩) (by simp [Argv.Spec.Switch]) (val (by decide)) ?_
  refine .next (n := "-p".toList) (.inl ⟨"-p", by decide, rfl⟩) (by simp [Argv.Spec.Switch]) (val (by decide)) ?_
  refine .next (n := "--ob".toList) (.inl ⟨"--ob", by decide, rfl⟩) (by simp [Argv.Spec.Switch]) (val (by decide)) ?_
  refine .next (n := "--ew".toList) (.inl ⟨"--ew", by decide, rfl⟩) (by simp [Argv.Spec.Switch]) (val (by decide)) ?_
  exact .switch (n := "-f".toList) (.inl ⟨"-f", by decide, rfl⟩) (by simp [Argv.Spec.Switch]) .nil

/-- The same settings, with ephemerides from a file, and a chunk size. -/
def againText (chunk : Char) : Str :=
  chars! "[INPUT]\nephemerides_type = external\neph_format = csv\nsize_serial_chunk = " ++ chunk ::
    chars! "\naux_format = csv\npointing_sql_query = SELECT\n[SIMULATION]\n[FILTERS]\nobserving_filters = r, g\n[PHASECURVES]\nphase_function = HG\n[FOV]\ncamera_model = circle\ncircle_radius = 2.0\n[OUTPUT]\noutput_format = csv\noutput_columns = ObjID, optFilter, trailedSourceMag\n[EXPERT]\nrandomization_on = False\ntrailing_losses_on = False\nvignetting_on = False\nbrute_force = False\n"

/-- What is saved. -/
def savedRows : List (List Str) := [["A".toList, "1".toList, "6000025".toList], ["A".toList, "2".toList, "6000028".toList], ["C,1".toList, "1".toList, "6000025".toList],
  ["C,1".toList, "2".toList, "6000028".toList], ["D".toList, "1".toList, "6000025".toList], ["D".toList, "2".toList, "6000028".toList]]

def savedText : Str := fileText ["ObjID", "FieldID", "fieldMJD_TAI"] savedRows

/-- Another directory, with a copy of the saved ephemerides. -/
def againDisk (chunk : Char) : Disk := [("c.ini", .text (againText chunk)), ("v.db", .text []), ("p.csv", .text (fileText ["ObjID", "H_r"] exPhysRows)),
  ("o.csv", .text (fileText ["ObjID", "a"] exOrbRows)), ("e.csv", .text savedText)]

def againCfg (n : ℤ) : Config.Cfg := { Spec.fromFile arCfg with input := { (Spec.fromFile arCfg).input with chunk := n } }

theorem again_configured (b : Bool) : Configured savedWorld (againDisk (exChunk b)) exArgs (againCfg (exSize b)) := by
  have h : (match Ini.configure savedWorld.py savedWorld.lightCurves savedWorld.activities exArgs.s (configLines (againText (exChunk b))) with
      | .ok (c, _) => decide (c = againCfg (exSize b)) | .error _ => false) = true := by cases b <;> decide +kernel
  cases hc : Ini.configure savedWorld.py savedWorld.lightCurves savedWorld.activities exArgs.s (configLines (againText (exChunk b))) with
  | error e => rw [hc] at h; cases h
  | ok x =>
    obtain ⟨c, y⟩ := x
    rw [hc] at h
    refine ⟨_, y, rfl, ?_⟩
    rw [hc, of_decide_eq_true h]

theorem saving_configured : Configured savedWorld arDisk savingArgs arCfg := ar_configured

theorem savingArgs_differ : History.Spec.NamesDiffer savingArgs := by
  refine ⟨?_, ?_, ?_⟩
  · rintro p ⟨h, n, hn, -, h'⟩
    cases hn
    have h1 := History.Props.belongs_chars h
    have h2 := History.Props.belongs_chars h'
    have e1 : ("out".toList ++ '/' :: "run".toList ++ ['.']) <+: p.toList := h1
    have e2 : ("out".toList ++ '/' :: "eph".toList ++ ['.']) <+: p.toList := h2
    have := List.prefix_of_prefix_length_le e1 e2 (by decide)
    revert this
    decide
  · rintro p ⟨-, n, hn, -⟩; cases hn
  · rintro p ⟨-, n, hn, -⟩; cases hn

theorem saving_one : History.Spec.AtMostOne savingArgs arDisk := by
  constructor
  · intro p q hp hq h1 h2
    exact arDisk_one.1 p q hp hq h1 h2
  · rintro p q hp - ⟨n, hn, -, h⟩
    cases hn
    exfalso
    have h1 := History.Props.belongs_chars h
    have hm := (History.mem_paths _ p).2 hp
    simp only [arDisk, Disk.paths, List.map_cons, List.map_nil, List.mem_cons, List.not_mem_nil, or_false] at hm
    have h2 : ("out".toList ++ '/' :: "eph".toList ++ ['.']) <+: p.toList := h1
    rcases hm with rfl | rfl | rfl | rfl | rfl | rfl
    all_goals (revert h2; decide)

theorem again_one (b : Bool) : History.Spec.AtMostOne exArgs (againDisk (exChunk b)) := by
  constructor
  · intro p q hp _ h _
    exfalso
    have h1 := History.Props.belongs_chars h
    have hm := (History.mem_paths _ p).2 hp
    simp only [againDisk, Disk.paths, List.map_cons, List.map_nil, List.mem_cons, List.not_mem_nil, or_false] at hm
    have h2 : ("out".toList ++ '/' :: "run".toList ++ ['.']) <+: p.toList := h1
    rcases hm with rfl | rfl | rfl | rfl | rfl
    all_goals (revert h2; decide)
  · rintro p q - - ⟨n, hn, -⟩
    cases hn

def savingCmd : Cli.CmdArgs := ⟨"p.csv", "o.csv", "c.ini", "out", "v.db", none, none, some "eph", none, "rubin_sim", "run", none, none⟩

/-- A run of the kinds above that gets to its end can finish. -/
theorem can_finish {argv : List Str} {args : Cli.Args} {cmd : Cli.CmdArgs} {d : Disk} {v : Bool} (hargs : Argv.parseRun argv = .ok (args, v)) (hf : args.f = true)
    (hnames : History.Spec.NamesDiffer args) (hone : History.Spec.AtMostOne args d)
    (h0 : (Cli.commandLine (existing savedWorld d) savedWorld.isDir savedWorld.glob args []).1.toOption = some cmd)
    (h : isFinishing (plan savedWorld cmd (checked savedWorld args d)) = true) : ∃ d' log, Invoked savedWorld argv d d' log .finished := by
  cases h1 : (Cli.commandLine (existing savedWorld d) savedWorld.isDir savedWorld.glob args []).1 with
  | error e => rw [h1] at h0; cases h0
  | ok x =>
    rw [h1] at h0
    cases Option.some.inj h0
    cases hp : plan savedWorld cmd (checked savedWorld args d) with
    | other => rw [hp] at h; cases h
    | writes fmt chunks f =>
      rw [hp] at h
      have : fmt = .csv ∧ f = true := by cases fmt <;> cases f <;> first | exact ⟨rfl, rfl⟩ | cases h
      obtain ⟨rfl, rfl⟩ := this
      exact finishes hargs hf charGlob_sound hnames hone h1 hp

theorem saving_finishes : ∃ d' log, Invoked savedWorld savingArgv arDisk d' log .finished :=
  can_finish (cmd := savingCmd) savingArgv_args rfl savingArgs_differ saving_one (by decide +kernel) (by decide +kernel)

theorem again_finishes (b : Bool) : ∃ d' log, Invoked savedWorld exArgv (againDisk (exChunk b)) d' log .finished :=
  can_finish (cmd := exCmd) exArgv_args rfl exArgs_differ (again_one b) (by cases b <;> decide +kernel) (by cases b <;> decide +kernel)

/-- The saved text. -/
theorem saving_text {d' : Disk} {log : List Char} (h : Invoked savedWorld savingArgv arDisk d' log .finished) : d'.get "out/eph.csv" = some (.text savedText) := by
  obtain ⟨a, E, bs, ch, p1, p2, p3, p4, p5⟩ := run_parts savingArgv_args saving_configured h
  obtain ⟨-, -, o3⟩ := outputs_of (c := arCfg) charGlob_sound savingArgs_differ saving_one p5
  have := o3 "eph" rfl (by decide)
  refine this.trans ?_
  obtain ⟨-, -, -, -, heph⟩ := rounds_ok savedWorld E arCfg a bs _ _ p4
  rw [heph]
  have ha : a = savingCmd := by
    have h0 : (Cli.commandLine (existing savedWorld arDisk) savedWorld.isDir savedWorld.glob savingArgs arDisk.paths).1.toOption = some savingCmd := by decide +kernel
    rw [p1] at h0
    exact Option.some.inj h0
  subst ha
  have hb : bs = (observations savedWorld arCfg savingCmd (checked savedWorld savingArgs arDisk)).1 := by rw [p3]
  rw [hb]
  have key : (match History.Spec.csvOf savedWorld.lines.ephemeris ((observations savedWorld arCfg savingCmd (checked savedWorld savingArgs arDisk)).1.filterMap (·.2)) with
      | some (.text t) => t | _ => []) = savedText := by decide +kernel
  cases hc : History.Spec.csvOf savedWorld.lines.ephemeris ((observations savedWorld arCfg savingCmd (checked savedWorld savingArgs arDisk)).1.filterMap (·.2)) with
  | none => rw [hc] at key; exact absurd key.symm (by decide +kernel)
  | some x =>
    rw [hc] at key
    cases x with
    | text t => exact congrArg (fun t => some (History.Content.text t)) key
    | db a b => exact absurd key.symm (show savedText ≠ [] by decide +kernel)

theorem saved_objects {d : Disk} {args : Cli.Args} (h1 : d.get args.ob = some (.text (fileText ["ObjID", "a"] exOrbRows)))
    (h2 : d.get args.p = some (.text (fileText ["ObjID", "H_r"] exPhysRows))) :
    Spec.Objects savedWorld.ids d args arCfg (recsOf exOrbRows) [recsOf exPhysRows] where
  orbits := ex_table (ns := ["a"]) h1 (by simp) (by decide)
  unique := by decide +kernel
  given := .inl ⟨rfl, rfl, _, rfl, ex_table (ns := ["H_r"]) h2 (by simp) (by decide)⟩
  same := by
    intro t ht
    rw [List.mem_singleton] at ht
    subst ht
    decide +kernel

theorem saved_read (a : Cli.CmdArgs) (k : List (Rec Str)) (o : Pointing.Obs Unit) (ho : o ∈ savedWorld.ephem arCfg a k) : o.obj ∈ k.map (·.id) ∧
    Spec.obsOf savedWorld.parse (Readers.Spec.extend (recsOf exOrbRows :: [recsOf exPhysRows]) ⟨o.obj, savedFields o⟩) = o := by
  obtain ⟨r, hr, ho⟩ := List.mem_flatMap.1 ho
  have d1 : digits "1".toList = 1 := by decide +kernel
  have d2 : digits "2".toList = 2 := by decide +kernel
  have d3 : digits "6000025".toList = 6000025 := by decide +kernel
  have d4 : digits "6000028".toList = 6000028 := by decide +kernel
  simp only [List.mem_cons, List.not_mem_nil, or_false] at ho
  rcases ho with rfl | rfl
  · refine ⟨List.mem_map.2 ⟨r, hr, rfl⟩, ?_⟩
    show (⟨r.id, digits "1".toList, (digits "6000025".toList : ℚ) / 100, ()⟩ : Pointing.Obs Unit) = _
    rw [d1, d3]
    norm_num
  · refine ⟨List.mem_map.2 ⟨r, hr, rfl⟩, ?_⟩
    show (⟨r.id, digits "2".toList, (digits "6000028".toList : ℚ) / 100, ()⟩ : Pointing.Obs Unit) = _
    rw [d2, d4]
    norm_num

/-- C87 for a pair of concrete runs. -/
example : ∃ d1 d2 log1 log2, Invoked savedWorld savingArgv arDisk d1 log1 .finished ∧ Invoked savedWorld exArgv (againDisk '3') d2 log2 .finished ∧
    d2.get "out/run.csv" = d1.get "out/run.csv" := by
  obtain ⟨d1, log1, h1⟩ := saving_finishes
  obtain ⟨d2, log2, h2⟩ := again_finishes false
  refine ⟨d1, d2, log1, log2, h1, h2, ?_⟩
  exact (C87_saved charGlob_sound savingArgv_args exArgv_args h1 h2 saving_configured (again_configured false) (by decide) savingArgs_differ exArgs_differ saving_one
    (again_one false) (saved_objects rfl rfl) (saved_objects rfl rfl) (n := "eph") (pe := "e.csv") rfl (by decide) rfl (saving_text h1).symm
    (fun _ _ _ _ => ⟨rfl, rfl, rfl⟩) (shown := Csv.Props.someShown) rfl saved_saves (.inl rfl) (fun a _ k _ => saved_read a k)).1

/-- And with another chunk size. -/
example : ∃ d1 d2 log1 log2, Invoked savedWorld savingArgv arDisk d1 log1 .finished ∧ Invoked savedWorld exArgv (againDisk '1') d2 log2 .finished ∧
    Spec.SameLines Csv.read (d1.get "out/run.csv") (d2.get "out/run.csv") := by
  obtain ⟨d1, log1, h1⟩ := saving_finishes
  obtain ⟨d2, log2, h2⟩ := again_finishes true
  refine ⟨d1, d2, log1, log2, h1, h2, ?_⟩
  refine C87_chunks charGlob_sound savingArgv_args exArgv_args h1 h2 (m := 1) saving_configured (again_configured true) (by decide) rfl savingArgs_differ exArgs_differ
    saving_one (again_one true) (saved_objects rfl rfl) (saved_objects rfl rfl) (n := "eph") (pe := "e.csv") rfl (by decide) rfl (saving_text h1).symm
    (fun _ _ _ _ => ⟨rfl, rfl⟩) (shown := Csv.Props.someShown) rfl rfl saved_saves (.inl rfl) (fun a _ k _ => saved_read a k) ?_ (fun _ _ => by simp [savedWorld, arWorld, exWorld]) ?_
  · intro a _ k k' _ o ho o' ho' h1 h2
    have key : ∀ (l : List (Rec Str)) o, o ∈ savedWorld.ephem arCfg a l → (o.field = 1 ∧ o.mjd = 60000 + 1/4) ∨ (o.field = 2 ∧ o.mjd = 60000 + 7/25) := by
      intro l o ho
      obtain ⟨r, -, ho⟩ := List.mem_flatMap.1 ho
      simp only [List.mem_cons, List.not_mem_nil, or_false] at ho
      rcases ho with rfl | rfl
      · exact .inl ⟨rfl, rfl⟩
      · exact .inr ⟨rfl, rfl⟩
    have m1 := (List.mem_append.1 ho).elim (key k o) (key k' o)
    have m2 := (List.mem_append.1 ho').elim (key k o') (key k' o')
    obtain ⟨x1, x2, x3, x4⟩ := o
    obtain ⟨y1, y2, y3, y4⟩ := o'
    simp only at h1 h2 m1 m2
    subst h1 h2
    rcases m1 with ⟨rfl, m1⟩ | ⟨rfl, m1⟩ <;> rcases m2 with ⟨rfl, m2⟩ | ⟨rfl, m2⟩
    · rfl
    · rw [m1] at m2; norm_num at m2
    · rw [m1] at m2; norm_num at m2
    · rfl
  · intro _ E _ hE
    cases hE
    have hr := Pipeline.Props.exRegular
    exact ⟨⟨rfl, rfl, fun _ _ h => by cases h; exact .inl rfl⟩, hr.visits, hr.sortIndex, hr.sortOut, hr.sortT, hr.weights, fun _ h => by cases h⟩

/-- The ephemerides of the example can also be saved with blanks. -/
example : Spec.Readable "whitespace" ["A", "B", "C,1", "D"] ["FieldID".toList, "fieldMJD_TAI".toList] savedFields := by
  refine .inr ⟨rfl, by decide +kernel, by decide +kernel, fun o f hf => ?_⟩
  unfold savedFields at hf
  split_ifs at hf
  · revert f; decide
  · revert f; decide

end Sorcha.Whole.Props
