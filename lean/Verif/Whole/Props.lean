import Verif.Whole.Lemmas3
import Verif.Argv.Props

/-!
# Properties: from the command line to the text of the results (C85)
-/

namespace Sorcha.Whole.Props

open Sorcha.Csv (Str)
open Sorcha.Readers (Rec IdParse)
open Sorcha.History (Disk Chunk)
open Sorcha.Output (Cell)

variable {G W V : Type}

/-- A run that finishes: its arguments, what it has planned, and the same run in the sense of C65. -/
theorem finished_parts {w : World G W V} {argv : List Str} {d d' : Disk} {log : List Char} (h : Invoked w argv d d' log .finished) :
    ∃ args v a fmt chunks, Argv.parseRun argv = .ok (args, v) ∧ (Cli.commandLine (existing w d) w.isDir w.glob args d.paths).1 = .ok a ∧
      plan w a (checked w args d) = .writes fmt chunks true ∧
      History.Runs false (existing w d) w.isDir w.glob w.lines ⟨args, fmt, chunks, w.stamp, w.start⟩ d d' log .finished := by
  generalize ho : History.Outcome.finished = out at h
  cases h with
  | usage h => cases ho
  | refused h hc => cases ho
  | failed h hc hp he => cases ho
  | @ran args v a fmt chunks s done h hc hp he =>
    have hr := History.Runs.ran (j := ⟨args, fmt, chunks, w.stamp, w.start⟩) hc he
    cases done with
    | false => cases ho
    | true => exact ⟨args, v, a, fmt, chunks, h, hc, hp, hr⟩

/-- A plan that gets to its end. -/
theorem plan_parts {w : World G W V} {a : Cli.CmdArgs} {d : Disk} {fmt chunks} (h : plan w a d = .writes fmt chunks true) {t : Str} (ht : textAt d a.configfile = some t)
    {c : Config.Cfg} {x : Inputs.Aux} (hc : Ini.configure w.py w.lightCurves w.activities a.surveyname (configLines t) = .ok (c, x)) :
    ∃ E bs, w.env c a d = some E ∧ observations w c a d = (bs, true) ∧ rounds w E c a (w.state c a) bs = (chunks, true) ∧
      fmt = (if c.output.format = "csv" then .csv else .sqlite) := by
  unfold plan at h
  rw [ht] at h
  simp only [hc] at h
  cases he : Cli.execute (fun p => d.paths.contains p) w.isDir (runConfig c) a with
  | error e => rw [he] at h; simp at h
  | ok st =>
    rw [he] at h
    cases st with
    | des => cases h
    | rubin =>
      simp only at h
      by_cases ho : c.input.ephFormat = "hdf5" ∨ c.output.format = "hdf5"
      · rw [if_pos ho] at h; cases h
      · rw [if_neg ho] at h
        cases hE : w.env c a d with
        | none => rw [hE] at h; simp at h
        | some E =>
          rw [hE] at h
          simp only [Plan.writes.injEq, Bool.and_eq_true] at h
          exact ⟨E, _, rfl, Prod.ext rfl h.2.2.1, Prod.ext h.2.1 h.2.2.2, h.1.symm⟩

theorem plan_text {w : World G W V} {a : Cli.CmdArgs} {d : Disk} {fmt chunks} (h : plan w a d = .writes fmt chunks true) : ∃ t, textAt d a.configfile = some t := by
  unfold plan at h
  cases ht : textAt d a.configfile with
  | none => rw [ht] at h; simp at h
  | some t => exact ⟨t, rfl⟩

/-- The configuration of a run: the text of the file at `-c` says `c`. -/
def Configured (w : World G W V) (d : Disk) (args : Cli.Args) (c : Config.Cfg) : Prop :=
  ∃ t x, d.get args.c = some (.text t) ∧ Ini.configure w.py w.lightCurves w.activities args.s (configLines t) = .ok (c, x)

/-- The checks of the command line accept the arguments, as `a`. -/
def Accepted (w : World G W V) (d : Disk) (args : Cli.Args) (a : Cli.CmdArgs) : Prop := (Cli.commandLine (existing w d) w.isDir w.glob args d.paths).1 = .ok a

/-- The parts of a run that finishes. -/
theorem run_parts {w : World G W V} {argv : List Str} {args : Cli.Args} {v : Bool} (hp : Argv.parseRun argv = .ok (args, v)) {d d' : Disk} {c : Config.Cfg}
    (hconf : Configured w d args c) {log : List Char} (h : Invoked w argv d d' log .finished) :
    ∃ a E bs chunks, (Cli.commandLine (existing w d) w.isDir w.glob args d.paths).1 = .ok a ∧ w.env c a (checked w args d) = some E ∧
      observations w c a (checked w args d) = (bs, true) ∧ rounds w E c a (w.state c a) bs = (chunks, true) ∧
      History.Runs false (existing w d) w.isDir w.glob w.lines
        ⟨args, if c.output.format = "csv" then .csv else .sqlite, chunks, w.stamp, w.start⟩ d d' log .finished := by
  obtain ⟨args', v', a, fmt, chunks, h1, h2, h3, h4⟩ := finished_parts h
  rw [hp] at h1
  cases h1
  obtain ⟨t, x, ht, hx⟩ := hconf
  obtain ⟨-, -, e3, -, -, e6, -, -⟩ := commandLine_ok h2
  obtain ⟨t', ht'⟩ := plan_text h3
  have := textAt_checked (e3 ▸ ht')
  rw [ht] at this
  cases this
  obtain ⟨E, bs, f1, f2, f3, rfl⟩ := plan_parts h3 ht' (by rw [e6]; exact hx)
  exact ⟨a, E, bs, chunks, h2, f1, f2, f3, h4⟩

theorem header_length {c : Config.Cfg} {cols : List String} (hcols : 2 ≤ cols.length) {dist f g} (hf : f.cols = cols)
    (h : Output.outputFrame dist (outConfig c) f = .ok g) : 2 ≤ g.cols.length := by
  rw [(outputFrame_cells _ _ _ _ h).1, hf]
  unfold Output.Spec.wantedColumns
  cases hk : (outConfig c).columns with
  | basic => simp [Output.Spec.basic]
  | all => split_ifs <;> simp <;> omega
  | list l =>
    unfold Output.outputFrame at h
    simp only [bind, Except.bind, hk, Output.selectColumns] at h
    split_ifs at h with hl
    exact hl

/-- The lines of a file of results. -/
theorem lines_results {R : Type} {c : Config.Cfg} {cols : List String} (hcols : 2 ≤ cols.length) {dist : Cell → Cell → Cell → Cell} (shown : Cell → Str)
    {cells : R → Output.Row} {outs : List (List R)} {g : Output.Frame} {gs : List Output.Frame}
    (hall : List.Forall₂ (fun out g => Output.outputFrame dist (outConfig c) ⟨cols, out.map cells⟩ = .ok g) outs (g :: gs)) :
    Csv.Props.linesOf shown (g :: gs) = (Output.Spec.wantedColumns (outConfig c).columns (outConfig c).keepUnlinked cols).map String.toList ::
        outs.flatten.map (fun f => (outLine dist (outConfig c) cols (cells f)).map shown) ∧
      ∀ row ∈ Csv.Props.linesOf shown (g :: gs), Csv.Spec.Visible row := by
  have hlines : Csv.Props.linesOf shown (g :: gs) = (Output.Spec.wantedColumns (outConfig c).columns (outConfig c).keepUnlinked cols).map String.toList ::
      outs.flatten.map fun f => (outLine dist (outConfig c) cols (cells f)).map shown := by
    simp only [Csv.Props.linesOf]
    have hg : g.cols = Output.Spec.wantedColumns (outConfig c).columns (outConfig c).keepUnlinked cols := by
      cases hall with
      | cons ho _ => exact (outputFrame_cells _ _ _ _ ho).1
    rw [hg]
    congr 1
    clear hg
    generalize g :: gs = gs' at hall
    induction hall with
    | nil => rfl
    | @cons o g os gs ho _ ih =>
      rw [List.flatMap_cons, ih, (outputFrame_cells _ _ _ _ ho).2, List.flatten_cons, List.map_append]
      simp only [List.map_map, Function.comp_def]
  refine ⟨hlines, ?_⟩
  have hw : 2 ≤ (Output.Spec.wantedColumns (outConfig c).columns (outConfig c).keepUnlinked cols).length := by
    cases hall with
    | cons ho _ =>
      have := header_length hcols rfl ho
      rwa [(outputFrame_cells _ _ _ _ ho).1] at this
  rw [hlines]
  intro row hrow
  left
  rcases List.mem_cons.1 hrow with rfl | hrow
  · rw [List.length_map]; exact hw
  · obtain ⟨f, -, rfl⟩ := List.mem_map.1 hrow
    rw [List.length_map]
    unfold outLine
    rw [List.length_map]
    exact hw

/-- The text of a file of results, read back. -/
theorem read_results {R : Type} {c : Config.Cfg} {cols : List String} (hcols : 2 ≤ cols.length) {dist : Cell → Cell → Cell → Cell} {shown : Cell → Str}
    {cells : R → Output.Row} {outs : List (List R)} {gs : List Output.Frame} (hne : outs ≠ [])
    (h : List.Forall₂ (fun out g => Output.outputFrame dist (outConfig c) ⟨cols, out.map cells⟩ = .ok g) outs gs) :
    ∃ t, History.Spec.csvOf (Csv.line shown) gs = some (.text t) ∧
      Csv.read t = some ((Output.Spec.wantedColumns (outConfig c).columns (outConfig c).keepUnlinked cols).map String.toList ::
        outs.flatten.map fun f => (outLine dist (outConfig c) cols (cells f)).map shown) := by
  cases gs with
  | nil => exact absurd (List.forall₂_nil_right_iff.1 h) hne
  | cons g gs =>
    obtain ⟨h1, h2⟩ := lines_results hcols shown h
    exact ⟨_, Csv.Props.csvOf_lines shown g gs, by rw [Csv.Props.C83_read_back _ h2, h1]⟩

theorem rounds_nonempty {E : Pipeline.Env G W V} {c : Config.Cfg} {bs : List (List (Pointing.Obs W))} {s : Pipeline.State G} {outs}
    (h : Pipeline.rounds E c s bs = .ok outs) : outs.flatten = [] ↔ outs = [] := by
  constructor
  · intro h0
    cases outs with
    | nil => rfl
    | cons o os =>
      have := (Pipeline.Props.C11_rounds h o (List.mem_cons_self ..)).1
      rw [List.flatten_cons, List.append_eq_nil_iff] at h0
      exact absurd h0.1 this
  · rintro rfl; rfl

theorem output_eq (c : Config.Cfg) : Spec.output c = outConfig c := rfl

theorem file_of_run {w : World G W V} {args : Cli.Args} {d d' : Disk} {chunks} {log : List Char} (hg : Cli.Spec.GlobSound w.glob)
    (hnames : History.Spec.NamesDiffer args) (hone : History.Spec.AtMostOne args d) {shown : Cell → Str} (hshown : w.lines.output = Csv.line shown)
    (h : History.Runs false (existing w d) w.isDir w.glob w.lines ⟨args, .csv, chunks, w.stamp, w.start⟩ d d' log .finished) :
    d'.get (args.o ++ "/" ++ args.t ++ ".csv") = History.Spec.csvOf (Csv.line shown) (chunks.filterMap fun c => c.results.map (·.1)) := by
  rw [← hshown]
  have hc := History.Props.C65_history (js := []) hg (j := ⟨args, .csv, chunks, w.stamp, w.start⟩) hnames (fun i hi => by cases hi) hone .nil h
  exact hc _ _ (.results rfl)

/-- The file of results of a run without random features and linking. -/
theorem results_file {w : World G W V} {args : Cli.Args} {d d' : Disk} {c : Config.Cfg} {a : Cli.CmdArgs} {E : Pipeline.Env G W V} {bs chunks} {log : List Char}
    (hg : Cli.Spec.GlobSound w.glob) (hnames : History.Spec.NamesDiffer args) (hone : History.Spec.AtMostOne args d) (hcsv : c.output.format = "csv")
    {shown : Cell → Str} (hshown : w.lines.output = Csv.line shown) (hcols : 2 ≤ (w.columns c a).length)
    (hdet : Pipeline.Spec.Deterministic c) (hlink : c.linking.ssp = none) (hsort : ∀ l, (E.sortIndex l).Perm l)
    (hr : rounds w E c a (w.state c a) bs = (chunks, true))
    (h : History.Runs false (existing w d) w.isDir w.glob w.lines
        ⟨args, if c.output.format = "csv" then .csv else .sqlite, chunks, w.stamp, w.start⟩ d d' log .finished)
    {obs : List (Pointing.Obs W)} (hobs : (bs.map (·.1)).flatten.Perm obs) :
    Spec.ResultsFile w.dist shown Csv.read c (w.columns c a) (fun r => w.cells ⟨r, none⟩) (Pipeline.Spec.survivors E c obs)
      (d'.get (args.o ++ "/" ++ args.t ++ ".csv")) := by
  obtain ⟨outs, h1, h2, -, -⟩ := rounds_ok w E c a bs _ _ hr
  obtain ⟨h3, h4⟩ := rounds_survivors hsort hdet hlink h1
  have h5 := h3.trans (survivors_perm E c hobs)
  rw [if_pos hcsv] at h
  have hfile := file_of_run hg hnames hone hshown h
  rw [hfile]
  by_cases ho : outs = []
  · left
    subst ho
    rw [List.forall₂_nil_left_iff.1 h2]
    exact ⟨List.Perm.eq_nil h5.symm, rfl⟩
  · right
    refine ⟨?_, ?_⟩
    · intro h0
      rw [h0] at h5
      have := List.map_eq_nil_iff.1 h5.eq_nil
      exact ho ((rounds_nonempty h1).1 this)
    · obtain ⟨t, e1, e2⟩ := read_results hcols (shown := shown) ho h2
      refine ⟨t, outs.flatten.map (·.row), outs.flatten.map fun f => outLine w.dist (outConfig c) (w.columns c a) (w.cells f), e1, h5, ?_, ?_⟩
      · rw [List.forall₂_map_left_iff, List.forall₂_map_right_iff, List.forall₂_same]
        intro f hf
        have : (⟨f.row, none⟩ : Pipeline.Final W V) = f := by
          have := h4 f hf
          cases f
          simp_all
        show Spec.LineOf _ _ _ (w.cells ⟨f.row, none⟩) _
        rw [this]
        exact outLine_spec _ _ _ _
      · rw [e2, List.map_map]
        rfl

/-- C85 (ephemerides from a file): let `sorcha run` finish, with CSV output and without random features and linking, in a directory with at most one file of results and
one ephemeris file; its input files, as they were at the start, are texts of the tables `eph`, `orb` and `others` (with comments, quoted fields and either kind of line
ends), which list the same objects. Whatever the chunk size, the text at `o/t.csv` then is read back as the wanted columns and one line for each of the rows that pass
all filters, among those of all rows of the ephemerides of the listed objects and the visits of their fields; with none there is no file. -/
theorem C85_external {w : World G W V} {argv : List Str} {args : Cli.Args} {v : Bool} (hargs : Argv.parseRun argv = .ok (args, v)) {d d' : Disk} {log : List Char}
    (h : Invoked w argv d d' log .finished) {c : Config.Cfg} (hconf : Configured w d args c)
    (hext : c.input.ephemeridesType = "external") (hcsv : c.output.format = "csv") (hdet : Pipeline.Spec.Deterministic c) (hlink : c.linking.ssp = none)
    (hg : Cli.Spec.GlobSound w.glob) (hnames : History.Spec.NamesDiffer args) (hone : History.Spec.AtMostOne args d)
    {orb eph : List (Rec Str)} {others : List (List (Rec Str))} (hin : Spec.Objects w.ids d args c orb others) {pe : String} (her : args.er = some pe)
    (he : Spec.Table w.ids c.input.ephFormat d pe eph)
    {shown : Cell → Str} (hshown : w.lines.output = Csv.line shown) (hcols : ∀ a, Accepted w d args a → 2 ≤ (w.columns c a).length)
    (hsort : ∀ a E, Accepted w d args a → w.env c a (checked w args d) = some E → ∀ l, (E.sortIndex l).Perm l) :
    ∃ a E, Accepted w d args a ∧ w.env c a (checked w args d) = some E ∧
      Spec.ResultsFile w.dist shown Csv.read c (w.columns c a) (fun r => w.cells ⟨r, none⟩) (Pipeline.Spec.survivors E c (Spec.observed w.parse eph orb others))
        (d'.get (args.o ++ "/" ++ args.t ++ ".csv")) := by
  obtain ⟨a, E, bs, chunks, h1, h2, h3, h4, h5⟩ := run_parts hargs hconf h
  obtain ⟨e1, e2, -, -, e5, -, -, e8⟩ := commandLine_ok h1
  obtain ⟨⟨n, hn, hbs⟩, -⟩ := external_blocks hin her he e1 e2 e5 e8 hext h3
  have hse : Readers.Spec.StableIds w.ids eph := by
    obtain ⟨_, _, _, _, _, _, h⟩ := he
    exact h
  refine ⟨a, E, h1, h2, results_file hg hnames hone hcsv hshown (hcols a h1) hdet hlink (hsort a E h1 h2) h4 h5 ?_⟩
  rw [hbs]
  exact externalBlocks_perm w.parse (Objects.consistent hin) hse hn

/-- C85 (generated ephemerides): the same for a run that makes its ephemerides, if these are made for each object alone: the rows are those of the ephemerides of the
objects in the orbit file, without the ones the faint object filter drops. -/
theorem C85_generated {w : World G W V} {argv : List Str} {args : Cli.Args} {v : Bool} (hargs : Argv.parseRun argv = .ok (args, v)) {d d' : Disk} {log : List Char}
    (h : Invoked w argv d d' log .finished) {c : Config.Cfg} (hconf : Configured w d args c)
    (hext : c.input.ephemeridesType ≠ "external") (hcsv : c.output.format = "csv") (hdet : Pipeline.Spec.Deterministic c) (hlink : c.linking.ssp = none)
    (hg : Cli.Spec.GlobSound w.glob) (hnames : History.Spec.NamesDiffer args) (hone : History.Spec.AtMostOne args d)
    {orb : List (Rec Str)} {others : List (List (Rec Str))} (hin : Spec.Objects w.ids d args c orb others)
    (halone : ∀ a, Accepted w d args a → ∀ objs, Pipeline.Spec.PartOf orb objs → (w.ephem c a objs).Perm (objs.flatMap fun r => w.ephem c a [r]))
    {shown : Cell → Str} (hshown : w.lines.output = Csv.line shown) (hcols : ∀ a, Accepted w d args a → 2 ≤ (w.columns c a).length)
    (hsort : ∀ a E, Accepted w d args a → w.env c a (checked w args d) = some E → ∀ l, (E.sortIndex l).Perm l) :
    ∃ a E, Accepted w d args a ∧ w.env c a (checked w args d) = some E ∧
      Spec.ResultsFile w.dist shown Csv.read c (w.columns c a) (fun r => w.cells ⟨r, none⟩)
        (Pipeline.Spec.survivors E c ((Spec.bright c (w.cull c a) orb others).flatMap fun r => w.ephem c a [r]))
        (d'.get (args.o ++ "/" ++ args.t ++ ".csv")) := by
  obtain ⟨a, E, bs, chunks, h1, h2, h3, h4, h5⟩ := run_parts hargs hconf h
  obtain ⟨e1, e2, -, -, -, -, -, e8⟩ := commandLine_ok h1
  obtain ⟨n, hn, hbs, -⟩ := generated_blocks hin (List.perm_nil.1 (halone a h1 [] ⟨List.nodup_nil, fun _ h => by cases h⟩)) e1 e2 e8 hext h3
  refine ⟨a, E, h1, h2, results_file hg hnames hone hcsv hshown (hcols a h1) hdet hlink (hsort a E h1 h2) h4 h5 ?_⟩
  rw [hbs]
  exact generatedBlocks_perm hin.unique (halone a h1) hn

end Sorcha.Whole.Props
