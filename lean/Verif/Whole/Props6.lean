import Verif.Whole.Props2
import Verif.Whole.SpecDb

/-!
# Properties: from the command line to the database of results (C85)
-/

namespace Sorcha.Whole.Props

open Sorcha.Csv (Str)
open Sorcha.Readers (Rec IdParse)
open Sorcha.History (Disk Chunk)
open Sorcha.Output (Cell)

variable {G W V : Type}

/-- The line of a row in a database. -/
def dbLine (dist : Cell → Cell → Cell → Cell) (c : Config.Cfg) (cols : List String) (r : Output.Row) : List Cell :=
  (Spec.databaseColumns c cols).map fun x => Output.finalCell (outConfig c) x (Output.Props.rawCell dist r x)

theorem dbLine_spec (dist : Cell → Cell → Cell → Cell) (c : Config.Cfg) (cols : List String) (r : Output.Row) :
    Spec.LineOf dist (outConfig c) (Spec.databaseColumns c cols) r (dbLine dist c cols r) := by
  unfold Spec.LineOf dbLine
  rw [List.forall₂_map_right_iff, List.forall₂_same]
  intro x _
  unfold Output.finalCell
  cases Output.Spec.decimalsOf (outConfig c) x with
  | none => rfl
  | some d => exact Output.cell_round_spec d _

/-- A table of results as it is in a database. -/
theorem frame_db {c : Config.Cfg} {cols : List String} {dist : Cell → Cell → Cell → Cell} {rows : List Output.Row} {g : Output.Frame}
    (h : Output.outputFrame dist (outConfig c) ⟨cols, rows⟩ = .ok g) :
    History.Spec.dbColumns g = Spec.databaseColumns c cols ∧
      (g.rows.map fun r => (Spec.databaseColumns c cols).map r) = rows.map (dbLine dist c cols) := by
  obtain ⟨h1, h2⟩ := outputFrame_cells _ _ _ _ h
  have h1' : g.cols = Output.Spec.wantedColumns (outConfig c).columns (outConfig c).keepUnlinked cols := h1
  refine ⟨by unfold History.Spec.dbColumns Spec.databaseColumns; rw [h1']; rfl, ?_⟩
  have h3 : List.Forall₂ (fun r r' => g.cols.map r = outLine dist (outConfig c) cols r') g.rows rows := by
    have h2' : (g.rows.map fun r => g.cols.map r) = rows.map (outLine dist (outConfig c) cols) := h2
    rw [← List.forall₂_eq_eq_eq, List.forall₂_map_left_iff, List.forall₂_map_right_iff] at h2'
    exact h2'
  rw [← List.forall₂_eq_eq_eq, List.forall₂_map_left_iff, List.forall₂_map_right_iff]
  refine h3.imp fun r r' hr => ?_
  unfold outLine at hr
  rw [h1'] at hr
  unfold dbLine Spec.databaseColumns
  refine List.map_congr_left fun x hx => ?_
  have hx' : x ∈ Output.Spec.wantedColumns (outConfig c).columns (outConfig c).keepUnlinked cols := (List.mem_filter.1 hx).1
  exact List.map_inj_left.1 hr x hx'

/-- The table of a database of results. -/
theorem table_results {R : Type} {c : Config.Cfg} {cols : List String} {dist : Cell → Cell → Cell → Cell} {cells : R → Output.Row} {outs : List (List R)} {gs : List Output.Frame} (hne : outs ≠ [])
    (h : List.Forall₂ (fun out g => Output.outputFrame dist (outConfig c) ⟨cols, out.map cells⟩ = .ok g) outs gs) :
    History.Spec.tableOf gs = some (Spec.databaseColumns c cols, outs.flatten.map fun f => dbLine dist c cols (cells f)) := by
  cases gs with
  | nil => exact absurd (List.forall₂_nil_right_iff.1 h) hne
  | cons g gs =>
    have hg : History.Spec.dbColumns g = Spec.databaseColumns c cols := by
      cases h with
      | cons ho _ => exact (frame_db ho).1
    simp only [History.Spec.tableOf, hg, Option.some.injEq, Prod.mk.injEq, true_and]
    clear hg hne
    generalize g :: gs = gs' at h
    induction h with
    | nil => rfl
    | @cons o g os gs ho _ ih =>
      rw [List.flatMap_cons, ih, List.flatten_cons, List.map_append]
      congr 1
      have hf := frame_db ho
      rw [List.map_map] at hf
      rw [show (o.map fun f => dbLine dist c cols (cells f)) = o.map (dbLine dist c cols ∘ cells) from rfl, ← hf.2, hf.1]
      refine List.map_congr_left fun r _ => List.map_congr_left fun x hx => ?_
      rw [if_pos hx]

theorem db_of_run {w : World G W V} {args : Cli.Args} {d d' : Disk} {chunks} {log : List Char} (hg : Cli.Spec.GlobSound w.glob)
    (hnames : History.Spec.NamesDiffer args) (hone : History.Spec.AtMostOne args d)
    (h : History.Runs false (existing w d) w.isDir w.glob w.lines ⟨args, .sqlite, chunks, w.stamp, w.start⟩ d d' log .finished) :
    d'.get (args.o ++ "/" ++ args.t ++ ".db") = History.Spec.dbOf (chunks.filterMap fun c => c.results.map (·.1)) := by
  have hc := History.Props.C65_history (js := []) hg (j := ⟨args, .sqlite, chunks, w.stamp, w.start⟩) hnames (fun i hi => by cases hi) hone .nil h
  exact hc _ _ (.database rfl)

theorem dbOf_some {gs : List Output.Frame} {t} (h : History.Spec.tableOf gs = some t) :
    History.Spec.dbOf gs = some (.db (some t) ["ObjID", "fieldMJD_TAI", "optFilter"]) := by
  cases gs with
  | nil => cases h
  | cons g gs => rw [← h]; rfl

/-- The database of results of a run without random features and linking. -/
theorem results_table {w : World G W V} {args : Cli.Args} {d d' : Disk} {c : Config.Cfg} {a : Cli.CmdArgs} {E : Pipeline.Env G W V} {bs chunks} {log : List Char}
    (hg : Cli.Spec.GlobSound w.glob) (hnames : History.Spec.NamesDiffer args) (hone : History.Spec.AtMostOne args d) (hsql : c.output.format = "sqlite3")
    (hdet : Pipeline.Spec.Deterministic c) (hlink : c.linking.ssp = none) (hsort : ∀ l, (E.sortIndex l).Perm l)
    (hr : rounds w E c a (w.state c a) bs = (chunks, true))
    (h : History.Runs false (existing w d) w.isDir w.glob w.lines
        ⟨args, if c.output.format = "csv" then .csv else .sqlite, chunks, w.stamp, w.start⟩ d d' log .finished)
    {obs : List (Pointing.Obs W)} (hobs : (bs.map (·.1)).flatten.Perm obs) :
    Spec.ResultsTable w.dist c (w.columns c a) (fun r => w.cells ⟨r, none⟩) (Pipeline.Spec.survivors E c obs) (d'.get (args.o ++ "/" ++ args.t ++ ".db")) := by
  obtain ⟨outs, h1, h2, -, -⟩ := rounds_ok w E c a bs _ _ hr
  obtain ⟨h3, h4⟩ := rounds_survivors hsort hdet hlink h1
  have h5 := h3.trans (survivors_perm E c hobs)
  rw [if_neg (by rw [hsql]; decide)] at h
  rw [db_of_run hg hnames hone h]
  by_cases ho : outs = []
  · left
    subst ho
    rw [List.forall₂_nil_left_iff.1 h2]
    exact ⟨List.Perm.eq_nil h5.symm, rfl⟩
  · right
    refine ⟨?_, ?_⟩
    · intro h0
      rw [h0] at h5
      have := List.map_eq_nil_iff.1 h5.eq_nil
      exact ho ((rounds_nonempty h1).1 this)
    · refine ⟨outs.flatten.map (·.row), outs.flatten.map fun f => dbLine w.dist c (w.columns c a) (w.cells f), h5, ?_, dbOf_some (table_results ho h2)⟩
      rw [List.forall₂_map_left_iff, List.forall₂_map_right_iff, List.forall₂_same]
      intro f hf
      have : (⟨f.row, none⟩ : Pipeline.Final W V) = f := by
        have := h4 f hf
        cases f
        simp_all
      show Spec.LineOf _ _ _ (w.cells ⟨f.row, none⟩) _
      rw [this]
      exact dbLine_spec _ _ _ _

/-- Two runs in which each object has the same observations. -/
theorem same_tables {w : World G W V} {c : Config.Cfg} {i sm} {E : Pipeline.Env G W V} (hreg : Pipeline.Spec.Regular E c)
    {args1 args2 : Cli.Args} {a1 a2 : Cli.CmdArgs} {d1 d1' d2 d2' : Disk} {bs1 bs2 chunks1 chunks2} {log1 log2 : List Char}
    (hg : Cli.Spec.GlobSound w.glob) (hnames1 : History.Spec.NamesDiffer args1) (hnames2 : History.Spec.NamesDiffer args2)
    (hone1 : History.Spec.AtMostOne args1 d1) (hone2 : History.Spec.AtMostOne args2 d2)
    (hsame : w.columns c a1 = w.columns { c with input := i, simulation := sm } a2)
    (hr1 : rounds w E c a1 (w.state c a1) bs1 = (chunks1, true))
    (hr2 : rounds w E { c with input := i, simulation := sm } a2 (w.state { c with input := i, simulation := sm } a2) bs2 = (chunks2, true))
    (h1 : History.Runs false (existing w d1) w.isDir w.glob w.lines ⟨args1, .sqlite, chunks1, w.stamp, w.start⟩ d1 d1' log1 .finished)
    (h2 : History.Runs false (existing w d2) w.isDir w.glob w.lines ⟨args2, .sqlite, chunks2, w.stamp, w.start⟩ d2 d2' log2 .finished)
    (hw1 : Pipeline.Spec.Whole (bs1.map (·.1))) (hw2 : Pipeline.Spec.Whole (bs2.map (·.1))) (ho : Pipeline.Spec.OncePerTime (bs1.map (·.1)).flatten)
    (hown : ∀ id, Pipeline.own id (bs1.map (·.1)).flatten = Pipeline.own id (bs2.map (·.1)).flatten) :
    Spec.SameTable (d1'.get (args1.o ++ "/" ++ args1.t ++ ".db")) (d2'.get (args2.o ++ "/" ++ args2.t ++ ".db")) := by
  obtain ⟨outs1, e1, f1, -, -⟩ := rounds_ok w E _ _ _ _ _ hr1
  obtain ⟨outs2, e2, f2, -, -⟩ := rounds_ok w E _ _ _ _ _ hr2
  rw [Pipeline.rounds_simulation] at e2
  obtain ⟨outs', e3, hp⟩ := Pipeline.rounds_same hreg _ (w.state { c with input := i, simulation := sm } a2) hw1 hw2 ho hown e1
  have := Except.ok.inj (e3.symm.trans e2)
  subst this
  rw [db_of_run hg hnames1 hone1 h1, db_of_run hg hnames2 hone2 h2]
  have hiff : outs1 = [] ↔ outs' = [] := by
    rw [← rounds_nonempty e1, ← rounds_nonempty e2]
    exact ⟨fun h => by rw [h] at hp; exact hp.symm.eq_nil, fun h => by rw [h] at hp; exact hp.eq_nil⟩
  by_cases h0 : outs1 = []
  · left
    have h0' := hiff.1 h0
    subst h0
    subst h0'
    rw [List.forall₂_nil_left_iff.1 f1, List.forall₂_nil_left_iff.1 f2]
    exact ⟨rfl, rfl⟩
  · right
    have k2 := table_results (fun h => h0 (hiff.2 h)) f2
    rw [← hsame] at k2
    exact ⟨_, _, _, dbOf_some (table_results h0 f1), dbOf_some k2, hp.map _⟩

/-- C85 (database of results, ephemerides from a file): as `C85_external`, for `sqlite3` output: the database at `o/t.db` has one table with the wanted columns and one
line for each of the rows that pass all filters. -/
theorem C85_external_sqlite {w : World G W V} {argv : List Str} {args : Cli.Args} {v : Bool} (hargs : Argv.parseRun argv = .ok (args, v)) {d d' : Disk} {log : List Char}
    (h : Invoked w argv d d' log .finished) {c : Config.Cfg} (hconf : Configured w d args c)
    (hext : c.input.ephemeridesType = "external") (hsql : c.output.format = "sqlite3") (hdet : Pipeline.Spec.Deterministic c) (hlink : c.linking.ssp = none)
    (hg : Cli.Spec.GlobSound w.glob) (hnames : History.Spec.NamesDiffer args) (hone : History.Spec.AtMostOne args d)
    {orb eph : List (Rec Str)} {others : List (List (Rec Str))} (hin : Spec.Objects w.ids d args c orb others) {pe : String} (her : args.er = some pe)
    (he : Spec.Table w.ids c.input.ephFormat d pe eph)
    (hsort : ∀ a E, Accepted w d args a → w.env c a (checked w args d) = some E → ∀ l, (E.sortIndex l).Perm l) :
    ∃ a E, Accepted w d args a ∧ w.env c a (checked w args d) = some E ∧
      Spec.ResultsTable w.dist c (w.columns c a) (fun r => w.cells ⟨r, none⟩) (Pipeline.Spec.survivors E c (Spec.observed w.parse eph orb others))
        (d'.get (args.o ++ "/" ++ args.t ++ ".db")) := by
  obtain ⟨a, E, bs, chunks, h1, h2, h3, h4, h5⟩ := run_parts hargs hconf h
  obtain ⟨e1, e2, -, -, e5, -, -, e8⟩ := commandLine_ok h1
  obtain ⟨⟨n, hn, hbs⟩, -⟩ := external_blocks hin her he e1 e2 e5 e8 hext h3
  have hse : Readers.Spec.StableIds w.ids eph := by
    obtain ⟨_, _, _, _, _, _, h⟩ := he
    exact h
  refine ⟨a, E, h1, h2, results_table hg hnames hone hsql hdet hlink (hsort a E h1 h2) h4 h5 ?_⟩
  rw [hbs]
  exact externalBlocks_perm w.parse (Objects.consistent hin) hse hn

/-- C85 (database of results, generated ephemerides). -/
theorem C85_generated_sqlite {w : World G W V} {argv : List Str} {args : Cli.Args} {v : Bool} (hargs : Argv.parseRun argv = .ok (args, v)) {d d' : Disk} {log : List Char}
    (h : Invoked w argv d d' log .finished) {c : Config.Cfg} (hconf : Configured w d args c)
    (hext : c.input.ephemeridesType ≠ "external") (hsql : c.output.format = "sqlite3") (hdet : Pipeline.Spec.Deterministic c) (hlink : c.linking.ssp = none)
    (hg : Cli.Spec.GlobSound w.glob) (hnames : History.Spec.NamesDiffer args) (hone : History.Spec.AtMostOne args d)
    {orb : List (Rec Str)} {others : List (List (Rec Str))} (hin : Spec.Objects w.ids d args c orb others)
    (halone : ∀ a, Accepted w d args a → ∀ objs, Pipeline.Spec.PartOf orb objs → (w.ephem c a objs).Perm (objs.flatMap fun r => w.ephem c a [r]))
    (hsort : ∀ a E, Accepted w d args a → w.env c a (checked w args d) = some E → ∀ l, (E.sortIndex l).Perm l) :
    ∃ a E, Accepted w d args a ∧ w.env c a (checked w args d) = some E ∧
      Spec.ResultsTable w.dist c (w.columns c a) (fun r => w.cells ⟨r, none⟩)
        (Pipeline.Spec.survivors E c ((Spec.bright c (w.cull c a) orb others).flatMap fun r => w.ephem c a [r]))
        (d'.get (args.o ++ "/" ++ args.t ++ ".db")) := by
  obtain ⟨a, E, bs, chunks, h1, h2, h3, h4, h5⟩ := run_parts hargs hconf h
  obtain ⟨e1, e2, -, -, -, -, -, e8⟩ := commandLine_ok h1
  obtain ⟨n, hn, hbs, -⟩ := generated_blocks hin (List.perm_nil.1 (halone a h1 [] ⟨List.nodup_nil, fun _ h => by cases h⟩)) e1 e2 e8 hext h3
  refine ⟨a, E, h1, h2, results_table hg hnames hone hsql hdet hlink (hsort a E h1 h2) h4 h5 ?_⟩
  rw [hbs]
  exact generatedBlocks_perm hin.unique (halone a h1) hn

/-- C85 (database of results, chunk size, ephemerides from a file): two runs that differ in the chunk size leave databases with the same columns and the same lines. -/
theorem C85_chunks_sqlite {w : World G W V} {argv1 argv2 : List Str} {args1 args2 : Cli.Args} {v1 v2 : Bool} (hargs1 : Argv.parseRun argv1 = .ok (args1, v1))
    (hargs2 : Argv.parseRun argv2 = .ok (args2, v2)) {d1 d1' d2 d2' : Disk} {log1 log2 : List Char}
    (h1 : Invoked w argv1 d1 d1' log1 .finished) (h2 : Invoked w argv2 d2 d2' log2 .finished) {c : Config.Cfg} {n : ℤ}
    (hconf1 : Configured w d1 args1 c) (hconf2 : Configured w d2 args2 { c with input := { c.input with chunk := n } })
    (hext : c.input.ephemeridesType = "external") (hsql : c.output.format = "sqlite3")
    (hg : Cli.Spec.GlobSound w.glob) (hnames1 : History.Spec.NamesDiffer args1) (hnames2 : History.Spec.NamesDiffer args2)
    (hone1 : History.Spec.AtMostOne args1 d1) (hone2 : History.Spec.AtMostOne args2 d2)
    {orb eph : List (Rec Str)} {others : List (List (Rec Str))} (hin1 : Spec.Objects w.ids d1 args1 c orb others)
    (hin2 : Spec.Objects w.ids d2 args2 { c with input := { c.input with chunk := n } } orb others) {pe1 pe2 : String} (her1 : args1.er = some pe1)
    (her2 : args2.er = some pe2) (he1 : Spec.Table w.ids c.input.ephFormat d1 pe1 eph) (he2 : Spec.Table w.ids c.input.ephFormat d2 pe2 eph)
    (ho : Pipeline.Spec.OncePerTime (Spec.observed w.parse eph orb others))
    (hsame : ∀ a1 a2, Accepted w d1 args1 a1 → Accepted w d2 args2 a2 → w.columns c a1 = w.columns { c with input := { c.input with chunk := n } } a2)
    (henv : ∀ a1 a2, Accepted w d1 args1 a1 → Accepted w d2 args2 a2 → w.env c a1 (checked w args1 d1) = w.env { c with input := { c.input with chunk := n } } a2 (checked w args2 d2))
    (hreg : ∀ a E, Accepted w d1 args1 a → w.env c a (checked w args1 d1) = some E → Pipeline.Spec.Regular E c) :
    Spec.SameTable (d1'.get (args1.o ++ "/" ++ args1.t ++ ".db")) (d2'.get (args2.o ++ "/" ++ args2.t ++ ".db")) := by
  obtain ⟨a1, E1, bs1, chunks1, p1, p2, p3, p4, p5⟩ := run_parts hargs1 hconf1 h1
  obtain ⟨a2, E2, bs2, chunks2, q1, q2, q3, q4, q5⟩ := run_parts hargs2 hconf2 h2
  have hE := henv a1 a2 p1 q1
  rw [p2, q2] at hE
  cases hE
  obtain ⟨e1, e2, -, -, e5, -, -, e8⟩ := commandLine_ok p1
  obtain ⟨f1, f2, -, -, f5, -, -, f8⟩ := commandLine_ok q1
  obtain ⟨⟨n1, hn1, hbs1⟩, -⟩ := external_blocks hin1 her1 he1 e1 e2 e5 e8 hext p3
  obtain ⟨⟨n2, hn2, hbs2⟩, -⟩ := external_blocks hin2 her2 he2 f1 f2 f5 f8 hext q3
  have hse : Readers.Spec.StableIds w.ids eph := by
    obtain ⟨_, _, _, _, _, _, h⟩ := he1
    exact h
  have hcons := Objects.consistent hin1
  rw [if_neg (by rw [hsql]; decide)] at p5 q5
  refine same_tables (i := { c.input with chunk := n }) (sm := c.simulation) (hreg _ _ p1 p2) hg hnames1 hnames2 hone1 hone2 (hsame a1 a2 p1 q1) p4 q4 p5 q5 ?_ ?_ ?_ ?_
  · rw [hbs1]; exact (Pipeline.external_split w.parse hcons eph hn1).2
  · rw [hbs2]; exact (Pipeline.external_split w.parse hcons eph hn2).2
  · rw [hbs1]
    have hperm := externalBlocks_perm w.parse hcons hse hn1
    exact fun o h1 o' h2 => ho o (hperm.mem_iff.1 h1) o' (hperm.mem_iff.1 h2)
  · intro id
    rw [hbs1, hbs2, (Pipeline.external_split w.parse hcons eph hn1).1, (Pipeline.external_split w.parse hcons eph hn2).1]

/-- C85 (database of results, chunk size, generated ephemerides). -/
theorem C85_generated_chunks_sqlite {w : World G W V} {argv1 argv2 : List Str} {args1 args2 : Cli.Args} {v1 v2 : Bool} (hargs1 : Argv.parseRun argv1 = .ok (args1, v1))
    (hargs2 : Argv.parseRun argv2 = .ok (args2, v2)) {d1 d1' d2 d2' : Disk} {log1 log2 : List Char}
    (h1 : Invoked w argv1 d1 d1' log1 .finished) (h2 : Invoked w argv2 d2 d2' log2 .finished) {c : Config.Cfg} {n : ℤ}
    (hconf1 : Configured w d1 args1 c) (hconf2 : Configured w d2 args2 { c with input := { c.input with chunk := n } })
    (hext : c.input.ephemeridesType ≠ "external") (hsql : c.output.format = "sqlite3")
    (hg : Cli.Spec.GlobSound w.glob) (hnames1 : History.Spec.NamesDiffer args1) (hnames2 : History.Spec.NamesDiffer args2)
    (hone1 : History.Spec.AtMostOne args1 d1) (hone2 : History.Spec.AtMostOne args2 d2)
    {orb : List (Rec Str)} {others : List (List (Rec Str))} (hin1 : Spec.Objects w.ids d1 args1 c orb others)
    (hin2 : Spec.Objects w.ids d2 args2 { c with input := { c.input with chunk := n } } orb others)
    {ephem : List (Rec Str) → List (Pointing.Obs W)} {cull : Rec Str → Bool}
    (hephem1 : ∀ a, Accepted w d1 args1 a → w.ephem c a = ephem ∧ w.cull c a = cull)
    (hephem2 : ∀ a, Accepted w d2 args2 a → w.ephem { c with input := { c.input with chunk := n } } a = ephem ∧ w.cull { c with input := { c.input with chunk := n } } a = cull)
    (hnone : ephem [] = [])
    (halone : ∀ objs, Pipeline.Spec.PartOf orb objs → ∀ id, ((ephem objs).filter fun o => o.obj = id) = ephem (objs.filter fun r => r.id = id))
    (ho : ∀ objs, Pipeline.Spec.PartOf orb objs → Pipeline.Spec.OncePerTime (ephem objs))
    (hsame : ∀ a1 a2, Accepted w d1 args1 a1 → Accepted w d2 args2 a2 → w.columns c a1 = w.columns { c with input := { c.input with chunk := n } } a2)
    (henv : ∀ a1 a2, Accepted w d1 args1 a1 → Accepted w d2 args2 a2 → w.env c a1 (checked w args1 d1) = w.env { c with input := { c.input with chunk := n } } a2 (checked w args2 d2))
    (hreg : ∀ a E, Accepted w d1 args1 a → w.env c a (checked w args1 d1) = some E → Pipeline.Spec.Regular E c) :
    Spec.SameTable (d1'.get (args1.o ++ "/" ++ args1.t ++ ".db")) (d2'.get (args2.o ++ "/" ++ args2.t ++ ".db")) := by
  obtain ⟨a1, E1, bs1, chunks1, p1, p2, p3, p4, p5⟩ := run_parts hargs1 hconf1 h1
  obtain ⟨a2, E2, bs2, chunks2, q1, q2, q3, q4, q5⟩ := run_parts hargs2 hconf2 h2
  have hE := henv a1 a2 p1 q1
  rw [p2, q2] at hE
  cases hE
  obtain ⟨e1, e2, -, -, -, -, -, e8⟩ := commandLine_ok p1
  obtain ⟨f1, f2, -, -, -, -, -, f8⟩ := commandLine_ok q1
  obtain ⟨n1, hn1, hbs1, -⟩ := generated_blocks hin1 (by rw [(hephem1 a1 p1).1]; exact hnone) e1 e2 e8 hext p3
  obtain ⟨n2, hn2, hbs2, -⟩ := generated_blocks hin2 (by rw [(hephem2 a2 q1).1]; exact hnone) f1 f2 f8 hext q3
  unfold keptObjects at hbs1 hbs2
  rw [(hephem1 a1 p1).1, (hephem1 a1 p1).2] at hbs1
  rw [(hephem2 a2 q1).1, (hephem2 a2 q1).2] at hbs2
  have hcons := Objects.consistent hin1
  rw [if_neg (by rw [hsql]; decide)] at p5 q5
  have s1 := Pipeline.generated_split c cull hcons hnone halone hn1
  have s2 := Pipeline.generated_split c cull hcons hnone halone hn2
  refine same_tables (i := { c.input with chunk := n }) (sm := c.simulation) (hreg _ _ p1 p2) hg hnames1 hnames2 hone1 hone2 (hsame a1 a2 p1 q1) p4 q4 p5 q5 ?_ ?_ ?_ ?_
  · rw [hbs1]; exact s1.2
  · rw [hbs2]; exact s2.2
  · rw [hbs1]; exact Pipeline.generated_once c cull hcons hnone halone ho hn1
  · intro id
    rw [hbs1, hbs2]
    exact (s1.1 id).trans (s2.1 id).symm

/-! ## Runs that stop -/

/-- A plan that gets to its end has an environment. -/
theorem plan_ends {w : World G W V} {a : Cli.CmdArgs} {d : Disk} {fmt chunks b} (h : plan w a d = .writes fmt chunks b) {t : Str}
    (ht : textAt d a.configfile = some t ∨ textAt d a.configfile = none)
    {c : Config.Cfg} {x : Inputs.Aux} (hc : Ini.configure w.py w.lightCurves w.activities a.surveyname (configLines t) = .ok (c, x)) :
    (chunks = [] ∧ b = false) ∨ ∃ E, w.env c a d = some E ∧ chunks = (rounds w E c a (w.state c a) (observations w c a d).1).1 ∧
      fmt = (if c.output.format = "csv" then .csv else .sqlite) := by
  unfold plan at h
  rcases ht with ht | ht
  · rw [ht] at h
    simp only [hc] at h
    cases he : Cli.execute (fun p => d.paths.contains p) w.isDir (runConfig c) a with
    | error e => rw [he] at h; simp only [Plan.writes.injEq] at h; exact .inl ⟨h.2.1.symm, h.2.2.symm⟩
    | ok st =>
      rw [he] at h
      cases st with
      | des => cases h
      | rubin =>
        simp only at h
        by_cases ho : c.input.ephFormat = "hdf5" ∨ c.output.format = "hdf5"
        · rw [if_pos ho] at h; cases h
        · rw [if_neg ho] at h
          cases hE : w.env c a d with
          | none => rw [hE] at h; simp only [Plan.writes.injEq] at h; exact .inl ⟨h.2.1.symm, h.2.2.symm⟩
          | some E =>
            rw [hE] at h
            simp only [Plan.writes.injEq] at h
            exact .inr ⟨E, rfl, h.2.1.symm, h.1.symm⟩
  · rw [ht] at h
    simp only [Plan.writes.injEq] at h
    exact .inl ⟨h.2.1.symm, h.2.2.symm⟩

/-- The parts of a run with a database of results that has started. -/
theorem started_parts_sqlite {w : World G W V} {argv : List Str} {args : Cli.Args} {v : Bool} (hp : Argv.parseRun argv = .ok (args, v)) {d d' : Disk} {c : Config.Cfg}
    (hconf : Configured w d args c) {log : List Char} {out : History.Outcome} (h : Invoked w argv d d' log out) (hout : out ≠ .refused)
    (hsql : c.output.format = "sqlite3") :
    ∃ a chunks, Accepted w d args a ∧ History.Runs false (existing w d) w.isDir w.glob w.lines ⟨args, .sqlite, chunks, w.stamp, w.start⟩ d d' log out ∧
      (chunks = [] ∨ ∃ E, w.env c a (checked w args d) = some E ∧ chunks = (rounds w E c a (w.state c a) (observations w c a (checked w args d)).1).1) := by
  obtain ⟨t, x, ht, hx⟩ := hconf
  have key : ∀ {a fmt chunks b}, Accepted w d args a → plan w a (checked w args d) = .writes fmt chunks b →
      (chunks = [] ∧ b = false) ∨ (fmt = .sqlite ∧ ∃ E, w.env c a (checked w args d) = some E ∧
        chunks = (rounds w E c a (w.state c a) (observations w c a (checked w args d)).1).1) := by
    intro a fmt chunks b ha hpl
    obtain ⟨-, -, e3, -, -, e6, -, -⟩ := commandLine_ok ha
    have ht' : textAt (checked w args d) a.configfile = some t ∨ textAt (checked w args d) a.configfile = none := by
      cases hc : textAt (checked w args d) a.configfile with
      | none => exact .inr rfl
      | some t' =>
        have := textAt_checked (e3 ▸ hc)
        rw [ht] at this
        cases this
        exact .inl rfl
    rcases plan_ends hpl ht' (by rw [e6]; exact hx) with h0 | ⟨E, f1, f2, f3⟩
    · exact .inl h0
    · rw [if_neg (by rw [hsql]; decide)] at f3
      exact .inr ⟨f3, E, f1, f2⟩
  cases h with
  | usage h => exact absurd rfl hout
  | refused h hc => exact absurd rfl hout
  | @failed args' v' a fmt chunks s done h hc hpl he =>
    rw [hp] at h
    cases h
    have hrun : ∀ {fmt}, History.Ends false (chunks.flatMap (History.chunkEffects w.lines a fmt)) ⟨checked w args d, w.start.flatMap fun l => l ++ ['\n']⟩ s done →
        History.Runs false (existing w d) w.isDir w.glob w.lines ⟨args, fmt, chunks, w.stamp, w.start⟩ d s.disk s.log .stopped := by
      intro fmt he
      have := ends_early (es2 := History.makeIndex a fmt ++ [.log (w.stamp ++ "Sorcha process is completed. ".toList)]) he (by simp)
      rw [← List.append_assoc] at this
      exact History.Runs.ran (j := ⟨args, fmt, chunks, w.stamp, w.start⟩) hc this
    rcases key hc hpl with ⟨rfl, -⟩ | ⟨rfl, h0⟩
    · exact ⟨a, [], hc, hrun (fmt := .sqlite) he, .inl rfl⟩
    · exact ⟨a, chunks, hc, hrun he, .inr h0⟩
  | @ran args' v' a fmt chunks s done h hc hpl he =>
    rw [hp] at h
    cases h
    rcases key hc hpl with ⟨-, h0⟩ | ⟨rfl, h0⟩
    · cases h0
    · exact ⟨a, chunks, hc, History.Runs.ran (j := ⟨args, .sqlite, chunks, w.stamp, w.start⟩) hc he, .inr h0⟩

theorem forall₂_take {α β : Type} {R : α → β → Prop} {l : List α} {m : List β} (h : List.Forall₂ R l m) : ∀ k, List.Forall₂ R (l.take k) (m.take k) := by
  induction h with
  | nil => intro k; simp
  | cons h _ ih =>
    intro k
    cases k with
    | zero => simp
    | succ k => simpa using ⟨h, ih k⟩

/-- The database of results of a run that was stopped. -/
theorem part_table {w : World G W V} {args : Cli.Args} {d d' : Disk} {c : Config.Cfg} {a : Cli.CmdArgs} {E : Pipeline.Env G W V} {bs} {log : List Char}
    {out : History.Outcome} (hg : Cli.Spec.GlobSound w.glob) (hnames : History.Spec.NamesDiffer args) (hone : History.Spec.AtMostOne args d)
    (hdet : Pipeline.Spec.Deterministic c) (hlink : c.linking.ssp = none) (hsort : ∀ l, (E.sortIndex l).Perm l)
    (h : History.Runs false (existing w d) w.isDir w.glob w.lines ⟨args, .sqlite, (rounds w E c a (w.state c a) bs).1, w.stamp, w.start⟩ d d' log out)
    (hout : out ≠ .refused) {all : List (List (Pointing.Obs W))} (hbs : bs.map (·.1) <+: all) {obs : List (Pointing.Obs W)} (hobs : all.flatten.Perm obs) :
    Spec.PartTable w.dist c (w.columns c a) (fun r => w.cells ⟨r, none⟩) (Pipeline.Spec.survivors E c obs) (d'.get (args.o ++ "/" ++ args.t ++ ".db")) := by
  obtain ⟨k, outs, e1, e2⟩ := rounds_part w E c a bs (w.state c a)
  obtain ⟨h3, h4⟩ := rounds_survivors hsort hdet hlink e1
  have hsub : (outs.flatten.map (·.row)).Subperm (Pipeline.Spec.survivors E c obs) := by
    refine h3.subperm.trans (List.Subperm.trans ?_ (survivors_perm E c hobs).subperm)
    obtain ⟨rest, hrest⟩ := (List.take_prefix k (bs.map (·.1))).trans hbs
    rw [← hrest, List.flatten_append, survivors_append]
    exact (List.sublist_append_left _ _).subperm
  have hst := (History.Props.C65_interrupted (js := []) hg (j := ⟨args, .sqlite, (rounds w E c a (w.state c a) bs).1, w.stamp, w.start⟩) hnames
    (fun i hi => by cases hi) hone .nil h hout).2.1 rfl
  rcases hst with h0 | ⟨m, ix, h0, -, -⟩
  · exact .inl h0
  · have h0' : d'.get (args.o ++ "/" ++ args.t ++ ".db") = _ := h0
    right
    have e3 := forall₂_take e2 m
    by_cases hne : outs.take m = []
    · left
      rw [hne] at e3
      refine ⟨ix, ?_⟩
      rw [h0']
      show some (History.Content.db (History.Spec.tableOf (List.take m ((rounds w E c a (w.state c a) bs).1.filterMap fun c => c.results.map (·.1)))) ix) = _
      rw [List.forall₂_nil_left_iff.1 e3]
      rfl
    · right
      have ht := table_results hne e3
      have hpart : (outs.take m).flatten.Sublist outs.flatten := (List.take_sublist m outs).flatten
      refine ⟨(outs.take m).flatten.map (·.row), _, ix, (hpart.map _).subperm.trans hsub, ?_, by rw [h0', ← ht]; rfl⟩
      rw [List.forall₂_map_left_iff, List.forall₂_map_right_iff, List.forall₂_same]
      intro f hf
      have : (⟨f.row, none⟩ : Pipeline.Final W V) = f := by
        have := h4 f (hpart.subset hf)
        cases f
        simp_all
      show Spec.LineOf _ _ _ (w.cells ⟨f.row, none⟩) _
      rw [this]
      exact dbLine_spec _ _ _ _

/-- C85 (database of results, runs that fail or are stopped, ephemerides from a file): however a run ends that the checks of the command line have let start, each line
in its database belongs to a row that passes all filters, and no row has more than one; there are no incomplete lines. -/
theorem C85_stopped_sqlite {w : World G W V} {argv : List Str} {args : Cli.Args} {v : Bool} (hargs : Argv.parseRun argv = .ok (args, v)) {d d' : Disk} {log : List Char}
    {out : History.Outcome} (h : Invoked w argv d d' log out) (hout : out ≠ .refused) {c : Config.Cfg} (hconf : Configured w d args c)
    (hext : c.input.ephemeridesType = "external") (hsql : c.output.format = "sqlite3") (hdet : Pipeline.Spec.Deterministic c) (hlink : c.linking.ssp = none)
    (hg : Cli.Spec.GlobSound w.glob) (hnames : History.Spec.NamesDiffer args) (hone : History.Spec.AtMostOne args d)
    {orb eph : List (Rec Str)} {others : List (List (Rec Str))} (hin : Spec.Objects w.ids d args c orb others) {pe : String} (her : args.er = some pe)
    (he : Spec.Table w.ids c.input.ephFormat d pe eph)
    (hsort : ∀ a E, Accepted w d args a → w.env c a (checked w args d) = some E → ∀ l, (E.sortIndex l).Perm l) :
    d'.get (args.o ++ "/" ++ args.t ++ ".db") = none ∨ (∃ ix, d'.get (args.o ++ "/" ++ args.t ++ ".db") = some (.db none ix)) ∨ ∃ a E, Accepted w d args a ∧ w.env c a (checked w args d) = some E ∧
      Spec.PartTable w.dist c (w.columns c a) (fun r => w.cells ⟨r, none⟩) (Pipeline.Spec.survivors E c (Spec.observed w.parse eph orb others))
        (d'.get (args.o ++ "/" ++ args.t ++ ".db")) := by
  obtain ⟨a, chunks, h1, h2, h3⟩ := started_parts_sqlite hargs hconf h hout hsql
  rcases h3 with rfl | ⟨E, h3, rfl⟩
  · rcases (History.Props.C65_interrupted (js := []) hg (j := ⟨args, .sqlite, [], w.stamp, w.start⟩) hnames (fun i hi => by cases hi) hone .nil h2 hout).2.1 rfl
      with h0 | ⟨m, ix, h0, -, -⟩
    · exact .inl h0
    · exact .inr (.inl ⟨ix, h0.trans (by simp [History.Spec.results, History.Spec.tableOf])⟩)
  · right; right
    obtain ⟨e1, e2, -, -, e5, -, -, e8⟩ := commandLine_ok h1
    obtain ⟨n, hn, hbs⟩ := external_prefix hin her he e1 e2 e5 e8 hext
    have hse : Readers.Spec.StableIds w.ids eph := by
      obtain ⟨_, _, _, _, _, _, h⟩ := he
      exact h
    exact ⟨a, E, h1, h3, part_table hg hnames hone hdet hlink (hsort a E h1 h3) h2 hout hbs
      (externalBlocks_perm w.parse (Objects.consistent hin) hse hn)⟩

/-- C85 (database of results, runs that fail or are stopped, generated ephemerides). -/
theorem C85_generated_stopped_sqlite {w : World G W V} {argv : List Str} {args : Cli.Args} {v : Bool} (hargs : Argv.parseRun argv = .ok (args, v)) {d d' : Disk} {log : List Char}
    {out : History.Outcome} (h : Invoked w argv d d' log out) (hout : out ≠ .refused) {c : Config.Cfg} (hconf : Configured w d args c)
    (hext : c.input.ephemeridesType ≠ "external") (hsql : c.output.format = "sqlite3") (hdet : Pipeline.Spec.Deterministic c) (hlink : c.linking.ssp = none)
    (hg : Cli.Spec.GlobSound w.glob) (hnames : History.Spec.NamesDiffer args) (hone : History.Spec.AtMostOne args d)
    {orb : List (Rec Str)} {others : List (List (Rec Str))} (hin : Spec.Objects w.ids d args c orb others)
    (halone : ∀ a, Accepted w d args a → ∀ objs, Pipeline.Spec.PartOf orb objs → (w.ephem c a objs).Perm (objs.flatMap fun r => w.ephem c a [r]))
    (hsort : ∀ a E, Accepted w d args a → w.env c a (checked w args d) = some E → ∀ l, (E.sortIndex l).Perm l) :
    d'.get (args.o ++ "/" ++ args.t ++ ".db") = none ∨ (∃ ix, d'.get (args.o ++ "/" ++ args.t ++ ".db") = some (.db none ix)) ∨ ∃ a E, Accepted w d args a ∧ w.env c a (checked w args d) = some E ∧
      Spec.PartTable w.dist c (w.columns c a) (fun r => w.cells ⟨r, none⟩)
        (Pipeline.Spec.survivors E c ((Spec.bright c (w.cull c a) orb others).flatMap fun r => w.ephem c a [r]))
        (d'.get (args.o ++ "/" ++ args.t ++ ".db")) := by
  obtain ⟨a, chunks, h1, h2, h3⟩ := started_parts_sqlite hargs hconf h hout hsql
  rcases h3 with rfl | ⟨E, h3, rfl⟩
  · rcases (History.Props.C65_interrupted (js := []) hg (j := ⟨args, .sqlite, [], w.stamp, w.start⟩) hnames (fun i hi => by cases hi) hone .nil h2 hout).2.1 rfl
      with h0 | ⟨m, ix, h0, -, -⟩
    · exact .inl h0
    · exact .inr (.inl ⟨ix, h0.trans (by simp [History.Spec.results, History.Spec.tableOf])⟩)
  · right; right
    obtain ⟨e1, e2, -, -, -, -, -, e8⟩ := commandLine_ok h1
    obtain ⟨n, hn, hbs⟩ := generated_prefix hin (List.perm_nil.1 (halone a h1 [] ⟨List.nodup_nil, fun _ h => by cases h⟩)) e1 e2 e8 hext
    exact ⟨a, E, h1, h3, part_table hg hnames hone hdet hlink (hsort a E h1 h3) h2 hout hbs (generatedBlocks_perm hin.unique (halone a h1) hn)⟩

end Sorcha.Whole.Props
