import Verif.Whole.StatLemmas
import Verif.Whole.Props4

/-!
# Properties: the statistics of a run as a whole (C93)
-/

namespace Sorcha.Whole.Props

open Sorcha.Csv (Str)
open Sorcha.Readers (Rec IdParse)
open Sorcha.History (Disk Chunk)
open Sorcha.Output (Cell)

variable {G W V : Type}

/-- Tables made from blocks without common objects, of their objects, have no common objects. -/
theorem apart_of {R : Type} (g : R → Seen) {bs : List (List (Pointing.Obs W))} (hw : Pipeline.Spec.Whole bs) {tables : List (List R)}
    (hst : List.Forall₂ (fun b t => ∀ f ∈ t, ∃ o ∈ b, (g f).objId = o.obj) bs tables) : Apart (tables.map fun t => t.map g) := by
  induction hst with
  | nil => exact List.Pairwise.nil
  | @cons b t bs ts hbt hrest ih =>
    obtain ⟨w1, w2⟩ := List.pairwise_cons.1 hw
    refine List.pairwise_cons.2 ⟨?_, ih w2⟩
    intro x hx r hr r' hr' he
    obtain ⟨t', ht', rfl⟩ := List.mem_map.1 hx
    obtain ⟨f, hf, rfl⟩ := List.mem_map.1 hr
    obtain ⟨f', hf', rfl⟩ := List.mem_map.1 hr'
    obtain ⟨o, ho, e⟩ := hbt f hf
    obtain ⟨b', hb', hbt'⟩ : ∃ b' ∈ bs, ∀ f ∈ t', ∃ o ∈ b', (g f).objId = o.obj := by
      clear ih hbt w1 w2 hw hx hr hr' hf hf' e ho he
      induction hrest with
      | nil => simp at ht'
      | @cons b1 t1 bs1 ts1 h1 _ ih =>
        rcases List.mem_cons.1 ht' with rfl | ht'
        · exact ⟨b1, by simp, h1⟩
        · obtain ⟨b', hb', h⟩ := ih ht'
          exact ⟨b', List.mem_cons_of_mem _ hb', h⟩
    obtain ⟨o', ho', e'⟩ := hbt' f' hf'
    exact w1 b' hb' o ho o' ho' (e.symm.trans (he.trans e'))

/-- What the rounds output for blocks without common objects has no common objects. -/
theorem rounds_apart {E : Pipeline.Env G W V} {c : Config.Cfg} (hsort : ∀ l, (E.sortIndex l).Perm l) (hso : Pipeline.Spec.SortsOut E)
    {bs : List (List (Pointing.Obs W))} (hw : Pipeline.Spec.Whole bs) {s : Pipeline.State G} {outs} (h : Pipeline.rounds E c s bs = .ok outs)
    (phase : Pipeline.Final W V → Option ℚ) : Apart (outs.map fun o => o.map (seen phase)) := by
  obtain ⟨tables, ht, rfl⟩ := Pipeline.Props.C11_rounds_all h
  clear h
  have key : Apart (tables.map fun o => o.map (seen phase)) := by
    refine apart_of (seen phase) hw (ht.imp ?_)
    rintro b t ⟨s1, s2, hp⟩ f hf
    obtain ⟨⟨o, ho, _, _, _, _, _, _, _, hid, _⟩, _⟩ := Pipeline.Props.C11_sound hsort hso hp f hf
    exact ⟨o, ho, hid⟩
  exact key.sublist (List.filter_sublist.map _)

theorem rounds_filters {E : Pipeline.Env G W V} {c : Config.Cfg} (hsort : ∀ l, (E.sortIndex l).Perm l) (hso : Pipeline.Spec.SortsOut E)
    {bs : List (List (Pointing.Obs W))} {s : Pipeline.State G} {outs} (h : Pipeline.rounds E c s bs = .ok outs) {cats : List String} (hc : ∀ v ∈ E.db, v.filter ∈ cats) :
    ∀ o ∈ outs, ∀ f ∈ o, f.row.optFilter ∈ cats := by
  intro o ho f hf
  obtain ⟨-, b, -, s1, s2, hp⟩ := Pipeline.Props.C11_rounds h o ho
  obtain ⟨⟨_, _, v, hv, _, _, _, _, _, _, hid, _⟩, _⟩ := Pipeline.Props.C11_sound hsort hso hp f hf
  rw [hid]
  exact hc v hv

/-- The results of a run with any settings, in order. -/
theorem lists_of {R : Type} {dist : Cell → Cell → Cell → Cell} {c : Config.Cfg} {cols : List String} (hcols : c.output.format = "csv" → 2 ≤ cols.length) {cells : R → Output.Row}
    (shown : Cell → Str) {outs : List (List R)} (hflat : outs.flatten = [] ↔ outs = []) {gs : List Output.Frame}
    (h2 : List.Forall₂ (fun out g => Output.outputFrame dist (outConfig c) ⟨cols, out.map cells⟩ = .ok g) outs gs) :
    Spec.Lists dist shown Csv.read c cols cells outs.flatten
      (if c.output.format = "csv" then History.Spec.csvOf (Csv.line shown) gs else History.Spec.dbOf gs) := by
  by_cases ho : outs = []
  · left
    subst ho
    rw [List.forall₂_nil_left_iff.1 h2]
    refine ⟨rfl, ?_⟩
    split_ifs <;> rfl
  · right
    have hne : outs.flatten ≠ [] := fun h0 => ho (hflat.1 h0)
    by_cases hf : c.output.format = "csv"
    · left
      rw [if_pos hf]
      obtain ⟨t, e1, e2⟩ := read_results (hcols hf) (shown := shown) ho h2
      refine ⟨hne, hf, t, outs.flatten.map fun f => outLine dist (outConfig c) cols (cells f), e1, ?_, by rw [e2, List.map_map]; rfl⟩
      rw [List.forall₂_map_right_iff, List.forall₂_same]
      intro f _
      exact outLine_spec _ _ _ _
    · right
      rw [if_neg hf]
      refine ⟨hne, hf, outs.flatten.map fun f => dbLine dist c cols (cells f), ?_, dbOf_some (table_results ho h2)⟩
      rw [List.forall₂_map_right_iff, List.forall₂_same]
      intro f _
      exact dbLine_spec _ _ _ _

/-- The two files of a run. -/
theorem statistics_of_run {w : World G W V} {args : Cli.Args} {d d' : Disk} {c : Config.Cfg} {a : Cli.CmdArgs} {E : Pipeline.Env G W V} {bs chunks} {log : List Char}
    (hg : Cli.Spec.GlobSound w.glob) (hnames : History.Spec.NamesDiffer args) (hone : History.Spec.AtMostOne args d)
    {shown shown' : Cell → Str} (hshown : w.lines.output = Csv.line shown) (hshown' : w.lines.stats = Csv.line shown') (hcols : 2 ≤ (w.columns c a).length)
    {n : String} (hst : args.st = some n) {filters : List String} (hfilters : filters.Nodup) {phase : Pipeline.Final W V → Option ℚ}
    (hstats : ∀ rows, w.stats rows = statistics filters c.linking (rows.map (seen phase)))
    (hsort : ∀ l, (E.sortIndex l).Perm l) (hso : Pipeline.Spec.SortsOut E) (hdb : ∀ v ∈ E.db, v.filter ∈ filters)
    (hr : rounds w E c a (w.state c a) bs = (chunks, true)) (hw : Pipeline.Spec.Whole (bs.map (·.1)))
    (h : History.Runs false (existing w d) w.isDir w.glob w.lines
        ⟨args, if c.output.format = "csv" then .csv else .sqlite, chunks, w.stamp, w.start⟩ d d' log .finished) :
    ∃ rows, Spec.Lists w.dist shown Csv.read c (w.columns c a) w.cells rows (d'.get (Spec.resultsAt args c)) ∧
      Spec.StatisticsFile shown' Csv.read c filters (rows.map fun f => (⟨f.row.objId, f.row.optFilter, f.row.trailedSourceMag, phase f, f.link⟩ : Seen)) (d'.get (args.o ++ "/" ++ n ++ ".csv")) ∧
      (Pipeline.Spec.Deterministic c → c.linking.ssp = none → (rows.map (·.row)).Perm (Pipeline.Spec.survivors E c (bs.map (·.1)).flatten)) := by
  obtain ⟨outs, h1, h2, h3, -⟩ := rounds_ok w E c a bs _ _ hr
  refine ⟨outs.flatten, by rw [(outputs_of hg hnames hone h).1, hshown]; exact lists_of (fun _ => hcols) shown (rounds_nonempty h1) h2, ?_, fun hdet hlink => (rounds_survivors hsort hdet hlink h1).1⟩
  change Spec.StatisticsFile _ _ _ _ (outs.flatten.map (seen phase)) _
  rw [(outputs_of hg hnames hone h).2.1 n hst, h3, hshown', List.map_flatten]
  have := statistics_file (c := c) hfilters (shown := shown') (outs := outs.map fun o => o.map (seen phase)) ?_ (rounds_apart hsort hso hw h1 phase) ?_
  · rw [List.map_map] at this
    rw [show outs.map w.stats = outs.map (statistics filters c.linking ∘ fun o => o.map (seen phase)) from List.map_congr_left fun o _ => hstats o]
    exact this
  · intro x hx
    obtain ⟨o, ho, rfl⟩ := List.mem_map.1 hx
    rw [Ne, List.map_eq_nil_iff]
    exact (Pipeline.Props.C11_rounds h1 o ho).1
  · intro x hx r hr
    obtain ⟨o, ho, rfl⟩ := List.mem_map.1 hx
    obtain ⟨f, hf, rfl⟩ := List.mem_map.1 hr
    exact rounds_filters hsort hso h1 hdb o ho f hf

/-- C93 (ephemerides from a file): let `sorcha run --st n` finish, with any settings, random features and linking among them, and text or database output, in a directory with
at most one file of results and one ephemeris file, and with inputs as in C85. Then there are rows such that the file of results holds just them, and the statistics at
`o/n.csv` are those of these rows as a whole: one line for each object with rows and each filter of the pointing database, whatever the chunk size. Each row is counted once.
Without random features and linking the rows are those that pass all filters. -/
theorem C93_external {w : World G W V} {argv : List Str} {args : Cli.Args} {v : Bool} (hargs : Argv.parseRun argv = .ok (args, v)) {d d' : Disk} {log : List Char}
    (h : Invoked w argv d d' log .finished) {c : Config.Cfg} (hconf : Configured w d args c) (hext : c.input.ephemeridesType = "external")
    (hg : Cli.Spec.GlobSound w.glob) (hnames : History.Spec.NamesDiffer args) (hone : History.Spec.AtMostOne args d)
    {orb eph : List (Rec Str)} {others : List (List (Rec Str))} (hin : Spec.Objects w.ids d args c orb others) {pe : String} (her : args.er = some pe)
    (he : Spec.Table w.ids c.input.ephFormat d pe eph)
    {shown shown' : Cell → Str} (hshown : w.lines.output = Csv.line shown) (hshown' : w.lines.stats = Csv.line shown')
    (hcols : ∀ a, Accepted w d args a → 2 ≤ (w.columns c a).length)
    {n : String} (hst : args.st = some n) {filters : List String} (hfilters : filters.Nodup) {phase : Pipeline.Final W V → Option ℚ}
    (hstats : ∀ rows, w.stats rows = statistics filters c.linking (rows.map (seen phase)))
    (henv : ∀ a E, Accepted w d args a → w.env c a (checked w args d) = some E →
      (∀ l, (E.sortIndex l).Perm l) ∧ Pipeline.Spec.SortsOut E ∧ ∀ v ∈ E.db, v.filter ∈ filters) :
    ∃ a E rows, Accepted w d args a ∧ w.env c a (checked w args d) = some E ∧
      Spec.Lists w.dist shown Csv.read c (w.columns c a) w.cells rows (d'.get (Spec.resultsAt args c)) ∧
      Spec.StatisticsFile shown' Csv.read c filters (rows.map fun f => (⟨f.row.objId, f.row.optFilter, f.row.trailedSourceMag, phase f, f.link⟩ : Seen)) (d'.get (args.o ++ "/" ++ n ++ ".csv")) ∧
      (Pipeline.Spec.Deterministic c → c.linking.ssp = none → (rows.map (·.row)).Perm (Pipeline.Spec.survivors E c (Spec.observed w.parse eph orb others))) := by
  obtain ⟨a, E, bs, chunks, h1, h2, h3, h4, h5⟩ := run_parts hargs hconf h
  obtain ⟨e1, e2, -, -, e5, -, -, e8⟩ := commandLine_ok h1
  obtain ⟨⟨m, hm, hbs⟩, -⟩ := external_blocks hin her he e1 e2 e5 e8 hext h3
  obtain ⟨s1, s2, s3⟩ := henv a E h1 h2
  have hse : Readers.Spec.StableIds w.ids eph := by
    obtain ⟨_, _, _, _, _, _, h⟩ := he
    exact h
  obtain ⟨rows, r1, r2, r3⟩ := statistics_of_run hg hnames hone hshown hshown' (hcols a h1) hst hfilters hstats s1 s2 s3 h4
    (by rw [hbs]; exact (Pipeline.external_split w.parse (Objects.consistent hin) eph hm).2) h5
  refine ⟨a, E, rows, h1, h2, r1, r2, fun hdet hlink => (r3 hdet hlink).trans (survivors_perm E c ?_)⟩
  rw [hbs]
  exact externalBlocks_perm w.parse (Objects.consistent hin) hse hm

theorem generated_whole {w : World G W V} {c : Config.Cfg} {a : Cli.CmdArgs} {orb : List (Rec Str)} {others : List (List (Rec Str))} (hu : (orb.map (·.id)).Nodup)
    (hobj : ∀ k, (∀ r ∈ k, r ∈ Spec.bright c (w.cull c a) orb others) → ∀ o ∈ w.ephem c a k, o.obj ∈ k.map (·.id)) {m : ℕ} (hm : 1 ≤ m) :
    Pipeline.Spec.Whole ((Readers.Spec.chunks orb m).map fun b => w.ephem c a (keptObjects w c a others b)) := by
  have hflat := (Readers.Props.C12_partition orb m hm).1
  have hmem : ∀ b ∈ Readers.Spec.chunks orb m, ∀ r ∈ b, r ∈ orb := by
    intro b hb r hr
    rw [← hflat]
    exact List.mem_flatten.2 ⟨b, hb, hr⟩
  rw [← hflat] at hu
  generalize hl : Readers.Spec.chunks orb m = l at hu hmem
  clear hflat hl
  induction l with
  | nil => exact List.Pairwise.nil
  | cons b l ih =>
    rw [List.flatten_cons, List.map_append, List.nodup_append'] at hu
    obtain ⟨-, hu2, hdis⟩ := hu
    rw [List.map_cons]
    refine List.pairwise_cons.2 ⟨?_, ih hu2 fun b hb => hmem b (List.mem_cons_of_mem _ hb)⟩
    intro x hx o ho o' ho' e
    obtain ⟨b', hb', rfl⟩ := List.mem_map.1 hx
    have key : ∀ b'' ∈ b :: l, ∀ o ∈ w.ephem c a (keptObjects w c a others b''), o.obj ∈ b''.map (·.id) := by
      intro b'' hb'' o ho
      have hk := kept_bright (c := c) (cull := w.cull c a) (ts := others) (hmem b'' hb'')
      obtain ⟨r, hr, hrid⟩ := List.mem_map.1 (hobj _ (fun r hr => (hk r hr).1) o ho)
      rw [← hrid]
      exact (hk r hr).2
    have m1 := key b (List.mem_cons_self ..) o ho
    have m2 := key b' (List.mem_cons_of_mem _ hb') o' ho'
    rw [e] at m1
    refine hdis m1 ?_
    obtain ⟨r, hr, hrid⟩ := List.mem_map.1 m2
    exact List.mem_map.2 ⟨r, List.mem_flatten.2 ⟨b', hb', hr⟩, hrid⟩

/-- C93 (generated ephemerides): the same for a run that makes its ephemerides, each for an object it is given; for the last part, for each object alone. -/
theorem C93_generated {w : World G W V} {argv : List Str} {args : Cli.Args} {v : Bool} (hargs : Argv.parseRun argv = .ok (args, v)) {d d' : Disk} {log : List Char}
    (h : Invoked w argv d d' log .finished) {c : Config.Cfg} (hconf : Configured w d args c) (hext : c.input.ephemeridesType ≠ "external")
    (hg : Cli.Spec.GlobSound w.glob) (hnames : History.Spec.NamesDiffer args) (hone : History.Spec.AtMostOne args d)
    {orb : List (Rec Str)} {others : List (List (Rec Str))} (hin : Spec.Objects w.ids d args c orb others)
    (hobj : ∀ a, Accepted w d args a → ∀ k, (∀ r ∈ k, r ∈ Spec.bright c (w.cull c a) orb others) → ∀ o ∈ w.ephem c a k, o.obj ∈ k.map (·.id))
    {shown shown' : Cell → Str} (hshown : w.lines.output = Csv.line shown) (hshown' : w.lines.stats = Csv.line shown')
    (hcols : ∀ a, Accepted w d args a → 2 ≤ (w.columns c a).length)
    {n : String} (hst : args.st = some n) {filters : List String} (hfilters : filters.Nodup) {phase : Pipeline.Final W V → Option ℚ}
    (hstats : ∀ rows, w.stats rows = statistics filters c.linking (rows.map (seen phase)))
    (henv : ∀ a E, Accepted w d args a → w.env c a (checked w args d) = some E →
      (∀ l, (E.sortIndex l).Perm l) ∧ Pipeline.Spec.SortsOut E ∧ ∀ v ∈ E.db, v.filter ∈ filters) :
    ∃ a E rows, Accepted w d args a ∧ w.env c a (checked w args d) = some E ∧
      Spec.Lists w.dist shown Csv.read c (w.columns c a) w.cells rows (d'.get (Spec.resultsAt args c)) ∧
      Spec.StatisticsFile shown' Csv.read c filters (rows.map fun f => (⟨f.row.objId, f.row.optFilter, f.row.trailedSourceMag, phase f, f.link⟩ : Seen)) (d'.get (args.o ++ "/" ++ n ++ ".csv")) ∧
      (Pipeline.Spec.Deterministic c → c.linking.ssp = none →
        (∀ objs, Pipeline.Spec.PartOf orb objs → (w.ephem c a objs).Perm (objs.flatMap fun r => w.ephem c a [r])) →
        (rows.map (·.row)).Perm (Pipeline.Spec.survivors E c ((Spec.bright c (w.cull c a) orb others).flatMap fun r => w.ephem c a [r]))) := by
  obtain ⟨a, E, bs, chunks, h1, h2, h3, h4, h5⟩ := run_parts hargs hconf h
  obtain ⟨e1, e2, -, -, -, -, -, e8⟩ := commandLine_ok h1
  have hnone : w.ephem c a [] = [] := by
    rw [List.eq_nil_iff_forall_not_mem]
    intro o ho
    have := hobj a h1 [] (fun _ h => by cases h) o ho
    simp at this
  obtain ⟨m, hm, hbs, -⟩ := generated_blocks hin hnone e1 e2 e8 hext h3
  obtain ⟨s1, s2, s3⟩ := henv a E h1 h2
  obtain ⟨rows, r1, r2, r3⟩ := statistics_of_run hg hnames hone hshown hshown' (hcols a h1) hst hfilters hstats s1 s2 s3 h4
    (by rw [hbs]; exact generated_whole hin.unique (hobj a h1) hm) h5
  refine ⟨a, E, rows, h1, h2, r1, r2, fun hdet hlink halone => (r3 hdet hlink).trans (survivors_perm E c ?_)⟩
  rw [hbs]
  exact generatedBlocks_perm hin.unique halone hm

end Sorcha.Whole.Props
