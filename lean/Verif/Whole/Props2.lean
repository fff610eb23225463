import Verif.History.Finish
import Verif.Whole.Lemmas4
import Verif.Whole.Props

/-!
# Properties: from the command line to the text of the results (C85), chunk sizes and runs that stop
-/

namespace Sorcha.Whole.Props

open Sorcha.Csv (Str)
open Sorcha.Readers (Rec IdParse)
open Sorcha.History (Disk Chunk)
open Sorcha.Output (Cell)

variable {G W V : Type}

/-- Two runs in which each object has the same observations. -/
theorem same_files {w : World G W V} {c : Config.Cfg} {i sm} {E : Pipeline.Env G W V} (hreg : Pipeline.Spec.Regular E c)
    {args1 args2 : Cli.Args} {a1 a2 : Cli.CmdArgs} {d1 d1' d2 d2' : Disk} {bs1 bs2 chunks1 chunks2} {log1 log2 : List Char}
    (hg : Cli.Spec.GlobSound w.glob) (hnames1 : History.Spec.NamesDiffer args1) (hnames2 : History.Spec.NamesDiffer args2)
    (hone1 : History.Spec.AtMostOne args1 d1) (hone2 : History.Spec.AtMostOne args2 d2)
    {shown : Cell → Str} (hshown : w.lines.output = Csv.line shown) (hcols : 2 ≤ (w.columns c a1).length)
    (hsame : w.columns c a1 = w.columns { c with input := i, simulation := sm } a2)
    (hr1 : rounds w E c a1 (w.state c a1) bs1 = (chunks1, true))
    (hr2 : rounds w E { c with input := i, simulation := sm } a2 (w.state { c with input := i, simulation := sm } a2) bs2 = (chunks2, true))
    (h1 : History.Runs false (existing w d1) w.isDir w.glob w.lines ⟨args1, .csv, chunks1, w.stamp, w.start⟩ d1 d1' log1 .finished)
    (h2 : History.Runs false (existing w d2) w.isDir w.glob w.lines ⟨args2, .csv, chunks2, w.stamp, w.start⟩ d2 d2' log2 .finished)
    (hw1 : Pipeline.Spec.Whole (bs1.map (·.1))) (hw2 : Pipeline.Spec.Whole (bs2.map (·.1))) (ho : Pipeline.Spec.OncePerTime (bs1.map (·.1)).flatten)
    (hown : ∀ id, Pipeline.own id (bs1.map (·.1)).flatten = Pipeline.own id (bs2.map (·.1)).flatten) :
    Spec.SameLines Csv.read (d1'.get (args1.o ++ "/" ++ args1.t ++ ".csv")) (d2'.get (args2.o ++ "/" ++ args2.t ++ ".csv")) := by
  obtain ⟨outs1, e1, f1, -, -⟩ := rounds_ok w E _ _ _ _ _ hr1
  obtain ⟨outs2, e2, f2, -, -⟩ := rounds_ok w E _ _ _ _ _ hr2
  rw [Pipeline.rounds_simulation] at e2
  obtain ⟨outs', e3, hp⟩ := Pipeline.rounds_same hreg _ (w.state { c with input := i, simulation := sm } a2) hw1 hw2 ho hown e1
  have := Except.ok.inj (e3.symm.trans e2)
  subst this
  rw [file_of_run hg hnames1 hone1 hshown h1, file_of_run hg hnames2 hone2 hshown h2]
  have hiff : outs1 = [] ↔ outs' = [] := by
    rw [← rounds_nonempty e1, ← rounds_nonempty e2]
    exact ⟨fun h => by rw [h] at hp; exact hp.symm.eq_nil, fun h => by rw [h] at hp; exact hp.eq_nil⟩
  by_cases h0 : outs1 = []
  · left
    have h0' := hiff.1 h0
    subst h0
    subst h0'
    rw [List.forall₂_nil_left_iff.1 f1, List.forall₂_nil_left_iff.1 f2]
    exact ⟨rfl, rfl⟩
  · right
    obtain ⟨t1, g1, k1⟩ := read_results hcols (shown := shown) h0 f1
    obtain ⟨t2, g2, k2⟩ := read_results (hsame ▸ hcols) (shown := shown) (fun h => h0 (hiff.2 h)) f2
    rw [← hsame] at k2
    exact ⟨t1, t2, _, _, _, g1, g2, k1, k2, hp.map _⟩

/-- C85 (chunk size, ephemerides from a file): two runs on the same tables that differ in the chunk size, with or without linking but without random features, leave
files of results with the same header and the same lines, in some order. The tables may be in other files, in another place and with another layout. -/
theorem C85_chunks {w : World G W V} {argv1 argv2 : List Str} {args1 args2 : Cli.Args} {v1 v2 : Bool} (hargs1 : Argv.parseRun argv1 = .ok (args1, v1))
    (hargs2 : Argv.parseRun argv2 = .ok (args2, v2)) {d1 d1' d2 d2' : Disk} {log1 log2 : List Char}
    (h1 : Invoked w argv1 d1 d1' log1 .finished) (h2 : Invoked w argv2 d2 d2' log2 .finished) {c : Config.Cfg} {n : ℤ}
    (hconf1 : Configured w d1 args1 c) (hconf2 : Configured w d2 args2 { c with input := { c.input with chunk := n } })
    (hext : c.input.ephemeridesType = "external") (hcsv : c.output.format = "csv")
    (hg : Cli.Spec.GlobSound w.glob) (hnames1 : History.Spec.NamesDiffer args1) (hnames2 : History.Spec.NamesDiffer args2)
    (hone1 : History.Spec.AtMostOne args1 d1) (hone2 : History.Spec.AtMostOne args2 d2)
    {orb eph : List (Rec Str)} {others : List (List (Rec Str))} (hin1 : Spec.Objects w.ids d1 args1 c orb others)
    (hin2 : Spec.Objects w.ids d2 args2 { c with input := { c.input with chunk := n } } orb others) {pe1 pe2 : String} (her1 : args1.er = some pe1)
    (her2 : args2.er = some pe2) (he1 : Spec.Table w.ids c.input.ephFormat d1 pe1 eph) (he2 : Spec.Table w.ids c.input.ephFormat d2 pe2 eph)
    (ho : Pipeline.Spec.OncePerTime (Spec.observed w.parse eph orb others))
    {shown : Cell → Str} (hshown : w.lines.output = Csv.line shown) (hcols : ∀ a, Accepted w d1 args1 a → 2 ≤ (w.columns c a).length)
    (hsame : ∀ a1 a2, Accepted w d1 args1 a1 → Accepted w d2 args2 a2 → w.columns c a1 = w.columns { c with input := { c.input with chunk := n } } a2)
    (henv : ∀ a1 a2, Accepted w d1 args1 a1 → Accepted w d2 args2 a2 → w.env c a1 (checked w args1 d1) = w.env { c with input := { c.input with chunk := n } } a2 (checked w args2 d2))
    (hreg : ∀ a E, Accepted w d1 args1 a → w.env c a (checked w args1 d1) = some E → Pipeline.Spec.Regular E c) :
    Spec.SameLines Csv.read (d1'.get (args1.o ++ "/" ++ args1.t ++ ".csv")) (d2'.get (args2.o ++ "/" ++ args2.t ++ ".csv")) := by
  obtain ⟨a1, E1, bs1, chunks1, p1, p2, p3, p4, p5⟩ := run_parts hargs1 hconf1 h1
  obtain ⟨a2, E2, bs2, chunks2, q1, q2, q3, q4, q5⟩ := run_parts hargs2 hconf2 h2
  have hE := henv a1 a2 p1 q1
  rw [p2, q2] at hE
  cases hE
  obtain ⟨e1, e2, -, -, e5, -, -, e8⟩ := commandLine_ok p1
  obtain ⟨f1, f2, -, -, f5, -, -, f8⟩ := commandLine_ok q1
  obtain ⟨⟨n1, hn1, hbs1⟩, -⟩ := external_blocks hin1 her1 he1 e1 e2 e5 e8 hext p3
  obtain ⟨⟨n2, hn2, hbs2⟩, -⟩ := external_blocks hin2 her2 he2 f1 f2 f5 f8 hext q3
  have hse : Readers.Spec.StableIds w.ids eph := by
    obtain ⟨_, _, _, _, _, _, h⟩ := he1
    exact h
  have hcons := Objects.consistent hin1
  rw [if_pos hcsv] at p5 q5
  refine same_files (i := { c.input with chunk := n }) (sm := c.simulation) (hreg _ _ p1 p2) hg hnames1 hnames2 hone1 hone2 hshown (hcols a1 p1) (hsame a1 a2 p1 q1) p4 q4 p5 q5 ?_ ?_ ?_ ?_
  · rw [hbs1]; exact (Pipeline.external_split w.parse hcons eph hn1).2
  · rw [hbs2]; exact (Pipeline.external_split w.parse hcons eph hn2).2
  · rw [hbs1]
    have hperm := externalBlocks_perm w.parse hcons hse hn1
    exact fun o h1 o' h2 => ho o (hperm.mem_iff.1 h1) o' (hperm.mem_iff.1 h2)
  · intro id
    rw [hbs1, hbs2, (Pipeline.external_split w.parse hcons eph hn1).1, (Pipeline.external_split w.parse hcons eph hn2).1]

/-- C85 (chunk size, generated ephemerides): the same for two runs that make their ephemerides, if each object's do not depend on the other objects of its chunk. -/
theorem C85_generated_chunks {w : World G W V} {argv1 argv2 : List Str} {args1 args2 : Cli.Args} {v1 v2 : Bool} (hargs1 : Argv.parseRun argv1 = .ok (args1, v1))
    (hargs2 : Argv.parseRun argv2 = .ok (args2, v2)) {d1 d1' d2 d2' : Disk} {log1 log2 : List Char}
    (h1 : Invoked w argv1 d1 d1' log1 .finished) (h2 : Invoked w argv2 d2 d2' log2 .finished) {c : Config.Cfg} {n : ℤ}
    (hconf1 : Configured w d1 args1 c) (hconf2 : Configured w d2 args2 { c with input := { c.input with chunk := n } })
    (hext : c.input.ephemeridesType ≠ "external") (hcsv : c.output.format = "csv")
    (hg : Cli.Spec.GlobSound w.glob) (hnames1 : History.Spec.NamesDiffer args1) (hnames2 : History.Spec.NamesDiffer args2)
    (hone1 : History.Spec.AtMostOne args1 d1) (hone2 : History.Spec.AtMostOne args2 d2)
    {orb : List (Rec Str)} {others : List (List (Rec Str))} (hin1 : Spec.Objects w.ids d1 args1 c orb others)
    (hin2 : Spec.Objects w.ids d2 args2 { c with input := { c.input with chunk := n } } orb others)
    {ephem : List (Rec Str) → List (Pointing.Obs W)} {cull : Rec Str → Bool}
    (hephem1 : ∀ a, Accepted w d1 args1 a → w.ephem c a = ephem ∧ w.cull c a = cull)
    (hephem2 : ∀ a, Accepted w d2 args2 a → w.ephem { c with input := { c.input with chunk := n } } a = ephem ∧ w.cull { c with input := { c.input with chunk := n } } a = cull)
    (hnone : ephem [] = [])
    (halone : ∀ objs, Pipeline.Spec.PartOf orb objs → ∀ id, ((ephem objs).filter fun o => o.obj = id) = ephem (objs.filter fun r => r.id = id))
    (ho : ∀ objs, Pipeline.Spec.PartOf orb objs → Pipeline.Spec.OncePerTime (ephem objs))
    {shown : Cell → Str} (hshown : w.lines.output = Csv.line shown) (hcols : ∀ a, Accepted w d1 args1 a → 2 ≤ (w.columns c a).length)
    (hsame : ∀ a1 a2, Accepted w d1 args1 a1 → Accepted w d2 args2 a2 → w.columns c a1 = w.columns { c with input := { c.input with chunk := n } } a2)
    (henv : ∀ a1 a2, Accepted w d1 args1 a1 → Accepted w d2 args2 a2 → w.env c a1 (checked w args1 d1) = w.env { c with input := { c.input with chunk := n } } a2 (checked w args2 d2))
    (hreg : ∀ a E, Accepted w d1 args1 a → w.env c a (checked w args1 d1) = some E → Pipeline.Spec.Regular E c) :
    Spec.SameLines Csv.read (d1'.get (args1.o ++ "/" ++ args1.t ++ ".csv")) (d2'.get (args2.o ++ "/" ++ args2.t ++ ".csv")) := by
  obtain ⟨a1, E1, bs1, chunks1, p1, p2, p3, p4, p5⟩ := run_parts hargs1 hconf1 h1
  obtain ⟨a2, E2, bs2, chunks2, q1, q2, q3, q4, q5⟩ := run_parts hargs2 hconf2 h2
  have hE := henv a1 a2 p1 q1
  rw [p2, q2] at hE
  cases hE
  obtain ⟨e1, e2, -, -, -, -, -, e8⟩ := commandLine_ok p1
  obtain ⟨f1, f2, -, -, -, -, -, f8⟩ := commandLine_ok q1
  obtain ⟨n1, hn1, hbs1, -⟩ := generated_blocks hin1 (by rw [(hephem1 a1 p1).1]; exact hnone) e1 e2 e8 hext p3
  obtain ⟨n2, hn2, hbs2, -⟩ := generated_blocks hin2 (by rw [(hephem2 a2 q1).1]; exact hnone) f1 f2 f8 hext q3
  unfold keptObjects at hbs1 hbs2
  rw [(hephem1 a1 p1).1, (hephem1 a1 p1).2] at hbs1
  rw [(hephem2 a2 q1).1, (hephem2 a2 q1).2] at hbs2
  have hcons := Objects.consistent hin1
  rw [if_pos hcsv] at p5 q5
  have s1 := Pipeline.generated_split c cull hcons hnone halone hn1
  have s2 := Pipeline.generated_split c cull hcons hnone halone hn2
  refine same_files (i := { c.input with chunk := n }) (sm := c.simulation) (hreg _ _ p1 p2) hg hnames1 hnames2 hone1 hone2 hshown (hcols a1 p1) (hsame a1 a2 p1 q1) p4 q4 p5 q5 ?_ ?_ ?_ ?_
  · rw [hbs1]; exact s1.2
  · rw [hbs2]; exact s2.2
  · rw [hbs1]; exact Pipeline.generated_once c cull hcons hnone halone ho hn1
  · intro id
    rw [hbs1, hbs2]
    exact (s1.1 id).trans (s2.1 id).symm

/-! ## Runs that can finish -/

/-- A run with `-f` whose plan gets to its end can finish. -/
theorem finishes {w : World G W V} {argv : List Str} {args : Cli.Args} {v : Bool} (hargs : Argv.parseRun argv = .ok (args, v)) {d : Disk} (hf : args.f = true)
    (hg : Cli.Spec.GlobSound w.glob) (hnames : History.Spec.NamesDiffer args) (hone : History.Spec.AtMostOne args d) {a : Cli.CmdArgs}
    (hacc : (Cli.commandLine (existing w d) w.isDir w.glob args []).1 = .ok a) {chunks} (hp : plan w a (checked w args d) = .writes .csv chunks true) :
    ∃ d' log, Invoked w argv d d' log .finished := by
  obtain ⟨d', log, h⟩ := History.Props.C65_rerun (ls := w.lines) (js := []) hg (j := ⟨args, .csv, chunks, w.stamp, w.start⟩) hnames (fun i hi => by cases hi) hone
    .nil hf hacc (fun h => by cases h)
  refine ⟨d', log, ?_⟩
  have ha := History.Props.accepted_force hf hacc (fs' := d.paths)
  generalize ho : History.Outcome.finished = out at h
  cases h with
  | refused h => cases ho
  | @ran c s done h he =>
    have h' : (Cli.commandLine (existing w d) w.isDir w.glob args d.paths).1 = .ok c := h
    rw [ha] at h'
    cases h'
    exact Invoked.ran hargs ha hp he

/-! ## Runs that stop -/

/-- A run that has started, whatever becomes of it. -/
theorem any_parts {w : World G W V} {argv : List Str} {d d' : Disk} {log : List Char} {out : History.Outcome} (h : Invoked w argv d d' log out) (hout : out ≠ .refused) :
    ∃ args v a fmt chunks b, Argv.parseRun argv = .ok (args, v) ∧ Accepted w d args a ∧ plan w a (checked w args d) = .writes fmt chunks b ∧
      History.Runs false (existing w d) w.isDir w.glob w.lines ⟨args, fmt, chunks, w.stamp, w.start⟩ d d' log out := by
  cases h with
  | usage h => exact absurd rfl hout
  | refused h hc => exact absurd rfl hout
  | @failed args v a fmt chunks s done h hc hp he =>
    refine ⟨args, v, a, fmt, chunks, false, h, hc, hp, ?_⟩
    have := ends_early (es2 := History.makeIndex a fmt ++ [.log (w.stamp ++ "Sorcha process is completed. ".toList)]) he (by simp)
    rw [← List.append_assoc] at this
    exact History.Runs.ran (j := ⟨args, fmt, chunks, w.stamp, w.start⟩) hc this
  | @ran args v a fmt chunks s done h hc hp he =>
    exact ⟨args, v, a, fmt, chunks, true, h, hc, hp, History.Runs.ran (j := ⟨args, fmt, chunks, w.stamp, w.start⟩) hc he⟩

/-- What a plan writes. -/
theorem plan_any {w : World G W V} {a : Cli.CmdArgs} {d : Disk} {fmt chunks b} (h : plan w a d = .writes fmt chunks b) {t : Str}
    (ht : textAt d a.configfile = some t ∨ textAt d a.configfile = none)
    {c : Config.Cfg} {x : Inputs.Aux} (hc : Ini.configure w.py w.lightCurves w.activities a.surveyname (configLines t) = .ok (c, x)) :
    (fmt = .csv ∧ chunks = []) ∨ ∃ E, w.env c a d = some E ∧ chunks = (rounds w E c a (w.state c a) (observations w c a d).1).1 ∧
      fmt = (if c.output.format = "csv" then .csv else .sqlite) := by
  unfold plan at h
  rcases ht with ht | ht
  · rw [ht] at h
    simp only [hc] at h
    cases he : Cli.execute (fun p => d.paths.contains p) w.isDir (runConfig c) a with
    | error e => rw [he] at h; simp only [Plan.writes.injEq] at h; exact .inl ⟨h.1.symm, h.2.1.symm⟩
    | ok st =>
      rw [he] at h
      cases st with
      | des => cases h
      | rubin =>
        simp only at h
        by_cases ho : c.input.ephFormat = "hdf5" ∨ c.output.format = "hdf5"
        · rw [if_pos ho] at h; cases h
        · rw [if_neg ho] at h
          cases hE : w.env c a d with
          | none => rw [hE] at h; simp only [Plan.writes.injEq] at h; exact .inl ⟨h.1.symm, h.2.1.symm⟩
          | some E =>
            rw [hE] at h
            simp only [Plan.writes.injEq] at h
            exact .inr ⟨E, rfl, h.2.1.symm, h.1.symm⟩
  · rw [ht] at h
    simp only [Plan.writes.injEq] at h
    exact .inl ⟨h.1.symm, h.2.1.symm⟩

/-- The parts of a run that has started. -/
theorem started_parts {w : World G W V} {argv : List Str} {args : Cli.Args} {v : Bool} (hp : Argv.parseRun argv = .ok (args, v)) {d d' : Disk} {c : Config.Cfg}
    (hconf : Configured w d args c) {log : List Char} {out : History.Outcome} (h : Invoked w argv d d' log out) (hout : out ≠ .refused) (hcsv : c.output.format = "csv") :
    ∃ a chunks, Accepted w d args a ∧ History.Runs false (existing w d) w.isDir w.glob w.lines ⟨args, .csv, chunks, w.stamp, w.start⟩ d d' log out ∧
      (chunks = [] ∨ ∃ E, w.env c a (checked w args d) = some E ∧ chunks = (rounds w E c a (w.state c a) (observations w c a (checked w args d)).1).1) := by
  obtain ⟨args', v', a, fmt, chunks, b, h1, h2, h3, h4⟩ := any_parts h hout
  rw [hp] at h1
  cases h1
  obtain ⟨t, x, ht, hx⟩ := hconf
  obtain ⟨-, -, e3, -, -, e6, -, -⟩ := commandLine_ok h2
  have ht' : textAt (checked w args d) a.configfile = some t ∨ textAt (checked w args d) a.configfile = none := by
    cases hc : textAt (checked w args d) a.configfile with
    | none => exact .inr rfl
    | some t' =>
      have := textAt_checked (e3 ▸ hc)
      rw [ht] at this
      cases this
      exact .inl rfl
  rcases plan_any h3 ht' (by rw [e6]; exact hx) with ⟨rfl, rfl⟩ | ⟨E, f1, f2, rfl⟩
  · exact ⟨a, [], h2, h4, .inl rfl⟩
  · rw [if_pos hcsv] at h4
    exact ⟨a, chunks, h2, h4, .inr ⟨E, f1, f2⟩⟩

/-- The file of results of a run that was stopped. -/
theorem part_file {w : World G W V} {args : Cli.Args} {d d' : Disk} {c : Config.Cfg} {a : Cli.CmdArgs} {E : Pipeline.Env G W V} {bs} {log : List Char}
    {out : History.Outcome} (hg : Cli.Spec.GlobSound w.glob) (hnames : History.Spec.NamesDiffer args) (hone : History.Spec.AtMostOne args d)
    {shown : Cell → Str} (hshown : w.lines.output = Csv.line shown) (hcols : 2 ≤ (w.columns c a).length)
    (hdet : Pipeline.Spec.Deterministic c) (hlink : c.linking.ssp = none) (hsort : ∀ l, (E.sortIndex l).Perm l)
    (h : History.Runs false (existing w d) w.isDir w.glob w.lines ⟨args, .csv, (rounds w E c a (w.state c a) bs).1, w.stamp, w.start⟩ d d' log out) (hout : out ≠ .refused)
    {all : List (List (Pointing.Obs W))} (hbs : bs.map (·.1) <+: all) {obs : List (Pointing.Obs W)} (hobs : all.flatten.Perm obs) :
    Spec.PartFile w.dist shown Csv.read c (w.columns c a) (fun r => w.cells ⟨r, none⟩) (Pipeline.Spec.survivors E c obs)
      (d'.get (args.o ++ "/" ++ args.t ++ ".csv")) := by
  obtain ⟨k, outs, e1, e2⟩ := rounds_part w E c a bs (w.state c a)
  obtain ⟨h3, h4⟩ := rounds_survivors hsort hdet hlink e1
  have hsub : (outs.flatten.map (·.row)).Subperm (Pipeline.Spec.survivors E c obs) := by
    refine h3.subperm.trans (List.Subperm.trans ?_ (survivors_perm E c hobs).subperm)
    obtain ⟨rest, hrest⟩ := (List.take_prefix k (bs.map (·.1))).trans hbs
    rw [← hrest, List.flatten_append, survivors_append]
    exact (List.sublist_append_left _ _).subperm
  cases hgs : (rounds w E c a (w.state c a) bs).1.filterMap fun c => c.results.map (·.1) with
  | nil =>
    left
    have := (History.Props.C65_interrupted (js := []) hg (j := ⟨args, .csv, (rounds w E c a (w.state c a) bs).1, w.stamp, w.start⟩) hnames (fun i hi => by cases hi)
      hone .nil h hout).1 rfl
    rw [show History.Spec.results ⟨args, .csv, (rounds w E c a (w.state c a) bs).1, w.stamp, w.start⟩ = [] from hgs] at this
    rcases this with h0 | ⟨s, t, -, h0, -⟩
    · exact h0
    · cases h0
  | cons g gs =>
    rw [hgs] at e2
    obtain ⟨l1, l2⟩ := lines_results hcols shown e2
    have hfile := Csv.Props.C83_interrupted (js := []) hg (j := ⟨args, .csv, (rounds w E c a (w.state c a) bs).1, w.stamp, w.start⟩) hnames (fun i hi => by cases hi)
      hone .nil h hout (f := g) (fs := gs) (by rw [← hgs]; exact .results rfl) hshown l2
    rcases hfile with h0 | ⟨t, h0, h5⟩
    · exact .inl h0
    · right
      refine ⟨t, h0, ?_⟩
      rcases h5 with h5 | ⟨done, rest, h6, h7⟩
      · exact .inl h5
      · right
        refine ⟨outs.flatten.map (·.row), outs.flatten.map fun f => outLine w.dist (outConfig c) (w.columns c a) (w.cells f), done, rest, hsub, ?_, ?_, h7⟩
        · rw [List.forall₂_map_left_iff, List.forall₂_map_right_iff, List.forall₂_same]
          intro f hf
          have : (⟨f.row, none⟩ : Pipeline.Final W V) = f := by
            have := h4 f hf
            cases f
            simp_all
          show Spec.LineOf _ _ _ (w.cells ⟨f.row, none⟩) _
          rw [this]
          exact outLine_spec _ _ _ _
        · rw [← h6, l1, List.map_map]
          rfl

/-- C85 (runs that fail or are stopped, ephemerides from a file): however a run ends that the checks of the command line have let start, each complete line that is read
from its file of results belongs to a row that passes all filters, and no row has more than one. -/
theorem C85_stopped {w : World G W V} {argv : List Str} {args : Cli.Args} {v : Bool} (hargs : Argv.parseRun argv = .ok (args, v)) {d d' : Disk} {log : List Char}
    {out : History.Outcome} (h : Invoked w argv d d' log out) (hout : out ≠ .refused) {c : Config.Cfg} (hconf : Configured w d args c)
    (hext : c.input.ephemeridesType = "external") (hcsv : c.output.format = "csv") (hdet : Pipeline.Spec.Deterministic c) (hlink : c.linking.ssp = none)
    (hg : Cli.Spec.GlobSound w.glob) (hnames : History.Spec.NamesDiffer args) (hone : History.Spec.AtMostOne args d)
    {orb eph : List (Rec Str)} {others : List (List (Rec Str))} (hin : Spec.Objects w.ids d args c orb others) {pe : String} (her : args.er = some pe)
    (he : Spec.Table w.ids c.input.ephFormat d pe eph)
    {shown : Cell → Str} (hshown : w.lines.output = Csv.line shown) (hcols : ∀ a, Accepted w d args a → 2 ≤ (w.columns c a).length)
    (hsort : ∀ a E, Accepted w d args a → w.env c a (checked w args d) = some E → ∀ l, (E.sortIndex l).Perm l) :
    d'.get (args.o ++ "/" ++ args.t ++ ".csv") = none ∨ ∃ a E, Accepted w d args a ∧ w.env c a (checked w args d) = some E ∧
      Spec.PartFile w.dist shown Csv.read c (w.columns c a) (fun r => w.cells ⟨r, none⟩) (Pipeline.Spec.survivors E c (Spec.observed w.parse eph orb others))
        (d'.get (args.o ++ "/" ++ args.t ++ ".csv")) := by
  obtain ⟨a, chunks, h1, h2, h3⟩ := started_parts hargs hconf h hout hcsv
  rcases h3 with rfl | ⟨E, h3, rfl⟩
  · left
    rcases (History.Props.C65_interrupted (js := []) hg (j := ⟨args, .csv, [], w.stamp, w.start⟩) hnames (fun i hi => by cases hi) hone .nil h2 hout).1 rfl
      with h0 | ⟨s, t, -, h0, -⟩
    · exact h0
    · cases h0
  · right
    obtain ⟨e1, e2, -, -, e5, -, -, e8⟩ := commandLine_ok h1
    obtain ⟨n, hn, hbs⟩ := external_prefix hin her he e1 e2 e5 e8 hext
    have hse : Readers.Spec.StableIds w.ids eph := by
      obtain ⟨_, _, _, _, _, _, h⟩ := he
      exact h
    exact ⟨a, E, h1, h3, part_file hg hnames hone hshown (hcols a h1) hdet hlink (hsort a E h1 h3) h2 hout hbs
      (externalBlocks_perm w.parse (Objects.consistent hin) hse hn)⟩

/-- C85 (runs that fail or are stopped, generated ephemerides). -/
theorem C85_generated_stopped {w : World G W V} {argv : List Str} {args : Cli.Args} {v : Bool} (hargs : Argv.parseRun argv = .ok (args, v)) {d d' : Disk} {log : List Char}
    {out : History.Outcome} (h : Invoked w argv d d' log out) (hout : out ≠ .refused) {c : Config.Cfg} (hconf : Configured w d args c)
    (hext : c.input.ephemeridesType ≠ "external") (hcsv : c.output.format = "csv") (hdet : Pipeline.Spec.Deterministic c) (hlink : c.linking.ssp = none)
    (hg : Cli.Spec.GlobSound w.glob) (hnames : History.Spec.NamesDiffer args) (hone : History.Spec.AtMostOne args d)
    {orb : List (Rec Str)} {others : List (List (Rec Str))} (hin : Spec.Objects w.ids d args c orb others)
    (halone : ∀ a, Accepted w d args a → ∀ objs, Pipeline.Spec.PartOf orb objs → (w.ephem c a objs).Perm (objs.flatMap fun r => w.ephem c a [r]))
    {shown : Cell → Str} (hshown : w.lines.output = Csv.line shown) (hcols : ∀ a, Accepted w d args a → 2 ≤ (w.columns c a).length)
    (hsort : ∀ a E, Accepted w d args a → w.env c a (checked w args d) = some E → ∀ l, (E.sortIndex l).Perm l) :
    d'.get (args.o ++ "/" ++ args.t ++ ".csv") = none ∨ ∃ a E, Accepted w d args a ∧ w.env c a (checked w args d) = some E ∧
      Spec.PartFile w.dist shown Csv.read c (w.columns c a) (fun r => w.cells ⟨r, none⟩)
        (Pipeline.Spec.survivors E c ((Spec.bright c (w.cull c a) orb others).flatMap fun r => w.ephem c a [r]))
        (d'.get (args.o ++ "/" ++ args.t ++ ".csv")) := by
  obtain ⟨a, chunks, h1, h2, h3⟩ := started_parts hargs hconf h hout hcsv
  rcases h3 with rfl | ⟨E, h3, rfl⟩
  · left
    rcases (History.Props.C65_interrupted (js := []) hg (j := ⟨args, .csv, [], w.stamp, w.start⟩) hnames (fun i hi => by cases hi) hone .nil h2 hout).1 rfl
      with h0 | ⟨s, t, -, h0, -⟩
    · exact h0
    · cases h0
  · right
    obtain ⟨e1, e2, -, -, -, -, -, e8⟩ := commandLine_ok h1
    obtain ⟨n, hn, hbs⟩ := generated_prefix hin (List.perm_nil.1 (halone a h1 [] ⟨List.nodup_nil, fun _ h => by cases h⟩)) e1 e2 e8 hext
    exact ⟨a, E, h1, h3, part_file hg hnames hone hshown (hcols a h1) hdet hlink (hsort a E h1 h3) h2 hout hbs (generatedBlocks_perm hin.unique (halone a h1) hn)⟩

/-- C85 (the other files): however a run ends that has started, all files that are no outputs of it, like its inputs, are as before. -/
theorem C85_others {w : World G W V} {argv : List Str} {args : Cli.Args} {v : Bool} (hargs : Argv.parseRun argv = .ok (args, v)) {d d' : Disk} {log : List Char}
    {out : History.Outcome} (h : Invoked w argv d d' log out) (hout : out ≠ .refused) (hg : Cli.Spec.GlobSound w.glob) (hnames : History.Spec.NamesDiffer args)
    (hone : History.Spec.AtMostOne args d) (p : String) (hr : ¬ History.Spec.IsResults args p) (he : ¬ History.Spec.IsEphemeris args p)
    (hs : ¬ History.Spec.IsStats args p) : d'.get p = d.get p := by
  obtain ⟨args', v', a, fmt, chunks, b, h1, h2, h3, h4⟩ := any_parts h hout
  rw [hargs] at h1
  cases h1
  exact (History.Props.C65_interrupted (js := []) hg (j := ⟨args, fmt, chunks, w.stamp, w.start⟩) hnames (fun i hi => by cases hi) hone .nil h4 hout).2.2.2.2 p hr he hs

end Sorcha.Whole.Props
