import Verif.Whole.DesLemmas

/-!
# Properties: `sorcha run -s DES`, from the command line to the results (C91)
-/

namespace Sorcha.Whole.Props

open Sorcha.Csv (Str)
open Sorcha.Readers (Rec IdParse)
open Sorcha.History (Disk Chunk)
open Sorcha.Output (Cell)
open Sorcha.Pipeline (Row own)
open Sorcha.DesRun (Env)
open Sorcha.DesRun.Spec (survivors kept Discoveries Deterministic Sound Sensible)

variable {G W V : Type}

/-! ## The parts of a run -/

/-- The survey of the command is DES. -/
def IsDes (args : Cli.Args) : Prop := args.s = "DES" ∨ args.s = "des"

theorem execute_des {isFile isDir : String → Bool} {cfg : Cli.RunConfig} {a : Cli.CmdArgs} (h : a.surveyname = "DES" ∨ a.surveyname = "des") :
    Cli.execute isFile isDir cfg a ≠ .ok .rubin := by
  intro he
  have h1 : ¬ (a.surveyname = "rubin_sim" ∨ a.surveyname = "RUBIN_SIM") := by rcases h with h | h <;> rw [h] <;> decide
  have h2 : ¬ (a.surveyname = "LSST" ∨ a.surveyname = "lsst") := by rcases h with h | h <;> rw [h] <;> decide
  unfold Cli.execute at he
  rw [if_neg h1, if_neg h2, if_pos h] at he
  simp only [bind, Except.bind] at he
  split at he
  · cases he
  · split at he
    · cases he
    · split at he
      · cases he
      · split at he
        · cases he
        · split at he
          · cases he
          · split at he
            · cases he
            · cases he

theorem execute_rubin {isFile isDir : String → Bool} {cfg : Cli.RunConfig} {a : Cli.CmdArgs} (h : ¬ (a.surveyname = "DES" ∨ a.surveyname = "des")) :
    Cli.execute isFile isDir cfg a ≠ .ok .des := by
  intro he
  unfold Cli.execute at he
  rw [if_neg h] at he
  simp only [bind, Except.bind] at he
  split at he
  · cases he
  · split at he
    · cases he
    · split at he
      · cases he
      · split at he
        · cases he
        · split at he
          · cases he
          · split_ifs at he
            split at he <;> cases he

/-- The other runs are the Rubin runs of C85. -/
theorem desPlan_rubin {w : DesWorld G W V} {a : Cli.CmdArgs} {d : Disk} (h : ¬ (a.surveyname = "DES" ∨ a.surveyname = "des")) : desPlan w a d = plan w.base a d := by
  unfold desPlan
  cases ht : textAt d a.configfile with
  | none => simp only [plan, ht]
  | some t =>
    simp only
    cases hc : Ini.configure w.base.py w.base.lightCurves w.base.activities a.surveyname (configLines t) with
    | error e => simp only [plan, ht, hc]
    | ok x =>
      obtain ⟨c, y⟩ := x
      simp only
      cases he : Cli.execute (fun p => d.paths.contains p) w.base.isDir (runConfig c) a with
      | error e => simp only [plan, ht, hc, he]
      | ok st =>
        cases st with
        | des => exact absurd he (execute_rubin h)
        | rubin => rfl

theorem des_any_parts {w : DesWorld G W V} {argv : List Str} {d d' : Disk} {log : List Char} {out : History.Outcome} (h : DesInvoked w argv d d' log out)
    (hout : out ≠ .refused) :
    ∃ args v a fmt chunks b, Argv.parseRun argv = .ok (args, v) ∧ Accepted w.base d args a ∧ desPlan w a (checked w.base args d) = .writes fmt chunks b ∧
      (out = .finished → b = true) ∧
      History.Runs false (existing w.base d) w.base.isDir w.base.glob w.base.lines ⟨args, fmt, chunks, w.base.stamp, w.base.start⟩ d d' log out := by
  cases h with
  | usage h => exact absurd rfl hout
  | refused h hc => exact absurd rfl hout
  | @failed args v a fmt chunks s done h hc hp he =>
    refine ⟨args, v, a, fmt, chunks, false, h, hc, hp, (fun h => by cases h), ?_⟩
    have := ends_early (es2 := History.makeIndex a fmt ++ [.log (w.base.stamp ++ "Sorcha process is completed. ".toList)]) he (by simp)
    rw [← List.append_assoc] at this
    exact History.Runs.ran (j := ⟨args, fmt, chunks, w.base.stamp, w.base.start⟩) hc this
  | @ran args v a fmt chunks s done h hc hp he =>
    exact ⟨args, v, a, fmt, chunks, true, h, hc, hp, fun _ => rfl, History.Runs.ran (j := ⟨args, fmt, chunks, w.base.stamp, w.base.start⟩) hc he⟩

theorem desPlan_any {w : DesWorld G W V} {a : Cli.CmdArgs} {d : Disk} {fmt chunks b} (hdes : a.surveyname = "DES" ∨ a.surveyname = "des")
    (h : desPlan w a d = .writes fmt chunks b) {t : Str}
    (ht : textAt d a.configfile = some t ∨ textAt d a.configfile = none)
    {c : Config.Cfg} {x : Inputs.Aux} (hc : Ini.configure w.base.py w.base.lightCurves w.base.activities a.surveyname (configLines t) = .ok (c, x)) :
    (fmt = .csv ∧ chunks = [] ∧ b = false) ∨ ∃ E, w.env c a d = some E ∧ chunks = (desRounds w E c a (w.base.state c a) (observations w.base c a d).1).1 ∧
      fmt = (if c.output.format = "csv" then .csv else .sqlite) ∧
      (b = true → (observations w.base c a d).2 = true ∧ (desRounds w E c a (w.base.state c a) (observations w.base c a d).1).2 = true) := by
  unfold desPlan at h
  rcases ht with ht | ht
  · rw [ht] at h
    simp only [hc] at h
    cases he : Cli.execute (fun p => d.paths.contains p) w.base.isDir (runConfig c) a with
    | error e => rw [he] at h; simp only [Plan.writes.injEq] at h; exact .inl ⟨h.1.symm, h.2.1.symm, h.2.2.symm⟩
    | ok st =>
      rw [he] at h
      cases st with
      | rubin => exact absurd he (execute_des hdes)
      | des =>
        simp only at h
        by_cases ho : c.input.ephFormat = "hdf5" ∨ c.output.format = "hdf5" ∨ (c.linking.ssp.isSome = true ∧ a.stats.isSome = true)
        · rw [if_pos ho] at h; cases h
        · rw [if_neg ho] at h
          cases hE : w.env c a d with
          | none => rw [hE] at h; simp only [Plan.writes.injEq] at h; exact .inl ⟨h.1.symm, h.2.1.symm, h.2.2.symm⟩
          | some E =>
            rw [hE] at h
            simp only [Plan.writes.injEq] at h
            refine .inr ⟨E, rfl, h.2.1.symm, h.1.symm, ?_⟩
            intro hb
            rw [hb, Bool.and_eq_true] at h
            exact h.2.2
  · rw [ht] at h
    simp only [Plan.writes.injEq] at h
    exact .inl ⟨h.1.symm, h.2.1.symm, h.2.2.symm⟩

/-- The parts of a run that has started. -/
theorem des_parts {w : DesWorld G W V} {argv : List Str} {args : Cli.Args} {v : Bool} (hp : Argv.parseRun argv = .ok (args, v)) (hdes : IsDes args) {d d' : Disk}
    {c : Config.Cfg} (hconf : Configured w.base d args c) {log : List Char} {out : History.Outcome} (h : DesInvoked w argv d d' log out) (hout : out ≠ .refused) :
    ∃ a fmt chunks, Accepted w.base d args a ∧
      History.Runs false (existing w.base d) w.base.isDir w.base.glob w.base.lines ⟨args, fmt, chunks, w.base.stamp, w.base.start⟩ d d' log out ∧
      ((fmt = .csv ∧ chunks = [] ∧ out ≠ .finished) ∨ ∃ E, w.env c a (checked w.base args d) = some E ∧
        fmt = (if c.output.format = "csv" then .csv else .sqlite) ∧
        chunks = (desRounds w E c a (w.base.state c a) (observations w.base c a (checked w.base args d)).1).1 ∧
        (out = .finished → (observations w.base c a (checked w.base args d)).2 = true ∧
          (desRounds w E c a (w.base.state c a) (observations w.base c a (checked w.base args d)).1).2 = true)) := by
  obtain ⟨args', v', a, fmt, chunks, b, h1, h2, h3, hb, h4⟩ := des_any_parts h hout
  rw [hp] at h1
  cases h1
  obtain ⟨t, x, ht, hx⟩ := hconf
  obtain ⟨-, -, e3, -, -, e6, -, -⟩ := commandLine_ok h2
  have ht' : textAt (checked w.base args d) a.configfile = some t ∨ textAt (checked w.base args d) a.configfile = none := by
    cases hc : textAt (checked w.base args d) a.configfile with
    | none => exact .inr rfl
    | some t' =>
      have := textAt_checked (e3 ▸ hc)
      rw [ht] at this
      cases this
      exact .inl rfl
  refine ⟨a, fmt, chunks, h2, h4, ?_⟩
  rcases desPlan_any (by rw [e6]; exact hdes) h3 ht' (by rw [e6]; exact hx) with ⟨rfl, rfl, rfl⟩ | ⟨E, f1, f2, f3, f4⟩
  · exact .inl ⟨rfl, rfl, fun h => by cases hb h⟩
  · exact .inr ⟨E, f1, f3, f2, fun h => f4 (hb h)⟩

/-! ## The observations -/

/-- The rounds of a run that has read everything: each object is in one of them, with all its observations. -/
theorem observes_blocks {w : World G W V} {args : Cli.Args} {d : Disk} {c : Config.Cfg} {a : Cli.CmdArgs} {orb : List (Rec Str)} {others : List (List (Rec Str))}
    (hin : Spec.Objects w.ids d args c orb others) (hacc : Accepted w d args a) {obs : List (Pointing.Obs W)} (hobs : Observes w d args c a orb others obs)
    {bs} (h : observations w c a (checked w args d) = (bs, true)) :
    Pipeline.Spec.Whole (bs.map (·.1)) ∧ ∀ id, own id (bs.map (·.1)).flatten = own id obs := by
  obtain ⟨e1, e2, -, -, e5, -, -, e8⟩ := commandLine_ok hacc
  have hcons := Objects.consistent hin
  rcases hobs with ⟨hext, pe, eph, her, he, rfl⟩ | ⟨hext, halone, rfl⟩
  · obtain ⟨⟨n, hn, hbs⟩, -⟩ := external_blocks hin her he e1 e2 e5 e8 hext h
    rw [hbs]
    exact ⟨(Pipeline.external_split w.parse hcons eph hn).2, fun id => by rw [(Pipeline.external_split w.parse hcons eph hn).1, observed_own]⟩
  · obtain ⟨n, hn, hbs, -⟩ := generated_blocks hin (EachAlone.none halone) e1 e2 e8 hext h
    rw [hbs]
    have hs := Pipeline.generated_split c (w.cull c a) hcons (EachAlone.none halone) halone hn
    exact ⟨hs.2, fun id => by rw [bright_own c (w.cull c a) halone hin.unique, ← hs.1]; rfl⟩

/-- The rounds of any run are the first of such rounds. -/
theorem observes_prefix {w : World G W V} {args : Cli.Args} {d : Disk} {c : Config.Cfg} {a : Cli.CmdArgs} {orb : List (Rec Str)} {others : List (List (Rec Str))}
    (hin : Spec.Objects w.ids d args c orb others) (hacc : Accepted w d args a) {obs : List (Pointing.Obs W)} (hobs : Observes w d args c a orb others obs) :
    ∃ all : List (List (Pointing.Obs W)), (observations w c a (checked w args d)).1.map (·.1) <+: all ∧ ∀ id, own id all.flatten = own id obs := by
  obtain ⟨e1, e2, -, -, e5, -, -, e8⟩ := commandLine_ok hacc
  have hcons := Objects.consistent hin
  rcases hobs with ⟨hext, pe, eph, her, he, rfl⟩ | ⟨hext, halone, rfl⟩
  · obtain ⟨n, hn, hbs⟩ := external_prefix hin her he e1 e2 e5 e8 hext
    exact ⟨_, hbs, fun id => by rw [(Pipeline.external_split w.parse hcons eph hn).1, observed_own]⟩
  · obtain ⟨n, hn, hbs⟩ := generated_prefix hin (EachAlone.none halone) e1 e2 e8 hext
    have hs := Pipeline.generated_split c (w.cull c a) hcons (EachAlone.none halone) halone hn
    exact ⟨_, hbs, fun id => by rw [bright_own c (w.cull c a) halone hin.unique, ← hs.1]; rfl⟩

theorem perm_of_own {l m : List (Pointing.Obs W)} (h : ∀ id, own id l = own id m) : l.Perm m :=
  Pipeline.perm_of_filters (fun o : Pointing.Obs W => o.obj) l m fun id => List.Perm.of_eq (h id)

/-! ## The results -/

theorem at_csv {args : Cli.Args} {c : Config.Cfg} (h : c.output.format = "csv") : Spec.resultsAt args c = args.o ++ "/" ++ args.t ++ ".csv" := by
  unfold Spec.resultsAt; rw [if_pos h]

theorem at_db {args : Cli.Args} {c : Config.Cfg} (h : c.output.format ≠ "csv") : Spec.resultsAt args c = args.o ++ "/" ++ args.t ++ ".db" := by
  unfold Spec.resultsAt; rw [if_neg h]

/-- The place of the results of a run that has finished. -/
theorem des_results {w : DesWorld G W V} {args : Cli.Args} {d d' : Disk} {c : Config.Cfg} {a : Cli.CmdArgs} {chunks} {log : List Char}
    (hg : Cli.Spec.GlobSound w.base.glob) (hnames : History.Spec.NamesDiffer args) (hone : History.Spec.AtMostOne args d)
    {shown : Cell → Str} (hshown : w.base.lines.output = Csv.line shown) (hcols : c.output.format = "csv" → 2 ≤ (w.columns c a).length)
    (h : History.Runs false (existing w.base d) w.base.isDir w.base.glob w.base.lines
        ⟨args, if c.output.format = "csv" then .csv else .sqlite, chunks, w.base.stamp, w.base.start⟩ d d' log .finished)
    {outs : List (List (Row W V))} (hne : outs.flatten = [] ↔ outs = [])
    (h2 : List.Forall₂ (fun out g => Output.outputFrame w.base.dist (outConfig c) ⟨w.columns c a, out.map w.cells⟩ = .ok g) outs
        (chunks.filterMap fun c => c.results.map (·.1))) {rows : List (Row W V)} (hp : outs.flatten.Perm rows) :
    Spec.Results w.base.dist shown Csv.read c (w.columns c a) w.cells rows (d'.get (Spec.resultsAt args c)) := by
  have hrows : outs ≠ [] → rows ≠ [] := by
    intro ho h0
    rw [h0] at hp
    exact ho (hne.1 hp.eq_nil)
  constructor
  · intro hcsv
    rw [at_csv hcsv]
    rw [if_pos hcsv] at h
    rw [file_of_run hg hnames hone hshown h]
    by_cases ho : outs = []
    · left
      subst ho
      rw [List.forall₂_nil_left_iff.1 h2]
      exact ⟨List.Perm.eq_nil hp.symm, rfl⟩
    · right
      refine ⟨hrows ho, ?_⟩
      obtain ⟨t, e1, e2⟩ := read_results (hcols hcsv) (shown := shown) ho h2
      refine ⟨t, outs.flatten, outs.flatten.map fun f => outLine w.base.dist (outConfig c) (w.columns c a) (w.cells f), e1, hp, ?_, ?_⟩
      · rw [List.forall₂_map_right_iff, List.forall₂_same]
        intro f _
        exact outLine_spec _ _ _ _
      · rw [e2, List.map_map]
        rfl
  · intro hdb
    rw [at_db hdb]
    rw [if_neg hdb] at h
    rw [db_of_run hg hnames hone h]
    by_cases ho : outs = []
    · left
      subst ho
      rw [List.forall₂_nil_left_iff.1 h2]
      exact ⟨List.Perm.eq_nil hp.symm, rfl⟩
    · right
      refine ⟨hrows ho, outs.flatten, outs.flatten.map fun f => dbLine w.base.dist c (w.columns c a) (w.cells f), hp, ?_, dbOf_some (table_results ho h2)⟩
      rw [List.forall₂_map_right_iff, List.forall₂_same]
      intro f _
      exact dbLine_spec _ _ _ _

/-- C91 (what the results hold): let `sorcha run` finish for DES, with CSV or sqlite output, whatever its settings: with random features or the visits footprint too. Its
input files are texts of tables that list the same objects. The results then have one line for each of the rows of a list in which each row is of a visit and an
observation of the run, in view and within the limits, and there once, moves as it should and is of an object at the right distance; with the discovery filter the rows of
its object meet the rule of the survey. -/
theorem C91_results {w : DesWorld G W V} {argv : List Str} {args : Cli.Args} {v : Bool} (hargs : Argv.parseRun argv = .ok (args, v)) (hdes : IsDes args)
    {d d' : Disk} {log : List Char} (h : DesInvoked w argv d d' log .finished) {c : Config.Cfg} (hconf : Configured w.base d args c) (hL : Sensible c)
    (hg : Cli.Spec.GlobSound w.base.glob) (hnames : History.Spec.NamesDiffer args) (hone : History.Spec.AtMostOne args d)
    {orb : List (Rec Str)} {others : List (List (Rec Str))} (hin : Spec.Objects w.base.ids d args c orb others)
    {obs : Cli.CmdArgs → List (Pointing.Obs W)} (hobs : ∀ a, Accepted w.base d args a → Observes w.base d args c a orb others (obs a))
    {shown : Cell → Str} (hshown : w.base.lines.output = Csv.line shown) (hcols : ∀ a, Accepted w.base d args a → c.output.format = "csv" → 2 ≤ (w.columns c a).length)
    (hS : ∀ a E, Accepted w.base d args a → w.env c a (checked w.base args d) = some E → Sound E c (obs a)) :
    ∃ a E rows, Accepted w.base d args a ∧ w.env c a (checked w.base args d) = some E ∧ Spec.Passed E c (obs a) rows ∧
      Spec.Results w.base.dist shown Csv.read c (w.columns c a) w.cells rows (d'.get (Spec.resultsAt args c)) := by
  obtain ⟨a, fmt, chunks, h1, h2, h3⟩ := des_parts hargs hdes hconf h (by simp)
  rcases h3 with ⟨-, -, h0⟩ | ⟨E, hE, rfl, rfl, hfin⟩
  · exact absurd rfl h0
  · obtain ⟨f1, f2⟩ := hfin rfl
    obtain ⟨outs, g1, g2, -, -⟩ := desRounds_ok w E c a _ _ _ (Prod.ext rfl f2)
    obtain ⟨-, hown⟩ := observes_blocks hin h1 (hobs a h1) (Prod.ext rfl f1)
    have hperm := perm_of_own hown
    have hsound : ∀ b ∈ (observations w.base c a (checked w.base args d)).1.map (·.1), Sound E c b := fun b hb =>
      Sound.mono (hS a E h1 hE) fun o ho => hperm.mem_iff.1 (List.mem_flatten.2 ⟨b, hb, ho⟩)
    exact ⟨a, E, outs.flatten, h1, hE, Passed.mono (rounds_passed hL hsound g1) hperm.subperm,
      des_results hg hnames hone hshown (hcols a h1) h2 (des_nonempty g1) g2 (List.Perm.refl _)⟩

/-- C91 (exactly): without random features and the visits footprint, the rows are, whatever the chunk size, those of all rows in view and within the limits that are kept by
the distance and motion cuts; with the discovery filter, those of them that belong to discovered objects. -/
theorem C91_exact {w : DesWorld G W V} {argv : List Str} {args : Cli.Args} {v : Bool} (hargs : Argv.parseRun argv = .ok (args, v)) (hdes : IsDes args)
    {d d' : Disk} {log : List Char} (h : DesInvoked w argv d d' log .finished) {c : Config.Cfg} (hconf : Configured w.base d args c) (hL : Sensible c)
    (hdet : Deterministic c) (hg : Cli.Spec.GlobSound w.base.glob) (hnames : History.Spec.NamesDiffer args) (hone : History.Spec.AtMostOne args d)
    {orb : List (Rec Str)} {others : List (List (Rec Str))} (hin : Spec.Objects w.base.ids d args c orb others)
    {obs : Cli.CmdArgs → List (Pointing.Obs W)} (hobs : ∀ a, Accepted w.base d args a → Observes w.base d args c a orb others (obs a))
    {shown : Cell → Str} (hshown : w.base.lines.output = Csv.line shown) (hcols : ∀ a, Accepted w.base d args a → c.output.format = "csv" → 2 ≤ (w.columns c a).length)
    (hS : ∀ a E, Accepted w.base d args a → w.env c a (checked w.base args d) = some E → (∀ l, (E.base.sortIndex l).Perm l) ∧ Des.Spec.SortSound E.sortTime) :
    ∃ a E rows, Accepted w.base d args a ∧ w.env c a (checked w.base args d) = some E ∧
      (c.linking.desDiscovery.on = false → rows = kept c (survivors E c (obs a))) ∧ (c.linking.desDiscovery.on = true → Discoveries (kept c (survivors E c (obs a))) rows) ∧
      Spec.Results w.base.dist shown Csv.read c (w.columns c a) w.cells rows (d'.get (Spec.resultsAt args c)) := by
  obtain ⟨a, fmt, chunks, h1, h2, h3⟩ := des_parts hargs hdes hconf h (by simp)
  rcases h3 with ⟨-, -, h0⟩ | ⟨E, hE, rfl, rfl, hfin⟩
  · exact absurd rfl h0
  · obtain ⟨f1, f2⟩ := hfin rfl
    obtain ⟨outs, g1, g2, -, -⟩ := desRounds_ok w E c a _ _ _ (Prod.ext rfl f2)
    obtain ⟨hw, hown⟩ := observes_blocks hin h1 (hobs a h1) (Prod.ext rfl f1)
    obtain ⟨hs, ht⟩ := hS a E h1 hE
    obtain ⟨rows, k1, k2, k3⟩ := rounds_finish hdet hs ht hL hw hown g1
    exact ⟨a, E, rows, h1, hE, k2, k3, des_results hg hnames hone hshown (hcols a h1) h2 (des_nonempty g1) g2 k1⟩

/-- C91 (chunk size): two DES runs on the same tables, without random features and the visits footprint, that differ in the chunk size leave results with the same lines, in
some order. The tables may be in other files, in another place and with another layout. -/
theorem C91_chunks {w : DesWorld G W V} {argv1 argv2 : List Str} {args1 args2 : Cli.Args} {v1 v2 : Bool} (hargs1 : Argv.parseRun argv1 = .ok (args1, v1))
    (hargs2 : Argv.parseRun argv2 = .ok (args2, v2)) (hdes1 : IsDes args1) (hdes2 : IsDes args2) {d1 d1' d2 d2' : Disk} {log1 log2 : List Char}
    (h1 : DesInvoked w argv1 d1 d1' log1 .finished) (h2 : DesInvoked w argv2 d2 d2' log2 .finished) {c : Config.Cfg} {n : ℤ}
    (hconf1 : Configured w.base d1 args1 c) (hconf2 : Configured w.base d2 args2 { c with input := { c.input with chunk := n } }) (hdet : Deterministic c)
    (hg : Cli.Spec.GlobSound w.base.glob) (hnames1 : History.Spec.NamesDiffer args1) (hnames2 : History.Spec.NamesDiffer args2)
    (hone1 : History.Spec.AtMostOne args1 d1) (hone2 : History.Spec.AtMostOne args2 d2)
    {orb : List (Rec Str)} {others : List (List (Rec Str))} (hin1 : Spec.Objects w.base.ids d1 args1 c orb others)
    (hin2 : Spec.Objects w.base.ids d2 args2 { c with input := { c.input with chunk := n } } orb others) {obs : List (Pointing.Obs W)}
    (hobs1 : ∀ a, Accepted w.base d1 args1 a → Observes w.base d1 args1 c a orb others obs)
    (hobs2 : ∀ a, Accepted w.base d2 args2 a → Observes w.base d2 args2 { c with input := { c.input with chunk := n } } a orb others obs)
    {shown : Cell → Str} (hshown : w.base.lines.output = Csv.line shown) (hcols : ∀ a, Accepted w.base d1 args1 a → c.output.format = "csv" → 2 ≤ (w.columns c a).length)
    (hsame : ∀ a1 a2, Accepted w.base d1 args1 a1 → Accepted w.base d2 args2 a2 → w.columns c a1 = w.columns { c with input := { c.input with chunk := n } } a2)
    (henv : ∀ a1 a2, Accepted w.base d1 args1 a1 → Accepted w.base d2 args2 a2 →
      w.env c a1 (checked w.base args1 d1) = w.env { c with input := { c.input with chunk := n } } a2 (checked w.base args2 d2))
    (hS : ∀ a E, Accepted w.base d1 args1 a → w.env c a (checked w.base args1 d1) = some E → (∀ l, (E.base.sortIndex l).Perm l) ∧ Des.Spec.SortSound E.sortTime) :
    Spec.SameResults c Csv.read (d1'.get (Spec.resultsAt args1 c)) (d2'.get (Spec.resultsAt args2 c)) := by
  obtain ⟨a1, fmt1, chunks1, p1, p2, p3⟩ := des_parts hargs1 hdes1 hconf1 h1 (by simp)
  obtain ⟨a2, fmt2, chunks2, q1, q2, q3⟩ := des_parts hargs2 hdes2 hconf2 h2 (by simp)
  rcases p3 with ⟨-, -, h0⟩ | ⟨E, hE, rfl, rfl, hfin⟩
  · exact absurd rfl h0
  rcases q3 with ⟨-, -, h0⟩ | ⟨E', hE', rfl, rfl, hfin'⟩
  · exact absurd rfl h0
  have he := henv a1 a2 p1 q1
  rw [hE, hE'] at he
  cases he
  obtain ⟨f1, f2⟩ := hfin rfl
  obtain ⟨f1', f2'⟩ := hfin' rfl
  obtain ⟨outs, e1, k1, -, -⟩ := desRounds_ok w E c a1 _ _ _ (Prod.ext rfl f2)
  obtain ⟨outs', e2, k2, -, -⟩ := desRounds_ok w E _ a2 _ _ _ (Prod.ext rfl f2')
  rw [DesRun.rounds_input] at e2
  obtain ⟨hw, hown⟩ := observes_blocks hin1 p1 (hobs1 a1 p1) (Prod.ext rfl f1)
  obtain ⟨hw', hown'⟩ := observes_blocks hin2 q1 (hobs2 a2 q1) (Prod.ext rfl f1')
  obtain ⟨hs, ht⟩ := hS a1 E p1 hE
  obtain ⟨outs'', e3, hp⟩ := DesRun.rounds_same hdet hs ht _ (w.base.state { c with input := { c.input with chunk := n } } a2) hw hw'
    (fun id => by rw [hown, hown']) e1
  have := Except.ok.inj (e3.symm.trans e2)
  subst this
  have hiff : outs = [] ↔ outs'' = [] := by
    rw [← des_nonempty e1, ← des_nonempty e2]
    exact ⟨fun h => by rw [h] at hp; exact hp.symm.eq_nil, fun h => by rw [h] at hp; exact hp.eq_nil⟩
  have hcol := hsame a1 a2 p1 q1
  constructor
  · intro hcsv
    rw [at_csv hcsv, at_csv hcsv]
    rw [if_pos hcsv] at p2 q2
    rw [file_of_run hg hnames1 hone1 hshown p2, file_of_run hg hnames2 hone2 hshown q2]
    by_cases h0 : outs = []
    · left
      have h0' := hiff.1 h0
      subst h0
      subst h0'
      rw [List.forall₂_nil_left_iff.1 k1, List.forall₂_nil_left_iff.1 k2]
      exact ⟨rfl, rfl⟩
    · right
      obtain ⟨t1, g1, l1⟩ := read_results (hcols a1 p1 hcsv) (shown := shown) h0 k1
      obtain ⟨t2, g2, l2⟩ := read_results (hcol ▸ hcols a1 p1 hcsv) (shown := shown) (fun h => h0 (hiff.2 h)) k2
      rw [← hcol] at l2
      exact ⟨t1, t2, _, _, _, g1, g2, l1, l2, hp.map _⟩
  · intro hdb
    rw [at_db hdb, at_db hdb]
    rw [if_neg hdb] at p2 q2
    rw [db_of_run hg hnames1 hone1 p2, db_of_run hg hnames2 hone2 q2]
    by_cases h0 : outs = []
    · left
      have h0' := hiff.1 h0
      subst h0
      subst h0'
      rw [List.forall₂_nil_left_iff.1 k1, List.forall₂_nil_left_iff.1 k2]
      exact ⟨rfl, rfl⟩
    · right
      have l2 := table_results (fun h => h0 (hiff.2 h)) k2
      rw [← hcol] at l2
      exact ⟨_, _, _, dbOf_some (table_results h0 k1), dbOf_some l2, hp.map _⟩

/-- C91 (runs that fail or are stopped): however a DES run with CSV output ends that the checks of the command line have let start, each complete line that is read from its
file of results belongs to a row as in `C91_results`, and no row has more than one. -/
theorem C91_stopped {w : DesWorld G W V} {argv : List Str} {args : Cli.Args} {v : Bool} (hargs : Argv.parseRun argv = .ok (args, v)) (hdes : IsDes args)
    {d d' : Disk} {log : List Char} {out : History.Outcome} (h : DesInvoked w argv d d' log out) (hout : out ≠ .refused) {c : Config.Cfg}
    (hconf : Configured w.base d args c) (hL : Sensible c) (hcsv : c.output.format = "csv")
    (hg : Cli.Spec.GlobSound w.base.glob) (hnames : History.Spec.NamesDiffer args) (hone : History.Spec.AtMostOne args d)
    {orb : List (Rec Str)} {others : List (List (Rec Str))} (hin : Spec.Objects w.base.ids d args c orb others)
    {obs : Cli.CmdArgs → List (Pointing.Obs W)} (hobs : ∀ a, Accepted w.base d args a → Observes w.base d args c a orb others (obs a))
    {shown : Cell → Str} (hshown : w.base.lines.output = Csv.line shown) (hcols : ∀ a, Accepted w.base d args a → 2 ≤ (w.columns c a).length)
    (hS : ∀ a E, Accepted w.base d args a → w.env c a (checked w.base args d) = some E → Sound E c (obs a)) :
    d'.get (Spec.resultsAt args c) = none ∨ ∃ a E rows, Accepted w.base d args a ∧ w.env c a (checked w.base args d) = some E ∧ Spec.Passed E c (obs a) rows ∧
      Spec.PartFile w.base.dist shown Csv.read c (w.columns c a) w.cells rows (d'.get (Spec.resultsAt args c)) := by
  rw [at_csv hcsv]
  obtain ⟨a, fmt, chunks, h1, h2, h3⟩ := des_parts hargs hdes hconf h hout
  rcases h3 with ⟨rfl, rfl, -⟩ | ⟨E, hE, rfl, hch, -⟩
  · left
    rcases (History.Props.C65_interrupted (js := []) hg (j := ⟨args, .csv, [], w.base.stamp, w.base.start⟩) hnames (fun i hi => by cases hi) hone .nil h2 hout).1 rfl
      with h0 | ⟨s, t, -, h0, -⟩
    · exact h0
    · cases h0
  · right
    rw [if_pos hcsv] at h2
    obtain ⟨k, outs, e1, e2⟩ := desRounds_part w E c a (observations w.base c a (checked w.base args d)).1 (w.base.state c a)
    obtain ⟨all, hpre, hown⟩ := observes_prefix hin h1 (hobs a h1)
    obtain ⟨rest, hrest⟩ := (List.take_prefix k _).trans hpre
    have hsub : ((((observations w.base c a (checked w.base args d)).1.map (·.1)).take k).flatten).Subperm (obs a) := by
      refine List.Subperm.trans ?_ (perm_of_own hown).subperm
      rw [← hrest, List.flatten_append]
      exact (List.sublist_append_left _ _).subperm
    have hpass := Passed.mono (rounds_passed hL (fun b hb => Sound.mono (hS a E h1 hE) fun o ho => hsub.subset (List.mem_flatten.2 ⟨b, hb, ho⟩)) e1) hsub
    refine ⟨a, E, outs.flatten, h1, hE, hpass, ?_⟩
    rw [← hch] at e2
    clear hch
    cases hgs : chunks.filterMap fun c => c.results.map (·.1) with
    | nil =>
      left
      have := (History.Props.C65_interrupted (js := []) hg (j := ⟨args, .csv, chunks, w.base.stamp, w.base.start⟩) hnames (fun i hi => by cases hi)
        hone .nil h2 hout).1 rfl
      rw [show History.Spec.results ⟨args, .csv, chunks, w.base.stamp, w.base.start⟩ = [] from hgs] at this
      rcases this with h0 | ⟨s, t, -, h0, -⟩
      · exact h0
      · cases h0
    | cons g gs =>
      rw [hgs] at e2
      obtain ⟨l1, l2⟩ := lines_results (hcols a h1) shown e2
      have hfile := Csv.Props.C83_interrupted (js := []) hg (j := ⟨args, .csv, chunks, w.base.stamp, w.base.start⟩) hnames (fun i hi => by cases hi)
        hone .nil h2 hout (f := g) (fs := gs) (by rw [← hgs]; exact .results rfl) hshown l2
      rcases hfile with h0 | ⟨t, h0, h5⟩
      · exact .inl h0
      · right
        refine ⟨t, h0, ?_⟩
        rcases h5 with h5 | ⟨done, rest, h6, h7⟩
        · exact .inl h5
        · right
          refine ⟨outs.flatten, outs.flatten.map fun f => outLine w.base.dist (outConfig c) (w.columns c a) (w.cells f), done, rest, List.Subperm.refl _, ?_, ?_, h7⟩
          · rw [List.forall₂_map_right_iff, List.forall₂_same]
            intro f _
            exact outLine_spec _ _ _ _
          · rw [← h6, l1, List.map_map]
            rfl

/-- C91 (the other files): however a run ends that has started, all files that are no outputs of it, like its inputs, are as before. -/
theorem C91_others {w : DesWorld G W V} {argv : List Str} {args : Cli.Args} {v : Bool} (hargs : Argv.parseRun argv = .ok (args, v)) {d d' : Disk} {log : List Char}
    {out : History.Outcome} (h : DesInvoked w argv d d' log out) (hout : out ≠ .refused) (hg : Cli.Spec.GlobSound w.base.glob) (hnames : History.Spec.NamesDiffer args)
    (hone : History.Spec.AtMostOne args d) (p : String) (hp : ¬ Spec.IsOutput args p) : d'.get p = d.get p := by
  obtain ⟨args', v', a, fmt, chunks, b, h1, h2, h3, -, h4⟩ := des_any_parts h hout
  rw [hargs] at h1
  cases h1
  exact (History.Props.C65_interrupted (js := []) hg (j := ⟨args, fmt, chunks, w.base.stamp, w.base.start⟩) hnames (fun i hi => by cases hi) hone .nil h4 hout).2.2.2.2 p
    (fun h => hp (.inl h)) (fun h => hp (.inr (.inl h))) (fun h => hp (.inr (.inr h)))

/-- The columns `basic` are not all there. -/
theorem basic_missing {dist : Cell → Cell → Cell → Cell} {c : Config.Cfg} (hb : c.output.columns = .named "basic") {cols : List String}
    (hc : "astrometricSigma_deg" ∉ cols) (rows : List Output.Row) (g : Output.Frame) : Output.outputFrame dist (outConfig c) ⟨cols, rows⟩ ≠ .ok g := by
  intro h
  have hcol : (outConfig c).columns = .basic := by simp [outConfig, hb]
  unfold Output.outputFrame at h
  simp only [bind, Except.bind, hcol, Output.selectColumns, Output.Frame.select] at h
  have hmiss : ¬ (Output.basicColumns.all ((Output.Frame.setCol ⟨cols, rows⟩ "Obj_Sun_LTC_km"
      fun r => dist (r "Obj_Sun_x_LTC_km") (r "Obj_Sun_y_LTC_km") (r "Obj_Sun_z_LTC_km")).cols.contains ·)) = true := by
    intro hall
    have := List.all_eq_true.1 hall "astrometricSigma_deg" (by decide)
    simp only [Output.Frame.setCol] at this
    split_ifs at this
    · exact hc (by simpa using this)
    · simp only [List.contains_append, Bool.or_eq_true, List.contains_iff_mem, List.mem_singleton] at this
      rcases this with h | h
      · exact hc h
      · exact absurd h (by decide)
  rw [if_neg hmiss] at h
  cases h

/-- C91 (fails for the `basic` columns): a DES run has no uncertainties, so the table of its observations has no column `astrometricSigma_deg`; with
`output_columns = basic`, which the configuration accepts, it cannot finish once any row comes through: a run that finishes has left no results. -/
theorem C91_basic_fails {w : DesWorld G W V} {argv : List Str} {args : Cli.Args} {v : Bool} (hargs : Argv.parseRun argv = .ok (args, v)) (hdes : IsDes args)
    {d d' : Disk} {log : List Char} (h : DesInvoked w argv d d' log .finished) {c : Config.Cfg} (hconf : Configured w.base d args c)
    (hb : c.output.columns = .named "basic") (hcol : ∀ a, "astrometricSigma_deg" ∉ w.columns c a) (hg : Cli.Spec.GlobSound w.base.glob)
    (hnames : History.Spec.NamesDiffer args) (hone : History.Spec.AtMostOne args d) {shown : Cell → Str} (hshown : w.base.lines.output = Csv.line shown) :
    d'.get (Spec.resultsAt args c) = none := by
  obtain ⟨a, fmt, chunks, h1, h2, h3⟩ := des_parts hargs hdes hconf h (by simp)
  rcases h3 with ⟨-, -, h0⟩ | ⟨E, hE, rfl, rfl, hfin⟩
  · exact absurd rfl h0
  · obtain ⟨f1, f2⟩ := hfin rfl
    obtain ⟨outs, g1, g2, -, -⟩ := desRounds_ok w E c a _ _ _ (Prod.ext rfl f2)
    have hnil : outs = [] := by
      cases outs with
      | nil => rfl
      | cons o os =>
        obtain ⟨g, gs, ho, -, -⟩ := List.forall₂_cons_left_iff.1 g2
        exact absurd ho (basic_missing hb (hcol a) _ _)
    subst hnil
    have hgs := List.forall₂_nil_left_iff.1 g2
    by_cases hcsv : c.output.format = "csv"
    · rw [at_csv hcsv]
      rw [if_pos hcsv] at h2
      rw [file_of_run hg hnames hone hshown h2, hgs]
      rfl
    · rw [at_db hcsv]
      rw [if_neg hcsv] at h2
      rw [db_of_run hg hnames hone h2, hgs]
      rfl

end Sorcha.Whole.Props
