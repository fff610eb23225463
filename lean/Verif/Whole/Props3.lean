import Verif.Whole.Repeat

/-!
# Properties: the same run again (C86)
-/

namespace Sorcha.Whole.Props

open Sorcha.Csv (Str)
open Sorcha.History (Disk Chunk)
open Sorcha.Output (Cell)

variable {G W V : Type}

/-- Any number of commands one after the other that put their outputs in the same places as `a`, of whatever inputs and settings, each of them finishing, refused,
failing or stopped at any point. -/
inductive Before (a : Cli.Args) : Disk → Disk → Prop
  | nil {d} : Before a d d
  | cons {G W V : Type} {w : World G W V} {argv : List Str} {d d1 d2 : Disk} {log : List Char} {out : History.Outcome} (h : Invoked w argv d d1 log out)
      (hg : Cli.Spec.GlobSound w.glob) (hn : ∀ args v, Argv.parseRun argv = .ok (args, v) → History.Spec.SameNames a args) (ht : Before a d1 d2) : Before a d d2

/-- One command. -/
theorem invoked_step {w : World G W V} {argv : List Str} {d d' : Disk} {log : List Char} {out : History.Outcome} (h : Invoked w argv d d' log out)
    (hg : Cli.Spec.GlobSound w.glob) {a : Cli.Args} (hn : ∀ args v, Argv.parseRun argv = .ok (args, v) → History.Spec.SameNames a args)
    (hd : History.Spec.NamesDiffer a) (hone : History.Spec.AtMostOne a d) : History.Spec.AtMostOne a d' ∧ Spec.SameOutside a d' d := by
  have key : ∀ {args v fmt chunks d'' log' out'}, Argv.parseRun argv = .ok (args, v) →
      History.Runs false (existing w d) w.isDir w.glob w.lines ⟨args, fmt, chunks, w.stamp, w.start⟩ d d'' log' out' →
      History.Spec.AtMostOne a d'' ∧ Spec.SameOutside a d'' d := by
    intro args v fmt chunks d'' log' out' h1 h2
    have hs := hn args v h1
    have hs' : History.Spec.SameNames args a := ⟨hs.1.symm, hs.2.1.symm, hs.2.2.1.symm, hs.2.2.2.symm⟩
    have := History.Props.runs_step (j := ⟨args, fmt, chunks, w.stamp, w.start⟩) hg (History.Props.same_differ hs hd) (History.Props.same_one hs hone) h2
    refine ⟨History.Props.same_one hs' this.1, fun p hp => ?_⟩
    simp only [Spec.IsOutput, not_or] at hp
    exact this.2 p (fun h' => hp.1 ((History.Props.same_results hs p).2 h')) (fun h' => hp.2.1 ((History.Props.same_ephemeris hs p).2 h'))
      (fun h' => hp.2.2 ((History.Props.same_stats hs p).2 h'))
  by_cases hout : out = .refused
  · subst hout
    generalize ho : History.Outcome.refused = out at h
    cases h with
    | usage h => exact ⟨hone, fun _ _ => rfl⟩
    | @refused args v e h hc => exact key h (History.Runs.refused (j := ⟨args, .csv, [], w.stamp, w.start⟩) hc)
    | failed => cases ho
    | @ran _ _ _ _ _ _ done => cases done <;> cases ho
  · obtain ⟨args, v, a', fmt, chunks, b, h1, -, -, h4⟩ := any_parts h hout
    exact key h1 h4

/-- Any number of commands. -/
theorem before_step {a : Cli.Args} (hd : History.Spec.NamesDiffer a) {d d' : Disk} (h : Before a d d') (hone : History.Spec.AtMostOne a d) :
    History.Spec.AtMostOne a d' ∧ Spec.SameOutside a d' d := by
  induction h with
  | nil => exact ⟨hone, fun _ _ => rfl⟩
  | cons h hg hn _ ih =>
    have h1 := invoked_step h hg hn hd hone
    have h2 := ih h1.1
    exact ⟨h2.1, fun p hp => (h2.2 p hp).trans (h1.2 p hp)⟩

/-- The files behind the checks of the command line. -/
theorem checked_get {w : World G W V} {args : Cli.Args} {a : Cli.CmdArgs} {d : Disk} (hg : Cli.Spec.GlobSound w.glob) (hone : History.Spec.AtMostOne args d)
    (h : Accepted w d args a) : (∀ p, Spec.IsOutput args p → (checked w args d).get p = none) ∧ ∀ p, ¬ Spec.IsOutput args p → (checked w args d).get p = d.get p := by
  have := History.Props.start_files hg hone h
  refine ⟨this.1, fun p hp => ?_⟩
  simp only [Spec.IsOutput, not_or] at hp
  exact this.2 p hp.1 hp.2.1 hp.2.2

theorem sameNames_of {a b : Cli.Args} (h : Spec.SameButForce a b) : History.Spec.SameNames a b := by
  unfold Spec.SameButForce at h
  rw [← h]
  exact ⟨rfl, rfl, rfl, rfl⟩

theorem isOutput_same {a b : Cli.Args} (h : History.Spec.SameNames a b) (p : String) : Spec.IsOutput a p ↔ Spec.IsOutput b p :=
  or_congr (History.Props.same_results h p) (or_congr (History.Props.same_ephemeris h p) (History.Props.same_stats h p))

/-- The plans of two runs that differ in `-f` and in the outputs that are there. -/
theorem same_plan {w : World G W V} (hw : SeesFiles w) {args1 args2 : Cli.Args} (hsame : Spec.SameButForce args1 args2) (hg : Cli.Spec.GlobSound w.glob) {d e : Disk}
    (hone1 : History.Spec.AtMostOne args1 d) (hone2 : History.Spec.AtMostOne args1 e) (ho : Spec.SameOutside args1 d e) {a1 a2 : Cli.CmdArgs}
    (h1 : Accepted w d args1 a1) (h2 : Accepted w e args2 a2) :
    a1 = a2 ∧ (∀ p, (checked w args1 d).get p = (checked w args2 e).get p) ∧ plan w a1 (checked w args1 d) = plan w a2 (checked w args2 e) := by
  have ha := accepted_same hsame h1 h2
  subst ha
  have hn := sameNames_of hsame
  have k1 := checked_get hg hone1 h1
  have k2 := checked_get hg (History.Props.same_one hn hone2) h2
  have hget : ∀ p, (checked w args1 d).get p = (checked w args2 e).get p := by
    intro p
    by_cases hp : Spec.IsOutput args1 p
    · rw [k1.1 p hp, k2.1 p ((isOutput_same hn p).1 hp)]
    · rw [k1.2 p hp, k2.2 p (fun h => hp ((isOutput_same hn p).2 h)), ho p hp]
  exact ⟨rfl, hget, plan_congr hw hget a1⟩

/-- The files of a job at each place. -/
theorem wanted_total (ls : History.Lines) (j : History.Job) (d : Disk) (p : String) : ∃ c, History.Spec.Wanted ls j d p c := by
  by_cases hr : History.Spec.IsResults j.args p
  · by_cases hp : p = History.Spec.resultsPath j
    · subst hp
      cases hf : j.format with
      | csv => exact ⟨_, .results hf⟩
      | sqlite => exact ⟨_, .database hf⟩
    · exact ⟨_, .otherResults p hr hp⟩
  · by_cases he : History.Spec.IsEphemeris j.args p
    · obtain ⟨n, hn, hne, hb⟩ := he
      by_cases hp : p = j.args.o ++ "/" ++ n ++ ".csv"
      · subst hp
        exact ⟨_, .ephemeris n hn hne⟩
      · exact ⟨_, .otherEphemeris p n hn hne hb hp⟩
    · by_cases hs : History.Spec.IsStats j.args p
      · obtain ⟨n, hn, rfl⟩ := hs
        exact ⟨_, .stats n hn⟩
      · exact ⟨_, .rest p hr he hs⟩

theorem wanted_same {ls : History.Lines} {args1 args2 : Cli.Args} (hn : History.Spec.SameNames args1 args2) {fmt chunks stamp start} {d e : Disk}
    (ho : Spec.SameOutside args1 d e) {p : String} {c} (h : History.Spec.Wanted ls ⟨args1, fmt, chunks, stamp, start⟩ d p c) :
    History.Spec.Wanted ls ⟨args2, fmt, chunks, stamp, start⟩ e p c := by
  obtain ⟨n1, n2, n3, n4⟩ := hn
  have hpath : History.Spec.resultsPath ⟨args1, fmt, chunks, stamp, start⟩ = History.Spec.resultsPath ⟨args2, fmt, chunks, stamp, start⟩ := by
    simp only [History.Spec.resultsPath, n1, n2]
  cases h with
  | results hf => rw [hpath]; exact .results hf
  | database hf => rw [hpath]; exact .database hf
  | ephemeris n hn hne => simp only [n1]; exact .ephemeris n (n3 ▸ hn) hne
  | stats n hn => simp only [n1]; exact .stats n (n4 ▸ hn)
  | otherResults _ h hp => exact .otherResults p ((History.Props.same_results ⟨n1, n2, n3, n4⟩ p).1 h) (hpath ▸ hp)
  | otherEphemeris _ n hn hne h hp => exact .otherEphemeris p n (n3 ▸ hn) hne (by simpa only [n1] using h) (by simpa only [n1] using hp)
  | rest _ hr he hs =>
    have hn : History.Spec.SameNames args1 args2 := ⟨n1, n2, n3, n4⟩
    rw [ho p (by simp only [Spec.IsOutput, not_or]; exact ⟨hr, he, hs⟩)]
    exact .rest p (fun h => hr ((History.Props.same_results hn p).2 h)) (fun h => he ((History.Props.same_ephemeris hn p).2 h))
      (fun h => hs ((History.Props.same_stats hn p).2 h))

/-- C86 (the same run again): take two directories with the same files but for outputs of the command, each with at most one file of results and one of ephemerides, and
in each of them any history of commands with these outputs. If the command, with or without `-f`, finishes after either history, with the same seeds, then all files are
the same. Random features, linking and all formats of the output but HDF5 are included. -/
theorem C86_repeat {w : World G W V} (hw : SeesFiles w) (hg : Cli.Spec.GlobSound w.glob) {argv1 argv2 : List Str} {args1 args2 : Cli.Args} {v1 v2 : Bool}
    (hargs1 : Argv.parseRun argv1 = .ok (args1, v1)) (hargs2 : Argv.parseRun argv2 = .ok (args2, v2)) (hsame : Spec.SameButForce args1 args2)
    (hnames : History.Spec.NamesDiffer args1) {d0 d1 d2 e0 e1 e2 : Disk} (hone1 : History.Spec.AtMostOne args1 d0) (hone2 : History.Spec.AtMostOne args1 e0)
    (ho : Spec.SameOutside args1 d0 e0) (hd : Before args1 d0 d1) (he : Before args1 e0 e1) {log1 log2 : List Char}
    (h1 : Invoked w argv1 d1 d2 log1 .finished) (h2 : Invoked w argv2 e1 e2 log2 .finished) (p : String) : d2.get p = e2.get p := by
  have s1 := before_step hnames hd hone1
  have s2 := before_step hnames he hone2
  have ho' : Spec.SameOutside args1 d1 e1 := fun p hp => (s1.2 p hp).trans ((ho p hp).trans (s2.2 p hp).symm)
  obtain ⟨x1, y1, a1, f1, c1, p1, p2, p3, p4⟩ := finished_parts h1
  rw [hargs1] at p1
  cases p1
  obtain ⟨x2, y2, a2, f2, c2, q1, q2, q3, q4⟩ := finished_parts h2
  rw [hargs2] at q1
  cases q1
  have hn := sameNames_of hsame
  obtain ⟨rfl, -, hp⟩ := same_plan hw hsame hg s1.1 s2.1 ho' p2 q2
  rw [p3, q3] at hp
  cases hp
  have k1 := History.Props.C65_history (js := []) hg (j := ⟨args1, f1, c1, w.stamp, w.start⟩) hnames (fun i hi => by cases hi) s1.1 .nil p4
  have k2 := History.Props.C65_history (js := []) hg (j := ⟨args2, f1, c1, w.stamp, w.start⟩) (History.Props.same_differ hn hnames) (fun i hi => by cases hi)
    (History.Props.same_one hn s2.1) .nil q4
  obtain ⟨c, hc⟩ := wanted_total w.lines ⟨args1, f1, c1, w.stamp, w.start⟩ d1 p
  rw [k1 p c hc, k2 p c (wanted_same hn ho' hc)]

theorem stage_text {part whole : Option History.Content} (h : History.Spec.TextStage part whole) : Spec.Stage part whole := by
  rcases h with h | ⟨s, t, h1, h2, h3⟩
  · exact .inl h
  · exact .inr (.inl ⟨s, t, h1, h2, h3⟩)

theorem stage_table {tables : List Output.Frame} {part : Option History.Content} (h : History.Spec.TableStage tables part) :
    Spec.Stage part (History.Spec.dbOf tables) := by
  rcases h with h | ⟨k, ix, rfl, -, -⟩
  · exact .inl h
  · cases tables with
    | nil => exact .inr (.inr (.inl ⟨ix, by simp [History.Spec.tableOf]⟩))
    | cons f fs =>
      cases k with
      | zero => exact .inr (.inr (.inl ⟨ix, by simp [History.Spec.tableOf]⟩))
      | succ k =>
        refine .inr (.inr (.inr ?_))
        refine ⟨History.Spec.dbColumns f, _, (fs.drop k).flatMap fun g => g.rows.map fun r => (History.Spec.dbColumns f).map fun c =>
          if c ∈ History.Spec.dbColumns g then r c else .null, ix, ["ObjID", "fieldMJD_TAI", "optFilter"], rfl, ?_⟩
        simp only [History.Spec.dbOf, History.Spec.tableOf]
        rw [← List.flatMap_append, List.cons_append, List.take_append_drop]

/-- C86 (runs that stop): if the command finishes in one of the directories, then what it leaves in the other, however it ends there once it was let start, are early
stages of the same files. All other files are as they were. -/
theorem C86_stopped {w : World G W V} (hw : SeesFiles w) (hg : Cli.Spec.GlobSound w.glob) {argv1 argv2 : List Str} {args1 args2 : Cli.Args} {v1 v2 : Bool}
    (hargs1 : Argv.parseRun argv1 = .ok (args1, v1)) (hargs2 : Argv.parseRun argv2 = .ok (args2, v2)) (hsame : Spec.SameButForce args1 args2)
    (hnames : History.Spec.NamesDiffer args1) {d0 d1 d2 e0 e1 e2 : Disk} (hone1 : History.Spec.AtMostOne args1 d0) (hone2 : History.Spec.AtMostOne args1 e0)
    (ho : Spec.SameOutside args1 d0 e0) (hd : Before args1 d0 d1) (he : Before args1 e0 e1) {log1 log2 : List Char} {out : History.Outcome}
    (h1 : Invoked w argv1 d1 d2 log1 .finished) (h2 : Invoked w argv2 e1 e2 log2 out) (hout : out ≠ .refused) :
    (∀ p, Spec.IsOutput args1 p → Spec.Stage (e2.get p) (d2.get p)) ∧ ∀ p, ¬ Spec.IsOutput args1 p → e2.get p = e0.get p := by
  have s1 := before_step hnames hd hone1
  have s2 := before_step hnames he hone2
  have ho' : Spec.SameOutside args1 d1 e1 := fun p hp => (s1.2 p hp).trans ((ho p hp).trans (s2.2 p hp).symm)
  have hn := sameNames_of hsame
  refine ⟨fun p hp => ?_, fun p hp => ?_⟩
  swap
  · have := (invoked_step h2 hg (a := args1) (fun args v h => by rw [hargs2] at h; cases h; exact hn) hnames s2.1).2 p hp
    rw [this, s2.2 p hp]
  obtain ⟨x1, y1, a1, f1, c1, p1, p2, p3, p4⟩ := finished_parts h1
  rw [hargs1] at p1
  cases p1
  obtain ⟨x2, y2, a2, f2, c2, b, q1, q2, q3, q4⟩ := any_parts h2 hout
  rw [hargs2] at q1
  cases q1
  obtain ⟨rfl, -, hpl⟩ := same_plan hw hsame hg s1.1 s2.1 ho' p2 q2
  rw [p3, q3] at hpl
  cases hpl
  have hnames2 := History.Props.same_differ hn hnames
  have hone2' := History.Props.same_one hn s2.1
  have k1 := History.Props.C65_history (js := []) hg (j := ⟨args1, f1, c1, w.stamp, w.start⟩) hnames (fun i hi => by cases hi) s1.1 .nil p4
  have k2 := History.Props.C65_interrupted (js := []) hg (j := ⟨args2, f1, c1, w.stamp, w.start⟩) hnames2 (fun i hi => by cases hi) hone2' .nil q4 hout
  have hother : ∀ p, Spec.IsOutput args2 p → p ≠ History.pathOf args2 f1 → (∀ n, args2.ew = some n → n ≠ "" → p ≠ args2.o ++ "/" ++ n ++ ".csv") →
      ¬ History.Spec.IsStats args2 p → e2.get p = none := by
    intro p hp g1 g2 g3
    cases q4 with
    | refused h => exact absurd rfl hout
    | @ran c s done h he =>
      rw [History.run_other (History.Props.names_of h) f1 g1 g2 g3 he]
      exact (History.Props.start_files hg hone2' h).1 p hp
  obtain ⟨c, hc⟩ := wanted_total w.lines ⟨args1, f1, c1, w.stamp, w.start⟩ d1 p
  rw [k1 p c hc]
  have hc2 := wanted_same hn ho' hc
  have hp2 := (isOutput_same hn p).1 hp
  cases hc2 with
  | results hf => exact stage_text (k2.1 hf)
  | database hf => exact stage_table (k2.2.1 hf)
  | ephemeris n hn hne => exact stage_text (k2.2.2.1 n hn hne)
  | stats n hn => exact stage_text (k2.2.2.2.1 n hn)
  | otherResults _ hr hp' =>
    left
    rw [History.pathOf_eq] at hp'
    refine hother p hp2 hp' ?_ (fun h' => hnames2.2.1 p ⟨hr, h'⟩)
    rintro n hn hne' rfl
    exact hnames2.1 _ ⟨hr, n, hn, hne', History.belongs_csv _ _⟩
  | otherEphemeris _ n hn hne hb hp' =>
    left
    have hE : History.Spec.IsEphemeris args2 p := ⟨n, hn, hne, hb⟩
    refine hother p hp2 (History.Props.ne_path_of_not_results fun h' => hnames2.1 p ⟨h', hE⟩) ?_ (fun h' => hnames2.2.2 p ⟨hE, h'⟩)
    intro m hm _ h'
    have hn : args2.ew = some n := hn
    rw [hn] at hm
    rw [← Option.some.inj hm] at h'
    exact hp' h'
  | rest _ hr he hs => exact absurd hp2 (by simp only [Spec.IsOutput, not_or]; exact ⟨hr, he, hs⟩)

theorem found_congr {exist exist' : String → Bool} {args : Cli.Args}
    (h : ∀ p ∈ [args.p, args.ob, args.c, args.o, args.pd] ++ args.cp.toList ++ args.vd.toList, exist p = exist' p) : Cli.findInputs exist args = Cli.findInputs exist' args := by
  have h1 : exist args.p = exist' args.p := h _ (by simp)
  have h2 : exist args.ob = exist' args.ob := h _ (by simp)
  have h3 : exist args.c = exist' args.c := h _ (by simp)
  have h4 : exist args.o = exist' args.o := h _ (by simp)
  have h5 : exist args.pd = exist' args.pd := h _ (by simp)
  have h6 : Cli.findOptional exist true args.cp "-cp, --complex_physical_parameters" = Cli.findOptional exist' true args.cp "-cp, --complex_physical_parameters" := by
    unfold Cli.findOptional Cli.findFile
    cases hc : args.cp with
    | none => rfl
    | some q => simp only; rw [h q (by simp [hc])]
  have h7 : Cli.findOptional exist false args.vd "-vd, --visits-db" = Cli.findOptional exist' false args.vd "-vd, --visits-db" := by
    unfold Cli.findOptional Cli.findFile
    cases hc : args.vd with
    | none => rfl
    | some q => simp only; rw [h q (by simp [hc])]
  unfold Cli.findInputs
  rw [h6, h7]
  unfold Cli.findFile
  rw [h1, h2, h3, h4, h5]

/-- A command that is accepted is also accepted with `-f`, wherever the same inputs are found. -/
theorem accepted_again {exist exist' isDir : String → Bool} {g : Cli.Glob} {args1 args2 : Cli.Args} (hsame : Spec.SameButForce args1 args2) (hf : args2.f = true)
    (he : ∀ p ∈ [args1.p, args1.ob, args1.c, args1.o, args1.pd] ++ args1.cp.toList ++ args1.vd.toList, exist p = exist' p) {fs fs' : Cli.FS} {a : Cli.CmdArgs}
    (h : (Cli.commandLine exist isDir g args1 fs).1 = .ok a) : (Cli.commandLine exist' isDir g args2 fs').1 = .ok a := by
  have hs : args2 = { args1 with f := true } := by
    unfold Spec.SameButForce at hsame
    rw [← hsame, ← hf]
  subst hs
  unfold Cli.commandLine at h ⊢
  have hfind : Cli.findInputs exist' { args1 with f := true } = Cli.findInputs exist args1 := by
    rw [← found_congr (exist := exist) (args := { args1 with f := true }) he]
    rfl
  rw [hfind]
  cases hi : Cli.findInputs exist args1 with
  | error e => rw [hi] at h; cases h
  | ok x =>
    rw [hi] at h
    simp only at h ⊢
    unfold Cli.checkOutputs Cli.andThen at h ⊢
    simp only [History.Props.warnOpt_force] at h ⊢
    cases h3 : (Cli.findOptional isDir true args1.ar "-ar, --ar_data_path") with
    | error e =>
      rw [h3] at h
      exfalso
      revert h
      cases (Cli.warnOptional true args1.ew (g.anyExt args1.o) args1.f fs).1 with
      | error e => simp [Except.map]
      | ok u =>
        simp only
        cases (Cli.warnOptional false args1.st (g.csv args1.o) args1.f (Cli.warnOptional true args1.ew (g.anyExt args1.o) args1.f fs).2).1 <;> simp [Except.map]
    | ok u =>
      rw [h3] at h
      simp only [Except.map, History.Props.warn_force] at h ⊢
      revert h
      cases (Cli.warnOptional true args1.ew (g.anyExt args1.o) args1.f fs).1 with
      | error e => simp
      | ok u =>
        simp only
        cases (Cli.warnOptional false args1.st (g.csv args1.o) args1.f (Cli.warnOptional true args1.ew (g.anyExt args1.o) args1.f fs).2).1 with
        | error e => simp
        | ok u =>
          simp only
          cases (Cli.warnOrRemove (g.anyExt args1.o args1.t) args1.t args1.f
            (Cli.warnOptional false args1.st (g.csv args1.o) args1.f (Cli.warnOptional true args1.ew (g.anyExt args1.o) args1.f fs).2).2).1 <;> simp

/-- The tables of the rounds can be put into a database with its indices, if the columns that are indexed are among the wanted ones. -/
theorem rounds_indexable {w : World G W V} {E : Pipeline.Env G W V} {c : Config.Cfg} {a : Cli.CmdArgs} {st bs chunks} (h : rounds w E c a st bs = (chunks, true))
    (hcols : ∀ x ∈ ["ObjID", "fieldMJD_TAI", "optFilter"], x ∈ Output.Spec.wantedColumns (Spec.output c).columns (Spec.output c).keepUnlinked (w.columns c a)) :
    History.Spec.Indexable (chunks.filterMap fun c => c.results.map (·.1)) := by
  obtain ⟨outs, -, h2, -, -⟩ := rounds_ok w E c a bs _ _ h
  have hall : ∀ g ∈ chunks.filterMap fun c => c.results.map (·.1), g.cols = Output.Spec.wantedColumns (outConfig c).columns (outConfig c).keepUnlinked (w.columns c a) := by
    generalize chunks.filterMap (fun c => c.results.map (·.1)) = gs at h2
    intro g hg
    induction h2 with
    | nil => cases hg
    | cons ho _ ih =>
      rcases List.mem_cons.1 hg with rfl | hg
      · exact (outputFrame_cells _ _ _ _ ho).1
      · exact ih hg
  intro f rest hf
  rw [hf] at hall
  have h0 := hall f (List.mem_cons_self ..)
  refine ⟨fun g hg x hx => ?_, fun x hx => ?_⟩
  · unfold History.Spec.dbColumns at hx ⊢
    rw [h0, ← hall g (List.mem_cons_of_mem _ hg)]
    exact hx
  · unfold History.Spec.dbColumns
    rw [h0, List.mem_filter]
    refine ⟨hcols x hx, ?_⟩
    simp only [List.mem_cons, List.not_mem_nil, or_false] at hx
    rcases hx with rfl | rfl | rfl <;> decide

/-- C86 (recovery): if the command finishes in one of the directories, then after any history in the other, also of runs that failed or were killed, the command with
`-f` can finish, and then leaves the same files. (For sqlite: if the columns that are indexed are wanted.) -/
theorem C86_recovers {w : World G W V} (hw : SeesFiles w) (hg : Cli.Spec.GlobSound w.glob) {argv1 argv2 : List Str} {args1 args2 : Cli.Args} {v1 v2 : Bool}
    (hargs1 : Argv.parseRun argv1 = .ok (args1, v1)) (hargs2 : Argv.parseRun argv2 = .ok (args2, v2)) (hsame : Spec.SameButForce args1 args2) (hf : args2.f = true)
    (hnames : History.Spec.NamesDiffer args1) (hin : Spec.InputsApart args1) {d0 d1 d2 e0 e1 : Disk} (hone1 : History.Spec.AtMostOne args1 d0)
    (hone2 : History.Spec.AtMostOne args1 e0) (ho : Spec.SameOutside args1 d0 e0) (hd : Before args1 d0 d1) (he : Before args1 e0 e1) {log1 : List Char}
    (h1 : Invoked w argv1 d1 d2 log1 .finished) {c : Config.Cfg} (hconf : Configured w d1 args1 c)
    (hcols : c.output.format ≠ "csv" → ∀ a, Accepted w d1 args1 a → ∀ x ∈ ["ObjID", "fieldMJD_TAI", "optFilter"],
      x ∈ Output.Spec.wantedColumns (Spec.output c).columns (Spec.output c).keepUnlinked (w.columns c a)) :
    ∃ e2 log2, Invoked w argv2 e1 e2 log2 .finished ∧ ∀ p, e2.get p = d2.get p := by
  have s1 := before_step hnames hd hone1
  have s2 := before_step hnames he hone2
  have ho' : Spec.SameOutside args1 d1 e1 := fun p hp => (s1.2 p hp).trans ((ho p hp).trans (s2.2 p hp).symm)
  have hn := sameNames_of hsame
  obtain ⟨a, E, bs, chunks, p1, p2, p3, p4, p5⟩ := run_parts hargs1 hconf h1
  obtain ⟨x1, y1, a', f1, c1, q1, q2, q3, q4⟩ := finished_parts h1
  rw [hargs1] at q1
  cases q1
  rw [p1] at q2
  cases q2
  have hex : ∀ p ∈ [args1.p, args1.ob, args1.c, args1.o, args1.pd] ++ args1.cp.toList ++ args1.vd.toList, existing w d1 p = existing w e1 p := by
    intro p hp
    have := ho' p (hin p hp)
    unfold existing
    congr 1
    rw [Bool.eq_iff_iff, List.contains_iff_mem, List.contains_iff_mem, History.mem_paths, History.mem_paths, this]
  have hacc : ∀ fs, (Cli.commandLine (existing w e1) w.isDir w.glob args2 fs).1 = .ok a := fun fs => accepted_again hsame hf hex p1
  have hacc' : Accepted w e1 args2 a := hacc _
  obtain ⟨-, -, hpl⟩ := same_plan hw hsame hg s1.1 s2.1 ho' p1 hacc'
  rw [q3] at hpl
  have hidx : f1 = .sqlite → History.Spec.Indexable (c1.filterMap fun c => c.results.map (·.1)) := by
    intro h0
    obtain ⟨t, x, ht, hx⟩ := hconf
    obtain ⟨-, -, e3, -, -, e6, -, -⟩ := commandLine_ok p1
    obtain ⟨t', ht'⟩ := plan_text q3
    have := textAt_checked (e3 ▸ ht')
    rw [ht] at this
    cases this
    obtain ⟨E', bs', g1, g2, g3, g4⟩ := plan_parts q3 ht' (by rw [e6]; exact hx)
    refine rounds_indexable g3 (hcols ?_ a p1)
    intro h
    rw [if_pos h, h0] at g4
    cases g4
  obtain ⟨e2, log2, hr⟩ := History.Props.C65_rerun (exist := existing w e1) (isDir := w.isDir) (ls := w.lines) (js := []) hg
    (j := ⟨args2, f1, c1, w.stamp, w.start⟩) (History.Props.same_differ hn hnames) (fun i hi => by cases hi)
    (History.Props.same_one hn s2.1) .nil hf (hacc []) hidx
  have hinv : Invoked w argv2 e1 e2 log2 .finished := by
    generalize hout : History.Outcome.finished = out at hr ⊢
    cases hr with
    | refused h => cases hout
    | @ran a2 s done h hE =>
      have h' : (Cli.commandLine (existing w e1) w.isDir w.glob args2 e1.paths).1 = .ok a2 := h
      rw [hacc _] at h'
      cases h'
      exact Invoked.ran hargs2 (hacc _) hpl.symm hE
  exact ⟨e2, log2, hinv, fun p => (C86_repeat hw hg hargs1 hargs2 hsame hnames hone1 hone2 ho hd he h1 hinv p).symm⟩

end Sorcha.Whole.Props
