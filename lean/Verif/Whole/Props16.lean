import Verif.Whole.Props15
import Verif.Whole.Props13

/-!
# Properties: what runs read, and parts of a population at the same time (C101)
-/

namespace Sorcha.Whole.Props

open Sorcha.Csv (Str)
open Sorcha.Cli (CmdArgs)
open Sorcha.Readers (Rec)
open Sorcha.Output (Cell)
open Sorcha.History (Disk Effect Outcome)
open Sorcha.Whole.Spec (Run sized)

variable {G W V : Type} {ι : Type} [DecidableEq ι]

/-! ## What a run reads -/

/-- What the calculations are set up with (the pointing database, the footprint, add-ons) depends only on the files in `reads`. -/
def SetUpFrom {E : Type} (env : Config.Cfg → CmdArgs → Disk → Option E) (reads : String → Prop) : Prop :=
  ∀ c a d e, (∀ p, reads p → Disk.get d p = Disk.get e p) → env c a d = env c a e

theorem textAt_local {d e : Disk} {p : String} (h : d.get p = e.get p) : textAt d p = textAt e p := by
  unfold textAt
  rw [h]

theorem contains_local {d e : Disk} {p : String} (h : d.get p = e.get p) : d.paths.contains p = e.paths.contains p := by
  rw [Bool.eq_iff_iff, List.contains_iff_mem, List.contains_iff_mem, History.mem_paths, History.mem_paths, h]

/-- The files behind the fields of the dictionary that are read. -/
def Field (a : CmdArgs) (p : String) : Prop :=
  p = a.paramsinput ∨ p = a.orbinfile ∨ p = a.configfile ∨ p = a.pointingDatabase ∨ a.complexParams = some p ∨ a.inputEphemerisFile = some p

theorem execute_local {a : CmdArgs} {d e : Disk} (h : ∀ p, Field a p → d.get p = e.get p) (isDir : String → Bool) (c : Cli.RunConfig) :
    Cli.execute (fun p => d.paths.contains p) isDir c a = Cli.execute (fun p => e.paths.contains p) isDir c a := by
  have hc : ∀ p, Field a p → d.paths.contains p = e.paths.contains p := fun p hp => contains_local (h p hp)
  have hv : Cli.validateArguments (fun p => d.paths.contains p) isDir a = Cli.validateArguments (fun p => e.paths.contains p) isDir a := by
    have he : (a.inputEphemerisFile.any fun x => !x.isEmpty && !d.paths.contains x) = a.inputEphemerisFile.any fun x => !x.isEmpty && !e.paths.contains x := by
      cases hx : a.inputEphemerisFile with
      | none => rfl
      | some x => simp only [Option.any_some, hc x (by simp [Field, hx])]
    unfold Cli.validateArguments
    beta_reduce
    rw [he, hc _ (.inl rfl), hc _ (.inr (.inl rfl)), hc _ (.inr (.inr (.inl rfl))), hc _ (.inr (.inr (.inr (.inl rfl))))]
  unfold Cli.execute
  rw [hv]

theorem observations_local {w : World G W V} {a : CmdArgs} {d e : Disk} (h : ∀ p, Field a p → d.get p = e.get p) (c : Config.Cfg) : observations w c a d = observations w c a e := by
  have ht : ∀ p, Field a p → textAt d p = textAt e p := fun p hp => textAt_local (h p hp)
  have hb : ∀ o : Option String, (∀ p, o = some p → Field a p) → o.bind (textAt d) = o.bind (textAt e) := by
    intro o ho
    cases o with
    | none => rfl
    | some p => exact ht p (ho p rfl)
  unfold observations auxSources
  rw [ht _ (.inr (.inl rfl)), ht _ (.inl rfl), hb a.complexParams (fun p hp => by simp [Field, hp]), hb a.inputEphemerisFile (fun p hp => by simp [Field, hp])]

theorem plan_local {w : World G W V} {a : CmdArgs} {d e : Disk} (h : ∀ p, Field a p → d.get p = e.get p) (henv : ∀ c, w.env c a d = w.env c a e) : plan w a d = plan w a e := by
  unfold plan
  rw [textAt_local (h _ (.inr (.inr (.inl rfl))))]
  simp only [execute_local h, observations_local h, henv]

theorem desPlan_local {w : DesWorld G W V} {a : CmdArgs} {d e : Disk} (h : ∀ p, Field a p → d.get p = e.get p) (henv : ∀ c, w.env c a d = w.env c a e)
    (henv' : ∀ c, w.base.env c a d = w.base.env c a e) : desPlan w a d = desPlan w a e := by
  unfold desPlan
  rw [textAt_local (h _ (.inr (.inr (.inl rfl))))]
  simp only [execute_local h, observations_local h, henv, plan_local h henv']

theorem findOptional_same {exist : String → Bool} {sk : Bool} {o : Option String} {name : String} {x : Option String} (h : Cli.findOptional exist sk o name = .ok x) : x = none ∨ x = o := by
  unfold Cli.findOptional at h
  cases o with
  | none => cases h; exact .inl rfl
  | some q =>
    simp only at h
    split_ifs at h
    · cases h; exact .inl rfl
    · unfold Cli.findFile at h
      split_ifs at h
      · cases h; exact .inr rfl
      · cases h

theorem findInputs_complex {exist : String → Bool} {args : Cli.Args} {cp vd : Option String} (h : Cli.findInputs exist args = .ok (cp, vd)) : cp = none ∨ cp = args.cp := by
  unfold Cli.findInputs at h
  cases h1 : Cli.findFile exist args.p "-p, --params" with
  | error e => rw [h1] at h; cases h
  | ok x1 =>
  cases h2 : Cli.findFile exist args.ob "-ob, --orbit" with
  | error e => rw [h1, h2] at h; cases h
  | ok x2 =>
  cases h3 : Cli.findFile exist args.c "-c, --config" with
  | error e => rw [h1, h2, h3] at h; cases h
  | ok x3 =>
  cases h4 : Cli.findFile exist args.o "-o, --outfile" with
  | error e => rw [h1, h2, h3, h4] at h; cases h
  | ok x4 =>
  cases h5 : Cli.findFile exist args.pd "-pd, --pointing_database" with
  | error e => rw [h1, h2, h3, h4, h5] at h; cases h
  | ok x5 =>
  cases h6 : Cli.findOptional exist true args.cp "-cp, --complex_physical_parameters" with
  | error e => rw [h1, h2, h3, h4, h5, h6] at h; cases h
  | ok x6 =>
  cases h7 : Cli.findOptional exist false args.vd "-vd, --visits-db" with
  | error e => rw [h1, h2, h3, h4, h5, h6, h7] at h; cases h
  | ok x7 =>
  rw [h1, h2, h3, h4, h5, h6, h7] at h
  cases h
  exact findOptional_same h6

theorem field_named {exist isDir : String → Bool} {g : Cli.Glob} {args : Cli.Args} {fs : Cli.FS} {a : CmdArgs} (h : (Cli.commandLine exist isDir g args fs).1 = .ok a) {p : String}
    (hp : Field a p) : Spec.Named args p := by
  unfold Cli.commandLine at h
  cases hi : Cli.findInputs exist args with
  | error e => rw [hi] at h; cases h
  | ok cv =>
    obtain ⟨cp, vd⟩ := cv
    have hcp : cp = none ∨ cp = args.cp := findInputs_complex hi
    rw [hi] at h
    simp only at h
    cases ho : (Cli.checkOutputs isDir g args fs).1 with
    | error e => rw [ho] at h; cases h
    | ok u =>
      rw [ho] at h
      have h := (Except.ok.inj h).symm
      subst h
      unfold Field at hp
      unfold Spec.Named
      simp only at hp
      rcases hp with hp | hp | hp | hp | hp | hp
      · exact .inl hp
      · exact .inr (.inl hp)
      · exact .inr (.inr (.inl hp))
      · exact .inr (.inr (.inr (.inr (.inl hp))))
      · rcases hcp with hcp | hcp
        · rw [hcp] at hp; cases hp
        · exact .inr (.inr (.inr (.inr (.inr (.inl (hcp ▸ hp))))))
      · exact .inr (.inr (.inr (.inr (.inr (.inr (.inr hp))))))

/-- C101 (what a run reads): besides what the calculations are set up with, a run looks only at the files named on its command line. -/
theorem C101_reads {w : World G W V} {argv : List Str} {args : Cli.Args} {v : Bool} (hargs : Argv.parseRun argv = .ok (args, v)) (hg : Cli.Spec.GlobSound w.glob)
    {reads : String → Prop} (hn : ∀ p, Spec.Named args p → reads p) (henv : SetUpFrom w.env reads) : Reads (rubin w argv) args reads where
  means a v' h := by
    have h : Argv.parseRun argv = .ok (a, v') := h
    rw [hargs] at h
    cases h
    rfl
  named := hn
  only _ _ h e e' he := plan_local (fun p hp => he p (hn p (field_named h hp))) (fun c => henv c _ e e' he)
  glob := hg

/-- C101 (what a run reads, either survey). -/
theorem C101_reads_des {w : DesWorld G W V} {argv : List Str} {args : Cli.Args} {v : Bool} (hargs : Argv.parseRun argv = .ok (args, v)) (hg : Cli.Spec.GlobSound w.base.glob)
    {reads : String → Prop} (hn : ∀ p, Spec.Named args p → reads p) (henv : SetUpFrom w.env reads) (henv' : SetUpFrom w.base.env reads) : Reads (eitherSurvey w argv) args reads where
  means a v' h := by
    have h : Argv.parseRun argv = .ok (a, v') := h
    rw [hargs] at h
    cases h
    rfl
  named := hn
  only _ _ h e e' he := desPlan_local (fun p hp => he p (hn p (field_named h hp))) (fun c => henv c _ e e' he) (fun c => henv' c _ e e' he)
  glob := hg

/-! ## Parts of a population at the same time -/

theorem isOutput_csv (a : Cli.Args) : Spec.IsOutput a (a.o ++ "/" ++ a.t ++ ".csv") := .inl (History.belongs_csv _ _)
theorem isOutput_db (a : Cli.Args) : Spec.IsOutput a (a.o ++ "/" ++ a.t ++ ".db") := .inl (History.belongs_db _ _)

/-- Runs that have started on the same files `d`, have been carried out at the same time in some order of their steps and have all finished, with the files `D` in the end. They do not
meet; the settings are `c` but for the chunk size, and the input files are as in C85. (`after` of the runs is not used.) -/
structure AtOnce (mk : List Str → Proc) (w : World G W V) (c : Config.Cfg) (runs : ι → Run) (reads : ι → String → Prop) (d D : Disk) : Prop where
  said : ∀ i, Argv.parseRun (runs i).argv = .ok ((runs i).args, (runs i).verbose)
  looks : ∀ i, Reads (mk (runs i).argv) (runs i).args (reads i)
  separate : Spec.Separate (fun i => (runs i).args) reads
  before : ∀ i, (runs i).before = d
  ended : Schedule (fun i => mk (runs i).argv) allWaiting d (fun i => .over (runs i).log .finished) D
  configured : ∀ i, Configured w d (runs i).args (sized c (runs i).chunk)
  names : ∀ i, History.Spec.NamesDiffer (runs i).args
  one : ∀ i, History.Spec.AtMostOne (runs i).args d
  objects : ∀ i, Spec.Objects w.ids d (runs i).args (sized c (runs i).chunk) (runs i).orb (runs i).others

/-- The same run with other files in the end. -/
def leaving (runs : ι → Run) (after : ι → Disk) (i : ι) : Run := { runs i with after := after i }

theorem atOnce_rubin {w : World G W V} {c : Config.Cfg} {runs : ι → Run} {reads : ι → String → Prop} {d D : Disk} (h : AtOnce (rubin w) w c runs reads d D) :
    ∃ after, (∀ i, Finished w c (leaving runs after i)) ∧ ∀ i p, Spec.IsOutput (runs i).args p → D.get p = (after i).get p := by
  have key : ∀ i, ∃ d', Invoked w (runs i).argv d d' (runs i).log .finished ∧ ∀ p, Spec.IsOutput (runs i).args p → D.get p = d'.get p := fun i =>
    (C101_alone h.looks h.separate h.one h.ended rfl).1 G W V w (runs i).argv rfl
  choose after k1 k2 using key
  refine ⟨after, fun i => ?_, k2⟩
  have hb : (leaving runs after i).before = d := h.before i
  exact ⟨h.said i, by rw [hb]; exact k1 i, by rw [hb]; exact h.configured i, h.names i, by rw [hb]; exact h.one i, by rw [hb]; exact h.objects i⟩

theorem atOnce_des {w : DesWorld G W V} {c : Config.Cfg} {runs : ι → Run} {reads : ι → String → Prop} {d D : Disk} (h : AtOnce (eitherSurvey w) w.base c runs reads d D)
    (hdes : ∀ i, IsDes (runs i).args) :
    ∃ after, (∀ i, DesFinished w c (leaving runs after i)) ∧ ∀ i p, Spec.IsOutput (runs i).args p → D.get p = (after i).get p := by
  have key : ∀ i, ∃ d', DesInvoked w (runs i).argv d d' (runs i).log .finished ∧ ∀ p, Spec.IsOutput (runs i).args p → D.get p = d'.get p := fun i =>
    (C101_alone h.looks h.separate h.one h.ended rfl).2 G W V w (runs i).argv rfl
  choose after k1 k2 using key
  refine ⟨after, fun i => ?_, k2⟩
  have hb : (leaving runs after i).before = d := h.before i
  exact ⟨h.said i, hdes i, by rw [hb]; exact k1 i, by rw [hb]; exact h.configured i, h.names i, by rw [hb]; exact h.one i, by rw [hb]; exact h.objects i⟩

omit [DecidableEq ι] in
theorem leaving_mem {whole : Run} {runs : ι → Run} {after : ι → Disk} {all : List ι} {P : Run → Prop} (h0 : P whole) (h1 : ∀ i ∈ all, P (leaving runs after i)) :
    ∀ r ∈ whole :: all.map (leaving runs after), P r := by
  intro r hr
  rcases List.mem_cons.1 hr with rfl | hr
  · exact h0
  · obtain ⟨i, hi, rfl⟩ := List.mem_map.1 hr
    exact h1 i hi

omit [DecidableEq ι] in
theorem leaving_divided {whole : Run} {runs : ι → Run} {all : List ι} (h : Spec.Divided whole (all.map runs)) (after : ι → Disk) :
    Spec.Divided whole (all.map (leaving runs after)) := by
  refine ⟨fun p hp => ?_, ?_⟩
  · obtain ⟨i, hi, rfl⟩ := List.mem_map.1 hp
    exact h.rows (runs i) (List.mem_map_of_mem hi)
  · have := h.objects
    rw [List.flatMap_map] at this ⊢
    exact this

omit [DecidableEq ι] in
theorem leaving_together {runs : ι → Run} {all : List ι} {after : ι → Disk} {D : Disk} (h : ∀ i p, Spec.IsOutput (runs i).args p → D.get p = (after i).get p)
    {read : Str → Option (List (List Str))} {f : String} {file file' : Option History.Content}
    (hres : (f = "csv" → Spec.LinesTogether read file ((all.map (leaving runs after)).map fun p => p.after.get (p.args.o ++ "/" ++ p.args.t ++ ".csv"))) ∧
      (f = "sqlite3" → Spec.TableTogether file' ((all.map (leaving runs after)).map fun p => p.after.get (p.args.o ++ "/" ++ p.args.t ++ ".db")))) :
    (f = "csv" → Spec.LinesTogether read file (all.map fun i => D.get ((runs i).args.o ++ "/" ++ (runs i).args.t ++ ".csv"))) ∧
    (f = "sqlite3" → Spec.TableTogether file' (all.map fun i => D.get ((runs i).args.o ++ "/" ++ (runs i).args.t ++ ".db"))) := by
  rw [List.map_map, List.map_map] at hres
  have e1 : (all.map fun i => D.get ((runs i).args.o ++ "/" ++ (runs i).args.t ++ ".csv")) =
      all.map ((fun p : Run => p.after.get (p.args.o ++ "/" ++ p.args.t ++ ".csv")) ∘ leaving runs after) :=
    List.map_congr_left fun i _ => h i _ (isOutput_csv _)
  have e2 : (all.map fun i => D.get ((runs i).args.o ++ "/" ++ (runs i).args.t ++ ".db")) =
      all.map ((fun p : Run => p.after.get (p.args.o ++ "/" ++ p.args.t ++ ".db")) ∘ leaving runs after) :=
    List.map_congr_left fun i _ => h i _ (isOutput_db _)
  rw [e1, e2]
  exact hres

/-- C101 (parts, given ephemerides): take a run that has finished, and runs on parts of its objects as in C94, now carried out at the same time, with their
steps in any order. Once all of these have finished, their results have together the lines of the whole run's results. -/
theorem C101_external {w : World G W V} {c : Config.Cfg} {whole : Run} {runs : ι → Run} {all : List ι} {reads : ι → String → Prop} {d D : Disk}
    (hg : Cli.Spec.GlobSound w.glob) (hwhole : Finished w c whole) (h : AtOnce (rubin w) w c runs reads d D)
    (hext : c.input.ephemeridesType = "external")
    (heph : ∀ r ∈ whole :: all.map runs, ∃ pe, r.args.er = some pe ∧ Spec.Table w.ids c.input.ephFormat r.before pe r.eph)
    (hdiv : Spec.Divided whole (all.map runs)) (hsame : Spec.SameEphemerides whole (all.map runs))
    (ho : Pipeline.Spec.OncePerTime (Spec.observed w.parse whole.eph whole.orb whole.others))
    {columns : List String} (hcols : ∀ r ∈ whole :: all.map runs, ∀ a, Accepted w r.before r.args a → w.columns (sized c r.chunk) a = columns)
    {E : Pipeline.Env G W V}
    (henv : ∀ r ∈ whole :: all.map runs, ∀ a E', Accepted w r.before r.args a → w.env (sized c r.chunk) a (checked w r.args r.before) = some E' → E' = E)
    (hreg : Pipeline.Spec.Regular E c)
    {shown : Cell → Str} (hshown : w.lines.output = Csv.line shown) (h2 : 2 ≤ columns.length) :
    (c.output.format = "csv" → Spec.LinesTogether Csv.read (whole.after.get (whole.args.o ++ "/" ++ whole.args.t ++ ".csv"))
      (all.map fun i => D.get ((runs i).args.o ++ "/" ++ (runs i).args.t ++ ".csv"))) ∧
    (c.output.format = "sqlite3" → Spec.TableTogether (whole.after.get (whole.args.o ++ "/" ++ whole.args.t ++ ".db"))
      (all.map fun i => D.get ((runs i).args.o ++ "/" ++ (runs i).args.t ++ ".db"))) := by
  obtain ⟨after, hfin, hout⟩ := atOnce_rubin h
  have hin : ∀ i ∈ all, runs i ∈ whole :: all.map runs := fun i hi => List.mem_cons_of_mem _ (List.mem_map_of_mem hi)
  refine leaving_together hout (C94_external (whole := whole) (parts := all.map (leaving runs after)) hg (leaving_mem hwhole fun i _ => hfin i) hext
    (leaving_mem (heph whole List.mem_cons_self) fun i hi => heph (runs i) (hin i hi)) (leaving_divided hdiv after)
    (fun p hp => by obtain ⟨i, hi, rfl⟩ := List.mem_map.1 hp; exact hsame (runs i) (List.mem_map_of_mem hi)) ho
    (leaving_mem (hcols whole List.mem_cons_self) fun i hi => hcols (runs i) (hin i hi))
    (leaving_mem (henv whole List.mem_cons_self) fun i hi => henv (runs i) (hin i hi)) hreg hshown h2)

/-- C101 (parts, generated ephemerides). -/
theorem C101_generated {w : World G W V} {c : Config.Cfg} {whole : Run} {runs : ι → Run} {all : List ι} {reads : ι → String → Prop} {d D : Disk}
    (hg : Cli.Spec.GlobSound w.glob) (hwhole : Finished w c whole) (h : AtOnce (rubin w) w c runs reads d D)
    (hext : c.input.ephemeridesType ≠ "external") {ephem : List (Rec Str) → List (Pointing.Obs W)} {cull : Rec Str → Bool}
    (hephem : ∀ r ∈ whole :: all.map runs, ∀ a, Accepted w r.before r.args a → w.ephem (sized c r.chunk) a = ephem ∧ w.cull (sized c r.chunk) a = cull)
    (halone : Spec.EachAlone ephem whole.orb) (hdiv : Spec.Divided whole (all.map runs))
    (ho : Pipeline.Spec.OncePerTime ((Spec.bright c cull whole.orb whole.others).flatMap fun r => ephem [r]))
    {columns : List String} (hcols : ∀ r ∈ whole :: all.map runs, ∀ a, Accepted w r.before r.args a → w.columns (sized c r.chunk) a = columns)
    {E : Pipeline.Env G W V}
    (henv : ∀ r ∈ whole :: all.map runs, ∀ a E', Accepted w r.before r.args a → w.env (sized c r.chunk) a (checked w r.args r.before) = some E' → E' = E)
    (hreg : Pipeline.Spec.Regular E c)
    {shown : Cell → Str} (hshown : w.lines.output = Csv.line shown) (h2 : 2 ≤ columns.length) :
    (c.output.format = "csv" → Spec.LinesTogether Csv.read (whole.after.get (whole.args.o ++ "/" ++ whole.args.t ++ ".csv"))
      (all.map fun i => D.get ((runs i).args.o ++ "/" ++ (runs i).args.t ++ ".csv"))) ∧
    (c.output.format = "sqlite3" → Spec.TableTogether (whole.after.get (whole.args.o ++ "/" ++ whole.args.t ++ ".db"))
      (all.map fun i => D.get ((runs i).args.o ++ "/" ++ (runs i).args.t ++ ".db"))) := by
  obtain ⟨after, hfin, hout⟩ := atOnce_rubin h
  have hin : ∀ i ∈ all, runs i ∈ whole :: all.map runs := fun i hi => List.mem_cons_of_mem _ (List.mem_map_of_mem hi)
  refine leaving_together hout (C94_generated (whole := whole) (parts := all.map (leaving runs after)) hg (leaving_mem hwhole fun i _ => hfin i) hext
    (leaving_mem (hephem whole List.mem_cons_self) fun i hi => hephem (runs i) (hin i hi)) halone (leaving_divided hdiv after) ho
    (leaving_mem (hcols whole List.mem_cons_self) fun i hi => hcols (runs i) (hin i hi))
    (leaving_mem (henv whole List.mem_cons_self) fun i hi => henv (runs i) (hin i hi)) hreg hshown h2)

/-- C101 (parts of a DES run, given ephemerides). -/
theorem C101_external_des {w : DesWorld G W V} {c : Config.Cfg} {whole : Run} {runs : ι → Run} {all : List ι} {reads : ι → String → Prop} {d D : Disk}
    (hg : Cli.Spec.GlobSound w.base.glob) (hwhole : DesFinished w c whole) (h : AtOnce (eitherSurvey w) w.base c runs reads d D) (hdes : ∀ i, IsDes (runs i).args)
    (hext : c.input.ephemeridesType = "external")
    (heph : ∀ r ∈ whole :: all.map runs, ∃ pe, r.args.er = some pe ∧ Spec.Table w.base.ids c.input.ephFormat r.before pe r.eph)
    (hdiv : Spec.Divided whole (all.map runs)) (hsame : Spec.SameEphemerides whole (all.map runs))
    {columns : List String} (hcols : ∀ r ∈ whole :: all.map runs, ∀ a, Accepted w.base r.before r.args a → w.columns (sized c r.chunk) a = columns)
    {E : DesRun.Env G W V}
    (henv : ∀ r ∈ whole :: all.map runs, ∀ a E', Accepted w.base r.before r.args a → w.env (sized c r.chunk) a (checked w.base r.args r.before) = some E' → E' = E)
    (hdet : DesRun.Spec.Deterministic c) (hs : ∀ l, (E.base.sortIndex l).Perm l) (ht : Des.Spec.SortSound E.sortTime)
    {shown : Cell → Str} (hshown : w.base.lines.output = Csv.line shown) (h2 : 2 ≤ columns.length) :
    (c.output.format = "csv" → Spec.LinesTogether Csv.read (whole.after.get (whole.args.o ++ "/" ++ whole.args.t ++ ".csv"))
      (all.map fun i => D.get ((runs i).args.o ++ "/" ++ (runs i).args.t ++ ".csv"))) ∧
    (c.output.format = "sqlite3" → Spec.TableTogether (whole.after.get (whole.args.o ++ "/" ++ whole.args.t ++ ".db"))
      (all.map fun i => D.get ((runs i).args.o ++ "/" ++ (runs i).args.t ++ ".db"))) := by
  obtain ⟨after, hfin, hout⟩ := atOnce_des h hdes
  have hin : ∀ i ∈ all, runs i ∈ whole :: all.map runs := fun i hi => List.mem_cons_of_mem _ (List.mem_map_of_mem hi)
  refine leaving_together hout (C98_external (whole := whole) (parts := all.map (leaving runs after)) hg (leaving_mem hwhole fun i _ => hfin i) hext
    (leaving_mem (heph whole List.mem_cons_self) fun i hi => heph (runs i) (hin i hi)) (leaving_divided hdiv after)
    (fun p hp => by obtain ⟨i, hi, rfl⟩ := List.mem_map.1 hp; exact hsame (runs i) (List.mem_map_of_mem hi))
    (leaving_mem (hcols whole List.mem_cons_self) fun i hi => hcols (runs i) (hin i hi))
    (leaving_mem (henv whole List.mem_cons_self) fun i hi => henv (runs i) (hin i hi)) hdet hs ht hshown h2)

/-- C101 (parts of a DES run, generated ephemerides). -/
theorem C101_generated_des {w : DesWorld G W V} {c : Config.Cfg} {whole : Run} {runs : ι → Run} {all : List ι} {reads : ι → String → Prop} {d D : Disk}
    (hg : Cli.Spec.GlobSound w.base.glob) (hwhole : DesFinished w c whole) (h : AtOnce (eitherSurvey w) w.base c runs reads d D) (hdes : ∀ i, IsDes (runs i).args)
    (hext : c.input.ephemeridesType ≠ "external") {ephem : List (Rec Str) → List (Pointing.Obs W)} {cull : Rec Str → Bool}
    (hephem : ∀ r ∈ whole :: all.map runs, ∀ a, Accepted w.base r.before r.args a → w.base.ephem (sized c r.chunk) a = ephem ∧ w.base.cull (sized c r.chunk) a = cull)
    (halone : Spec.EachAlone ephem whole.orb) (hdiv : Spec.Divided whole (all.map runs))
    {columns : List String} (hcols : ∀ r ∈ whole :: all.map runs, ∀ a, Accepted w.base r.before r.args a → w.columns (sized c r.chunk) a = columns)
    {E : DesRun.Env G W V}
    (henv : ∀ r ∈ whole :: all.map runs, ∀ a E', Accepted w.base r.before r.args a → w.env (sized c r.chunk) a (checked w.base r.args r.before) = some E' → E' = E)
    (hdet : DesRun.Spec.Deterministic c) (hs : ∀ l, (E.base.sortIndex l).Perm l) (ht : Des.Spec.SortSound E.sortTime)
    {shown : Cell → Str} (hshown : w.base.lines.output = Csv.line shown) (h2 : 2 ≤ columns.length) :
    (c.output.format = "csv" → Spec.LinesTogether Csv.read (whole.after.get (whole.args.o ++ "/" ++ whole.args.t ++ ".csv"))
      (all.map fun i => D.get ((runs i).args.o ++ "/" ++ (runs i).args.t ++ ".csv"))) ∧
    (c.output.format = "sqlite3" → Spec.TableTogether (whole.after.get (whole.args.o ++ "/" ++ whole.args.t ++ ".db"))
      (all.map fun i => D.get ((runs i).args.o ++ "/" ++ (runs i).args.t ++ ".db"))) := by
  obtain ⟨after, hfin, hout⟩ := atOnce_des h hdes
  have hin : ∀ i ∈ all, runs i ∈ whole :: all.map runs := fun i hi => List.mem_cons_of_mem _ (List.mem_map_of_mem hi)
  refine leaving_together hout (C98_generated (whole := whole) (parts := all.map (leaving runs after)) hg (leaving_mem hwhole fun i _ => hfin i) hext
    (leaving_mem (hephem whole List.mem_cons_self) fun i hi => hephem (runs i) (hin i hi)) halone (leaving_divided hdiv after)
    (leaving_mem (hcols whole List.mem_cons_self) fun i hi => hcols (runs i) (hin i hi))
    (leaving_mem (henv whole List.mem_cons_self) fun i hi => henv (runs i) (hin i hi)) hdet hs ht hshown h2)

end Sorcha.Whole.Props
