import Verif.Whole.PartsLemmas
import Verif.Whole.Combine
import Verif.Sqlite.Props
import Verif.Cmd.Props

/-!
# Properties: one population in several runs (C94)
-/

namespace Sorcha.Whole.Props

open Sorcha.Csv (Str)
open Sorcha.Readers (Rec)
open Sorcha.History (Disk Chunk)
open Sorcha.Output (Cell)
open Sorcha.Pipeline (own)
open Sorcha.Whole.Spec (Run sized)
open Sorcha.Argv.Spec (lastOf)

variable {G W V : Type}

/-- A run that has finished, with the settings `c` but for the chunk size: results, ephemerides and statistics have different names, there was at most one file of old results,
and the input files are as in C85. -/
structure Finished (w : World G W V) (c : Config.Cfg) (r : Run) : Prop where
  said : Argv.parseRun r.argv = .ok (r.args, r.verbose)
  done : Invoked w r.argv r.before r.after r.log .finished
  configured : Configured w r.before r.args (sized c r.chunk)
  names : History.Spec.NamesDiffer r.args
  one : History.Spec.AtMostOne r.args r.before
  objects : Spec.Objects w.ids r.before r.args (sized c r.chunk) r.orb r.others

/-- What such a run leaves, from its rounds. -/
theorem run_facts {w : World G W V} {c : Config.Cfg} {r : Run} (hg : Cli.Spec.GlobSound w.glob) (hf : Finished w c r) {obs : List (Pointing.Obs W)}
    (hobs : ∀ a, Accepted w r.before r.args a → Observes w r.before r.args (sized c r.chunk) a r.orb r.others obs)
    {columns : List String} (hcols : ∀ a, Accepted w r.before r.args a → w.columns (sized c r.chunk) a = columns) {E : Pipeline.Env G W V}
    (henv : ∀ a E', Accepted w r.before r.args a → w.env (sized c r.chunk) a (checked w r.args r.before) = some E' → E' = E)
    {shown : Cell → Str} (hshown : w.lines.output = Csv.line shown) (h2 : 2 ≤ columns.length) :
    ∃ s bs outs, Pipeline.rounds E c s bs = .ok outs ∧ Pipeline.Spec.Whole bs ∧ (∀ id, own id bs.flatten = own id obs) ∧
      (c.output.format = "csv" → (outs = [] ∧ r.after.get (r.args.o ++ "/" ++ r.args.t ++ ".csv") = none) ∨
        (outs ≠ [] ∧ ∃ t, r.after.get (r.args.o ++ "/" ++ r.args.t ++ ".csv") = some (.text t) ∧
          Csv.read t = some ((Output.Spec.wantedColumns (outConfig c).columns (outConfig c).keepUnlinked columns).map String.toList ::
            outs.flatten.map fun f => (outLine w.dist (outConfig c) columns (w.cells f)).map shown))) ∧
      (c.output.format = "sqlite3" → (outs = [] ∧ r.after.get (r.args.o ++ "/" ++ r.args.t ++ ".db") = none) ∨
        (outs ≠ [] ∧ r.after.get (r.args.o ++ "/" ++ r.args.t ++ ".db") =
          some (.db (some (Spec.databaseColumns c columns, outs.flatten.map fun f => dbLine w.dist c columns (w.cells f))) ["ObjID", "fieldMJD_TAI", "optFilter"]))) := by
  obtain ⟨a, E', bs, chunks, p1, p2, p3, p4, p5⟩ := run_parts hf.said hf.configured hf.done
  obtain rfl := henv a E' p1 p2
  obtain ⟨outs, e1, f1, -, -⟩ := rounds_ok w E' _ _ _ _ _ p4
  obtain ⟨hw, hown⟩ := observes_blocks hf.objects p1 (hobs a p1) p3
  rw [hcols a p1] at f1
  have f1' : List.Forall₂ (fun out g => Output.outputFrame w.dist (outConfig c) ⟨columns, out.map w.cells⟩ = .ok g) outs (chunks.filterMap fun c => c.results.map (·.1)) := f1
  refine ⟨_, _, outs, (Pipeline.rounds_simulation E' c _ c.simulation _ _).symm.trans e1, hw, hown, fun hcsv => ?_, fun hsql => ?_⟩
  · rw [if_pos (show (sized c r.chunk).output.format = "csv" from hcsv)] at p5
    rw [file_of_run hg hf.names hf.one hshown p5]
    by_cases h0 : outs = []
    · subst h0
      rw [List.forall₂_nil_left_iff.1 f1']
      exact .inl ⟨rfl, rfl⟩
    · exact .inr ⟨h0, read_results h2 h0 f1'⟩
  · rw [if_neg (show ¬ (sized c r.chunk).output.format = "csv" by rw [show (sized c r.chunk).output.format = "sqlite3" from hsql]; decide)] at p5
    rw [db_of_run hg hf.names hf.one p5]
    by_cases h0 : outs = []
    · subst h0
      rw [List.forall₂_nil_left_iff.1 f1']
      exact .inl ⟨rfl, rfl⟩
    · exact .inr ⟨h0, dbOf_some (table_results h0 f1')⟩

theorem forall₂_map_of {α β γ : Type} {R : β → γ → Prop} (f : α → β) (g : α → γ) (l : List α) (h : ∀ x ∈ l, R (f x) (g x)) : List.Forall₂ R (l.map f) (l.map g) := by
  induction l with
  | nil => exact .nil
  | cons x l ih => exact .cons (h x (List.mem_cons_self ..)) (ih fun y hy => h y (List.mem_cons_of_mem _ hy))

/-- Runs on parts of the objects, with the same observations, leave together the lines of the whole run. -/
theorem together {w : World G W V} {c : Config.Cfg} {whole : Run} {parts : List Run} (hg : Cli.Spec.GlobSound w.glob) (hf : ∀ r ∈ whole :: parts, Finished w c r)
    {obs : Run → List (Pointing.Obs W)}
    (hobs : ∀ r ∈ whole :: parts, ∀ a, Accepted w r.before r.args a → Observes w r.before r.args (sized c r.chunk) a r.orb r.others (obs r))
    (hids : (parts.flatMap Run.ids).Perm whole.ids) (hown : ∀ p ∈ parts, ∀ id, own id (obs p) = if id ∈ p.ids then own id (obs whole) else [])
    (hout : ∀ id, id ∉ whole.ids → own id (obs whole) = []) (ho : Pipeline.Spec.OncePerTime (obs whole))
    {columns : List String} (hcols : ∀ r ∈ whole :: parts, ∀ a, Accepted w r.before r.args a → w.columns (sized c r.chunk) a = columns)
    {E : Pipeline.Env G W V}
    (henv : ∀ r ∈ whole :: parts, ∀ a E', Accepted w r.before r.args a → w.env (sized c r.chunk) a (checked w r.args r.before) = some E' → E' = E)
    (hreg : Pipeline.Spec.Regular E c) {shown : Cell → Str} (hshown : w.lines.output = Csv.line shown) (h2 : 2 ≤ columns.length) :
    (c.output.format = "csv" → Spec.LinesTogether Csv.read (whole.after.get (whole.args.o ++ "/" ++ whole.args.t ++ ".csv"))
      (parts.map fun p => p.after.get (p.args.o ++ "/" ++ p.args.t ++ ".csv"))) ∧
    (c.output.format = "sqlite3" → Spec.TableTogether (whole.after.get (whole.args.o ++ "/" ++ whole.args.t ++ ".db"))
      (parts.map fun p => p.after.get (p.args.o ++ "/" ++ p.args.t ++ ".db"))) := by
  have key := fun (r : Run) (hr : r ∈ whole :: parts) => run_facts hg (hf r hr) (hobs r hr) (hcols r hr) (henv r hr) hshown h2
  haveI : Nonempty (Pipeline.State G) := let ⟨s, _⟩ := key whole (List.mem_cons_self ..); ⟨s⟩
  choose! state blocks outs h3 h4 h5 h6 h7 using key
  have hmem : whole ∈ whole :: parts := List.mem_cons_self ..
  have hpart : ∀ p ∈ parts, p ∈ whole :: parts := fun p hp => List.mem_cons_of_mem _ hp
  have hnd : (parts.flatMap Run.ids).Nodup := hids.nodup_iff.2 (hf whole hmem).objects.unique
  obtain ⟨o1, o2⟩ := own_parts Run.ids (fun p => (blocks p).flatten) (fun id => own id (obs whole)) parts hnd
    (fun p hp id => by rw [h5 p (hpart p hp), hown p hp])
  have hwp := whole_parts blocks parts (fun p hp => h4 p (hpart p hp)) o2
  have hflat : ∀ id, own id (blocks whole).flatten = own id (parts.flatMap blocks).flatten := by
    intro id
    have e : (parts.flatMap blocks).flatten = parts.flatMap fun p => (blocks p).flatten := by
      rw [List.flatMap_def, List.flatMap_def, List.flatten_flatten, List.map_map]; rfl
    rw [e, o1, h5 whole hmem]
    by_cases h : id ∈ parts.flatMap Run.ids
    · rw [if_pos h]
    · rw [if_neg h]
      exact hout id fun h' => h (hids.mem_iff.2 h')
  have hoA : Pipeline.Spec.OncePerTime (blocks whole).flatten := once_sub ho fun o h => Pipeline.own_mem (h5 whole hmem) h
  have hoB : Pipeline.Spec.OncePerTime (parts.flatMap blocks).flatten := once_sub hoA fun o h => Pipeline.own_mem (fun id => (hflat id).symm) h
  obtain ⟨z, z1, z2⟩ := rounds_parts hreg blocks state outs (state whole) parts (fun p hp => h3 p (hpart p hp)) hwp hoB
  obtain ⟨z', y1, y2⟩ := Pipeline.rounds_same hreg (state whole) (state whole) (h4 whole hmem) hwp hoA hflat (h3 whole hmem)
  rw [z1] at y1
  cases y1
  have hperm : (outs whole).flatten.Perm (parts.flatMap fun p => (outs p).flatten) := by
    refine (y2.trans z2).trans (List.Perm.of_eq ?_)
    rw [List.flatMap_def, List.flatMap_def, List.flatten_flatten, List.map_map]; rfl
  have hnil : outs whole = [] → ∀ p ∈ parts, outs p = [] := by
    intro h0 p hp
    rw [h0, List.flatten_nil] at hperm
    have := List.flatMap_eq_nil_iff.1 hperm.symm.eq_nil p hp
    exact (rounds_nonempty (h3 p (hpart p hp))).1 this
  have hlines : ∀ {β : Type} (L : Pipeline.Final W V → β), ((outs whole).flatten.map L).Perm (parts.map fun p => (outs p).flatten.map L).flatten := by
    intro β L
    refine (hperm.map L).trans (List.Perm.of_eq ?_)
    rw [List.map_flatMap, List.flatMap_def]
  refine ⟨fun hcsv => ?_, fun hsql => ?_⟩
  · rcases h6 whole hmem hcsv with ⟨h0, hn⟩ | ⟨h0, t, ht, hr⟩
    · refine .inl ⟨hn, ?_⟩
      intro f hfm
      obtain ⟨p, hp, rfl⟩ := List.mem_map.1 hfm
      rcases h6 p (hpart p hp) hcsv with ⟨-, hn⟩ | ⟨h1, -⟩
      · exact hn
      · exact absurd (hnil h0 p hp) h1
    · refine .inr ⟨t, _, _, _, ht, hr, hlines _, forall₂_map_of _ _ _ fun p hp => ?_⟩
      rcases h6 p (hpart p hp) hcsv with ⟨h1, hn⟩ | ⟨-, h1⟩
      · exact .inl ⟨hn, by rw [h1]; rfl⟩
      · exact .inr h1
  · rcases h7 whole hmem hsql with ⟨h0, hn⟩ | ⟨h0, ht⟩
    · refine .inl ⟨hn, ?_⟩
      intro f hfm
      obtain ⟨p, hp, rfl⟩ := List.mem_map.1 hfm
      rcases h7 p (hpart p hp) hsql with ⟨-, hn⟩ | ⟨h1, -⟩
      · exact hn
      · exact absurd (hnil h0 p hp) h1
    · refine .inr ⟨_, _, _, ht, ?_, ?_, hlines _, forall₂_map_of _ _ _ fun p hp => ?_⟩
      · rw [Ne, List.map_eq_nil_iff, rounds_nonempty (h3 whole hmem)]
        exact h0
      · intro l hl
        obtain ⟨f, -, rfl⟩ := List.mem_map.1 hl
        exact List.length_map _
      · rcases h7 p (hpart p hp) hsql with ⟨h1, hn⟩ | ⟨-, h1⟩
        · exact .inl ⟨hn, by rw [h1]; rfl⟩
        · exact .inr h1

/-- C94 (given ephemerides): take a run that has finished, and runs on parts of its objects, each object in just one part, with the rows it has in the inputs of the whole run,
and the same settings but for the chunk size, with or without linking but without random features. Then the results of the parts have together the lines of the whole run's
results. The parts may have run before or after the whole run, on other disks, and each may read the whole ephemeris file. -/
theorem C94_external {w : World G W V} {c : Config.Cfg} {whole : Run} {parts : List Run} (hg : Cli.Spec.GlobSound w.glob) (hf : ∀ r ∈ whole :: parts, Finished w c r)
    (hext : c.input.ephemeridesType = "external")
    (heph : ∀ r ∈ whole :: parts, ∃ pe, r.args.er = some pe ∧ Spec.Table w.ids c.input.ephFormat r.before pe r.eph)
    (hdiv : Spec.Divided whole parts) (hsame : Spec.SameEphemerides whole parts)
    (ho : Pipeline.Spec.OncePerTime (Spec.observed w.parse whole.eph whole.orb whole.others))
    {columns : List String} (hcols : ∀ r ∈ whole :: parts, ∀ a, Accepted w r.before r.args a → w.columns (sized c r.chunk) a = columns)
    {E : Pipeline.Env G W V}
    (henv : ∀ r ∈ whole :: parts, ∀ a E', Accepted w r.before r.args a → w.env (sized c r.chunk) a (checked w r.args r.before) = some E' → E' = E)
    (hreg : Pipeline.Spec.Regular E c) {shown : Cell → Str} (hshown : w.lines.output = Csv.line shown) (h2 : 2 ≤ columns.length) :
    (c.output.format = "csv" → Spec.LinesTogether Csv.read (whole.after.get (whole.args.o ++ "/" ++ whole.args.t ++ ".csv"))
      (parts.map fun p => p.after.get (p.args.o ++ "/" ++ p.args.t ++ ".csv"))) ∧
    (c.output.format = "sqlite3" → Spec.TableTogether (whole.after.get (whole.args.o ++ "/" ++ whole.args.t ++ ".db"))
      (parts.map fun p => p.after.get (p.args.o ++ "/" ++ p.args.t ++ ".db"))) := by
  refine together hg hf (obs := fun r => Spec.observed w.parse r.eph r.orb r.others) ?_ hdiv.objects ?_ ?_ ho hcols henv hreg hshown h2
  · intro r hr a _
    obtain ⟨pe, h1, h3⟩ := heph r hr
    exact .inl ⟨hext, pe, r.eph, h1, h3, rfl⟩
  · intro p hp id
    exact external_part (hf p (List.mem_cons_of_mem _ hp)).objects (hf whole (List.mem_cons_self ..)).objects (hdiv.rows p hp) (hsame p hp) id
  · intro id hid
    rw [observed_own]; exact if_neg hid

/-- C94 (generated ephemerides). -/
theorem C94_generated {w : World G W V} {c : Config.Cfg} {whole : Run} {parts : List Run} (hg : Cli.Spec.GlobSound w.glob) (hf : ∀ r ∈ whole :: parts, Finished w c r)
    (hext : c.input.ephemeridesType ≠ "external") {ephem : List (Rec Str) → List (Pointing.Obs W)} {cull : Rec Str → Bool}
    (hephem : ∀ r ∈ whole :: parts, ∀ a, Accepted w r.before r.args a → w.ephem (sized c r.chunk) a = ephem ∧ w.cull (sized c r.chunk) a = cull)
    (halone : Spec.EachAlone ephem whole.orb) (hdiv : Spec.Divided whole parts)
    (ho : Pipeline.Spec.OncePerTime ((Spec.bright c cull whole.orb whole.others).flatMap fun r => ephem [r]))
    {columns : List String} (hcols : ∀ r ∈ whole :: parts, ∀ a, Accepted w r.before r.args a → w.columns (sized c r.chunk) a = columns)
    {E : Pipeline.Env G W V}
    (henv : ∀ r ∈ whole :: parts, ∀ a E', Accepted w r.before r.args a → w.env (sized c r.chunk) a (checked w r.args r.before) = some E' → E' = E)
    (hreg : Pipeline.Spec.Regular E c) {shown : Cell → Str} (hshown : w.lines.output = Csv.line shown) (h2 : 2 ≤ columns.length) :
    (c.output.format = "csv" → Spec.LinesTogether Csv.read (whole.after.get (whole.args.o ++ "/" ++ whole.args.t ++ ".csv"))
      (parts.map fun p => p.after.get (p.args.o ++ "/" ++ p.args.t ++ ".csv"))) ∧
    (c.output.format = "sqlite3" → Spec.TableTogether (whole.after.get (whole.args.o ++ "/" ++ whole.args.t ++ ".db"))
      (parts.map fun p => p.after.get (p.args.o ++ "/" ++ p.args.t ++ ".db"))) := by
  have hal : ∀ p ∈ parts, Spec.EachAlone ephem p.orb := by
    intro p hp objs hpo
    refine halone objs ⟨hpo.1, fun r hr => ?_⟩
    obtain ⟨x, hx, he⟩ := List.mem_map.1 (hpo.2 r hr)
    exact List.mem_map.2 ⟨x, (List.forall₂_cons.1 (hdiv.rows p hp)).1 x hx, he⟩
  refine together hg hf (obs := fun r => (Spec.bright c cull r.orb r.others).flatMap fun x => ephem [x]) ?_ hdiv.objects ?_ ?_ ho hcols henv hreg hshown h2
  · intro r hr a ha
    obtain ⟨h1, h3⟩ := hephem r hr a ha
    refine .inr ⟨hext, ?_, ?_⟩
    · rw [h1]
      rcases List.mem_cons.1 hr with rfl | hr
      · exact halone
      · exact hal r hr
    · rw [h1, h3]; rfl
  · intro p hp id
    exact generated_part (hf p (List.mem_cons_of_mem _ hp)).objects (hf whole (List.mem_cons_self ..)).objects (hdiv.rows p hp) (hal p hp) halone id
  · intro id hid
    rw [bright_own c cull halone (hf whole (List.mem_cons_self ..)).objects.unique]; exact if_neg hid

/-! ## The combined database -/

/-- C94 (the table of the combined database): when `sorcha outputs create-sqlite` finds the databases of the parts, and no other but perhaps the new one, which it does not find first, then
the table it makes has the columns and the lines of the whole run's database, if there is one. (The order of the files does not matter.) -/
theorem C94_combined {d : Disk} {paths : List String} {cols : List String} {lines : List (List Cell)} {ix : List String}
    (h : Spec.TableTogether (some (.db (some (cols, lines)) ix)) (paths.map d.get)) (hn : paths.Nodup) {found : List String} {inputs out : String}
    (hfound : (found.filter (· ≠ out)).Perm (paths.filter fun p => (d.get p).isSome)) (hin : inputs ∉ found) (hfirst : found.head? ≠ some out) :
    ∃ rows, Cli.createResults (tableAt d) found inputs out = .ok ⟨cols, rows⟩ ∧ rows.Perm lines := by
  rcases h with ⟨h0, -⟩ | ⟨cols', lines', parts, h1, hne, hlen, hperm, hparts⟩
  · cases h0
  cases h1
  rw [List.forall₂_map_left_iff] at hparts
  let rowsAt : String → List (List Cell) := fun p => match tableAt d p with | some t => t.rows | none => []
  have hat : ∀ p ∈ paths, (d.get p).isSome → tableAt d p = some ⟨cols, rowsAt p⟩ ∧ (∀ r ∈ rowsAt p, r ∈ parts.flatten) := by
    clear hperm hfound hn
    induction hparts with
    | nil => intro p hp; cases hp
    | @cons q part qs ps hq _ ih =>
      intro p hp hs
      rcases List.mem_cons.1 hp with rfl | hp
      · rcases hq with ⟨hq, -⟩ | hq
        · rw [hq] at hs; cases hs
        · have ht : tableAt d p = some ⟨cols, part⟩ := by unfold tableAt; rw [hq]
          have hr : rowsAt p = part := by show (match tableAt d p with | some t => t.rows | none => []) = part; rw [ht]
          rw [hr, List.flatten_cons]
          exact ⟨ht, fun r h => List.mem_append_left _ h⟩
      · obtain ⟨i1, i2⟩ := ih p hp hs
        exact ⟨i1, fun r h => by rw [List.flatten_cons]; exact List.mem_append_right _ (i2 r h)⟩
  have hsum : parts.flatten = (paths.filter fun p => (d.get p).isSome).flatMap rowsAt := by
    clear hperm hfound hn hat
    induction hparts with
    | nil => rfl
    | @cons q part qs ps hq _ ih =>
      rw [List.flatten_cons, ih, List.filter_cons]
      rcases hq with ⟨hq, rfl⟩ | hq
      · rw [hq]; simp
      · have hr : rowsAt q = part := by show (match tableAt d q with | some t => t.rows | none => []) = part; unfold tableAt; rw [hq]
        rw [if_pos (by rw [hq]; rfl), List.flatMap_cons, hr]
  cases found with
  | nil =>
    exfalso
    have h0 : (paths.filter fun p => (d.get p).isSome) = [] := (hfound.symm).eq_nil
    rw [hsum, h0] at hperm
    exact hne hperm.eq_nil
  | cons first rest =>
    have := Cli.Props.C42_rows (tableAt d) first rest inputs out cols rowsAt hin (fun h => hfirst (by rw [h]; rfl)) (by
      intro f hf hfo
      have hm : f ∈ paths.filter fun p => (d.get p).isSome := hfound.mem_iff.1 (List.mem_filter.2 ⟨hf, by simpa using hfo⟩)
      obtain ⟨m1, m2⟩ := List.mem_filter.1 hm
      obtain ⟨a1, a2⟩ := hat f m1 m2
      exact ⟨a1, fun r hr => hlen r (hperm.mem_iff.2 (a2 r hr))⟩)
    refine ⟨_, this, ?_⟩
    refine (hfound.flatMap_right _).trans ?_
    rw [← hsum]
    exact hperm.symm

theorem createInputs_other {V : Type} {L : Sqlite.Lib V} {db db' : Sqlite.Db V} {name : String} {files : List (List Sqlite.Line)}
    (h : Sqlite.createInputs L db name files = .ok db') {other : String} (ho : other ≠ name) {t : Cli.Tab V} (ht : Sqlite.Spec.Has db other t) :
    Sqlite.Spec.Has db' other t := by
  unfold Sqlite.createInputs at h
  by_cases h0 : files = []
  · rw [if_pos h0] at h; cases h
  · rw [if_neg h0] at h
    cases h1 : Sqlite.insertFiles L none files with
    | error e => rw [h1] at h; cases h
    | ok x =>
      rw [h1] at h
      cases x with
      | none => cases h; exact ht
      | some u => cases h; exact (Sqlite.has_put_other db ho u t).2 ht

/-- The path of the database of a run. -/
def dbPath (r : Run) : String := r.args.o ++ "/" ++ r.args.t ++ ".db"

theorem create_sqlite_table {S : Shell} {a : Cmd.SqlArgs} {d : Disk} {db db' : Sqlite.Db Cell}
    (hdone : createSqlite S a d db = .ok db') {whole : Run} {parts : List Run} {cols : List String} {lines : List (List Cell)} {ix : List String}
    (hwhole : whole.after.get (dbPath whole) = some (.db (some (cols, lines)) ix))
    (htog : Spec.TableTogether (whole.after.get (dbPath whole)) (parts.map fun p => p.after.get (dbPath p)))
    (hkept : ∀ p ∈ parts, d.get (dbPath p) = p.after.get (dbPath p)) (hdiff : (parts.map dbPath).Nodup)
    (hglob : Spec.Finds (S.glob d) (fun q => (d.get q).isSome) (S.abspath a.results) (a.stem.getD ""))
    (hroot : (S.abspath a.results).toList.getLast? ≠ some '/') (hstem : (a.stem.getD "").toList.head? ≠ some '/') (hdir : ∀ q, S.isDir d q = true → d.get q = none)
    (hbelow : ∀ p ∈ parts, Spec.Below (S.abspath a.results) (a.stem.getD "") (dbPath p) ∧ dbPath p ≠ S.abspath a.output)
    (honly : ∀ q, (d.get q).isSome → Spec.Below (S.abspath a.results) (a.stem.getD "") q → q ∈ parts.map dbPath ∨ q = S.abspath a.output)
    (hfirst : (S.glob d (S.abspath a.results ++ "/**/" ++ a.stem.getD "" ++ "*.db")).head? ≠ some (S.abspath a.output)) :
    ∃ rows, Sqlite.Spec.Has db' "sorcha_results" ⟨cols, rows⟩ ∧ rows.Perm lines := by
  obtain ⟨f1, f2⟩ := hglob
  have hpat : pattern (S.abspath a.results) (a.stem.getD "") = S.abspath a.results ++ "/**/" ++ a.stem.getD "" ++ "*.db" := by
    unfold pattern
    rw [if_neg hstem, Setup.join, if_neg hroot]
    simp only [String.append_assoc]
    rfl
  unfold createSqlite at hdone
  by_cases hi : S.isDir d (S.abspath a.inputs) = true
  swap
  · rw [if_pos (by simpa using hi)] at hdone; cases hdone
  rw [if_neg (by simpa using hi)] at hdone
  by_cases hr : S.isDir d (S.abspath a.results) = true
  swap
  · rw [if_pos (by simpa using hr)] at hdone; cases hdone
  rw [if_neg (by simpa using hr), hpat] at hdone
  rw [hwhole] at htog
  have htog' : Spec.TableTogether (some (.db (some (cols, lines)) ix)) ((parts.map dbPath).map d.get) := by
    rw [List.map_map, show parts.map (d.get ∘ dbPath) = parts.map fun p => p.after.get (dbPath p) from List.map_congr_left hkept]
    exact htog
  have hm : ∀ q, q ∈ (S.glob d (S.abspath a.results ++ "/**/" ++ a.stem.getD "" ++ "*.db")).filter (· ≠ S.abspath a.output) ↔
      q ∈ (parts.map dbPath).filter fun p => (d.get p).isSome := by
    intro q
    rw [List.mem_filter, List.mem_filter, f2]
    constructor
    · rintro ⟨⟨h1, h2⟩, h3⟩
      rcases honly q h1 h2 with h | h
      · exact ⟨h, h1⟩
      · simp [h] at h3
    · rintro ⟨h1, h2⟩
      obtain ⟨p, hp, rfl⟩ := List.mem_map.1 h1
      obtain ⟨b1, b2⟩ := hbelow p hp
      exact ⟨⟨h2, b1⟩, by simpa using b2⟩
  obtain ⟨rows, c1, c2⟩ := C94_combined htog' hdiff (inputs := S.abspath a.inputs)
    ((List.perm_ext_iff_of_nodup (f1.filter _) (hdiff.filter _)).2 hm)
    (fun h => by have := ((f2 _).1 h).1; simp only [hdir _ hi] at this; cases this) hfirst
  cases hd : Sqlite.createDatabase S.lib (tableAt d) (S.glob d (S.abspath a.results ++ "/**/" ++ a.stem.getD "" ++ "*.db")) (S.abspath a.inputs) (S.abspath a.output) db
      (inputFiles S d (S.abspath a.inputs) "params") (inputFiles S d (S.abspath a.inputs) "orbits")
      (if a.complex = true then some (inputFiles S d (S.abspath a.inputs) "complex") else none) with
  | error e => rw [hd] at hdone; cases hdone
  | ok x =>
    rw [hd] at hdone
    cases hdone
    obtain ⟨r, h0, d1, h1, d2, h2, h3⟩ := Sqlite.Props.createDatabase_ok.1 hd
    rw [c1] at h0
    cases h0
    have g2 := createInputs_other h2 (by decide) (createInputs_other h1 (by decide) (Sqlite.has_put db "sorcha_results" _))
    refine ⟨rows, ?_, c2⟩
    rcases h3 with ⟨-, rfl⟩ | ⟨files, -, h3⟩
    · exact g2
    · exact createInputs_other h3 (by decide) g2

/-- C94 (`sorcha outputs create-sqlite`): when the command succeeds on the directory in which the databases of the parts are, as the parts have left them, then the table
`sorcha_results` of the database it makes has the columns and the lines of the whole run's database. There may be no other databases there, with names that begin like the
stem, but for the new one, which must not be the first that is found. -/
theorem C94_create_sqlite {S : Shell} {rest : List Str} {gs : List (Cmd.Spec.SqlSetting × Str)} (hsays : Cmd.Spec.SqlSays rest gs) {output inputs results stem : String}
    (hout : lastOf gs .output = some output) (hin : lastOf gs .inputs = some inputs) (hres : lastOf gs .results = some results)
    (hst : (lastOf gs .stem).getD "" = stem) {d : Disk} {db db' : Sqlite.Db Cell}
    (hdone : outputsCombine S ("create-sqlite".toList :: rest) d db = some (.ok db')) {whole : Run} {parts : List Run} {cols : List String} {lines : List (List Cell)}
    {ix : List String} (hwhole : whole.after.get (dbPath whole) = some (.db (some (cols, lines)) ix))
    (htog : Spec.TableTogether (whole.after.get (dbPath whole)) (parts.map fun p => p.after.get (dbPath p)))
    (hkept : ∀ p ∈ parts, d.get (dbPath p) = p.after.get (dbPath p)) (hdiff : (parts.map dbPath).Nodup)
    (hglob : Spec.Finds (S.glob d) (fun q => (d.get q).isSome) (S.abspath results) stem)
    (hroot : (S.abspath results).toList.getLast? ≠ some '/') (hstem : stem.toList.head? ≠ some '/') (hdir : ∀ q, S.isDir d q = true → d.get q = none)
    (hbelow : ∀ p ∈ parts, Spec.Below (S.abspath results) stem (dbPath p) ∧ dbPath p ≠ S.abspath output)
    (honly : ∀ q, (d.get q).isSome → Spec.Below (S.abspath results) stem q → q ∈ parts.map dbPath ∨ q = S.abspath output)
    (hfirst : (S.glob d (S.abspath results ++ "/**/" ++ stem ++ "*.db")).head? ≠ some (S.abspath output)) :
    ∃ rows, Sqlite.Spec.Has db' "sorcha_results" ⟨cols, rows⟩ ∧ rows.Perm lines := by
  classical
  subst hst
  have ha := (Cmd.Props.C90_create_sqlite ("create-sqlite".toList :: rest) ⟨output, inputs, results, lastOf gs .stem, decide (Cmd.Spec.Given gs .complex)⟩).2
    ⟨rest, gs, rfl, hsays, hout, hin, hres, rfl, by simp⟩
  unfold outputsCombine at hdone
  rw [ha] at hdone
  exact create_sqlite_table (Option.some.inj hdone) hwhole htog hkept hdiff hglob hroot hstem hdir hbelow honly hfirst

/-- C94 (the parts one after another): when runs follow each other, none of them refused, and no output of a later one is named like a result of an earlier one, then
the results of each are, after all, as it has left them. -/
theorem C94_kept {w : World G W V} (hg : Cli.Spec.GlobSound w.glob) :
    ∀ {parts : List Run} {d : Disk}, Spec.Follow parts d →
    (∀ r ∈ parts, Argv.parseRun r.argv = .ok (r.args, r.verbose) ∧ (∃ out, Invoked w r.argv r.before r.after r.log out ∧ out ≠ .refused) ∧
      History.Spec.NamesDiffer r.args ∧ History.Spec.AtMostOne r.args r.before) →
    parts.Pairwise (fun r r' => ∀ q, History.Spec.IsResults r.args q → ¬ History.Spec.IsResults r'.args q ∧ ¬ History.Spec.IsEphemeris r'.args q ∧ ¬ History.Spec.IsStats r'.args q) →
    ∀ r ∈ parts, ∀ q, History.Spec.IsResults r.args q → d.get q = r.after.get q := by
  have step : ∀ {parts : List Run} {e d : Disk}, Spec.FollowFrom e parts d →
      (∀ r ∈ parts, Argv.parseRun r.argv = .ok (r.args, r.verbose) ∧ (∃ out, Invoked w r.argv r.before r.after r.log out ∧ out ≠ .refused) ∧
        History.Spec.NamesDiffer r.args ∧ History.Spec.AtMostOne r.args r.before) → ∀ q, (∀ r' ∈ parts, ¬ History.Spec.IsResults r'.args q ∧ ¬ History.Spec.IsEphemeris r'.args q ∧
        ¬ History.Spec.IsStats r'.args q) → d.get q = e.get q := by
    intro parts e d h
    induction h with
    | done => intros; rfl
    | @next r rs d _ ih =>
      intro hr q hq
      obtain ⟨h1, ⟨out, h2, h3⟩, h4, h5⟩ := hr r (List.mem_cons_self ..)
      obtain ⟨q1, q2, q3⟩ := hq r (List.mem_cons_self ..)
      rw [ih (fun x hx => hr x (List.mem_cons_of_mem _ hx)) q fun x hx => hq x (List.mem_cons_of_mem _ hx)]
      exact C85_others h1 h2 h3 hg h4 h5 q q1 q2 q3
  intro parts d hd
  obtain ⟨e, h⟩ := hd
  induction h with
  | done => intro _ _ r hr; cases hr
  | @next r rs d hrest ih =>
    intro hr hp x hx q hq
    rw [List.pairwise_cons] at hp
    rcases List.mem_cons.1 hx with rfl | hx
    · exact step hrest (fun x hx => hr x (List.mem_cons_of_mem _ hx)) q fun r' hr' => hp.1 r' hr' q hq
    · exact ih (fun x hx => hr x (List.mem_cons_of_mem _ hx)) hp.2 x hx q hq

end Sorcha.Whole.Props
