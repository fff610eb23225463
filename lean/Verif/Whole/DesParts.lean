import Verif.Whole.Props12

/-!
# Lemmas: one population in several DES runs (C98)
-/

namespace Sorcha.Whole.Props

open Sorcha.Csv (Str)
open Sorcha.Readers (Rec)
open Sorcha.History (Disk Chunk)
open Sorcha.Output (Cell)
open Sorcha.Pipeline (Row own)
open Sorcha.DesRun (Env)
open Sorcha.DesRun.Spec (Deterministic)
open Sorcha.Whole.Spec (Run sized)

variable {G W V : Type}

/-! ## Rounds one after the other -/

theorem des_rounds_cat {E : Env G W V} {c : Config.Cfg} (hd : Deterministic c) (hs : ∀ l, (E.base.sortIndex l).Perm l) (ht : Des.Spec.SortSound E.sortTime)
    {s' : Pipeline.State G} {B : List (List (Pointing.Obs W))} {outs'} (h' : DesRun.rounds E c s' B = .ok outs') (hB : Pipeline.Spec.Whole B) :
    ∀ (A : List (List (Pointing.Obs W))) (s : Pipeline.State G) (outs : List (List (Row W V))), DesRun.rounds E c s A = .ok outs →
      ∃ z, DesRun.rounds E c s (A ++ B) = .ok z ∧ z.flatten.Perm (outs.flatten ++ outs'.flatten) := by
  intro A
  induction A with
  | nil =>
    intro s outs h
    cases h
    obtain ⟨z, h1, h2⟩ := DesRun.rounds_same hd hs ht s' s hB hB (fun _ => rfl) h'
    exact ⟨z, h1, h2.symm⟩
  | cons b A ih =>
    intro s outs h
    obtain ⟨out, s1, rest, h1, h2, h3, -⟩ := DesRun.rounds_cons_ok h
    obtain ⟨z, g1, g2⟩ := ih s1 rest h2
    rw [List.cons_append]
    simp only [DesRun.rounds, h1, g1, bind, Except.bind, pure, Except.pure]
    refine ⟨_, rfl, ?_⟩
    rw [h3, List.append_assoc]
    split_ifs with hl
    · rw [List.flatten_cons]
      exact g2.append_left _
    · have h0 : out = [] := List.length_eq_zero_iff.1 (by omega)
      rw [h0]
      exact g2

theorem des_rounds_parts {P : Type} {E : Env G W V} {c : Config.Cfg} (hd : Deterministic c) (hs : ∀ l, (E.base.sortIndex l).Perm l) (ht : Des.Spec.SortSound E.sortTime)
    (blocks : P → List (List (Pointing.Obs W))) (state : P → Pipeline.State G) (outs : P → List (List (Row W V))) : ∀ (l : List P),
    (∀ p ∈ l, DesRun.rounds E c (state p) (blocks p) = .ok (outs p)) → Pipeline.Spec.Whole (l.flatMap blocks) →
    ∀ s, ∃ z, DesRun.rounds E c s (l.flatMap blocks) = .ok z ∧ z.flatten.Perm (l.flatMap outs).flatten := by
  intro l
  induction l with
  | nil => intro _ _ s; exact ⟨[], rfl, List.Perm.refl _⟩
  | cons p l ih =>
    intro h hw s
    simp only [List.flatMap_cons] at hw ⊢
    obtain ⟨hw1, hw2⟩ := whole_append hw
    obtain ⟨z, h1, h2⟩ := ih (fun q hq => h q (List.mem_cons_of_mem _ hq)) hw2 s
    obtain ⟨y, g1, g2⟩ := DesRun.rounds_same hd hs ht (state p) s hw1 hw1 (fun _ => rfl) (h p (List.mem_cons_self ..))
    obtain ⟨x, k1, k2⟩ := des_rounds_cat hd hs ht h1 hw2 _ s y g1
    refine ⟨x, k1, k2.trans ?_⟩
    rw [List.flatten_append]
    exact g2.symm.append h2

/-! ## What the runs leave -/

/-- A DES run that has finished, with the settings `c` but for the chunk size, as `Finished` for Rubin. -/
structure DesFinished (w : DesWorld G W V) (c : Config.Cfg) (r : Run) : Prop where
  said : Argv.parseRun r.argv = .ok (r.args, r.verbose)
  survey : IsDes r.args
  done : DesInvoked w r.argv r.before r.after r.log .finished
  configured : Configured w.base r.before r.args (sized c r.chunk)
  names : History.Spec.NamesDiffer r.args
  one : History.Spec.AtMostOne r.args r.before
  objects : Spec.Objects w.base.ids r.before r.args (sized c r.chunk) r.orb r.others

theorem des_run_facts {w : DesWorld G W V} {c : Config.Cfg} {r : Run} (hg : Cli.Spec.GlobSound w.base.glob) (hf : DesFinished w c r) {obs : List (Pointing.Obs W)}
    (hobs : ∀ a, Accepted w.base r.before r.args a → Observes w.base r.before r.args (sized c r.chunk) a r.orb r.others obs)
    {columns : List String} (hcols : ∀ a, Accepted w.base r.before r.args a → w.columns (sized c r.chunk) a = columns) {E : Env G W V}
    (henv : ∀ a E', Accepted w.base r.before r.args a → w.env (sized c r.chunk) a (checked w.base r.args r.before) = some E' → E' = E)
    {shown : Cell → Str} (hshown : w.base.lines.output = Csv.line shown) (h2 : 2 ≤ columns.length) :
    ∃ s bs outs, DesRun.rounds E c s bs = .ok outs ∧ Pipeline.Spec.Whole bs ∧ (∀ id, own id bs.flatten = own id obs) ∧
      (c.output.format = "csv" → (outs = [] ∧ r.after.get (r.args.o ++ "/" ++ r.args.t ++ ".csv") = none) ∨
        (outs ≠ [] ∧ ∃ t, r.after.get (r.args.o ++ "/" ++ r.args.t ++ ".csv") = some (.text t) ∧
          Csv.read t = some ((Output.Spec.wantedColumns (outConfig c).columns (outConfig c).keepUnlinked columns).map String.toList ::
            outs.flatten.map fun f => (outLine w.base.dist (outConfig c) columns (w.cells f)).map shown))) ∧
      (c.output.format = "sqlite3" → (outs = [] ∧ r.after.get (r.args.o ++ "/" ++ r.args.t ++ ".db") = none) ∨
        (outs ≠ [] ∧ r.after.get (r.args.o ++ "/" ++ r.args.t ++ ".db") =
          some (.db (some (Spec.databaseColumns c columns, outs.flatten.map fun f => dbLine w.base.dist c columns (w.cells f))) ["ObjID", "fieldMJD_TAI", "optFilter"]))) := by
  obtain ⟨a, fmt, chunks, p1, p5, p3⟩ := des_parts hf.said hf.survey hf.configured hf.done (by simp)
  rcases p3 with ⟨-, -, h0⟩ | ⟨E', p2, rfl, hch, hfin⟩
  · exact absurd rfl h0
  obtain ⟨q1, q2⟩ := hfin rfl
  obtain rfl := henv a E' p1 p2
  obtain ⟨outs, e1, f1, -, -⟩ := desRounds_ok w E' _ a _ _ chunks (Prod.ext hch.symm q2)
  obtain ⟨hw, hown⟩ := observes_blocks hf.objects p1 (hobs a p1) (Prod.ext rfl q1)
  rw [hcols a p1] at f1
  have f1' : List.Forall₂ (fun out g => Output.outputFrame w.base.dist (outConfig c) ⟨columns, out.map w.cells⟩ = .ok g) outs (chunks.filterMap fun c => c.results.map (·.1)) := f1
  refine ⟨_, _, outs, (DesRun.rounds_input E' c _ _ _).symm.trans e1, hw, hown, fun hcsv => ?_, fun hsql => ?_⟩
  · rw [if_pos (show (sized c r.chunk).output.format = "csv" from hcsv)] at p5
    rw [file_of_run hg hf.names hf.one hshown p5]
    by_cases h0 : outs = []
    · subst h0
      rw [List.forall₂_nil_left_iff.1 f1']
      exact .inl ⟨rfl, rfl⟩
    · exact .inr ⟨h0, read_results h2 h0 f1'⟩
  · rw [if_neg (show ¬ (sized c r.chunk).output.format = "csv" by rw [show (sized c r.chunk).output.format = "sqlite3" from hsql]; decide)] at p5
    rw [db_of_run hg hf.names hf.one p5]
    by_cases h0 : outs = []
    · subst h0
      rw [List.forall₂_nil_left_iff.1 f1']
      exact .inl ⟨rfl, rfl⟩
    · exact .inr ⟨h0, dbOf_some (table_results h0 f1')⟩

/-- DES runs on parts of the objects, with the same observations, leave together the lines of the whole run. -/
theorem des_together {w : DesWorld G W V} {c : Config.Cfg} {whole : Run} {parts : List Run} (hg : Cli.Spec.GlobSound w.base.glob) (hf : ∀ r ∈ whole :: parts, DesFinished w c r)
    {obs : Run → List (Pointing.Obs W)}
    (hobs : ∀ r ∈ whole :: parts, ∀ a, Accepted w.base r.before r.args a → Observes w.base r.before r.args (sized c r.chunk) a r.orb r.others (obs r))
    (hids : (parts.flatMap Run.ids).Perm whole.ids) (hown : ∀ p ∈ parts, ∀ id, own id (obs p) = if id ∈ p.ids then own id (obs whole) else [])
    (hout : ∀ id, id ∉ whole.ids → own id (obs whole) = [])
    {columns : List String} (hcols : ∀ r ∈ whole :: parts, ∀ a, Accepted w.base r.before r.args a → w.columns (sized c r.chunk) a = columns)
    {E : Env G W V}
    (henv : ∀ r ∈ whole :: parts, ∀ a E', Accepted w.base r.before r.args a → w.env (sized c r.chunk) a (checked w.base r.args r.before) = some E' → E' = E)
    (hdet : Deterministic c) (hs : ∀ l, (E.base.sortIndex l).Perm l) (ht : Des.Spec.SortSound E.sortTime)
    {shown : Cell → Str} (hshown : w.base.lines.output = Csv.line shown) (h2 : 2 ≤ columns.length) :
    (c.output.format = "csv" → Spec.LinesTogether Csv.read (whole.after.get (whole.args.o ++ "/" ++ whole.args.t ++ ".csv"))
      (parts.map fun p => p.after.get (p.args.o ++ "/" ++ p.args.t ++ ".csv"))) ∧
    (c.output.format = "sqlite3" → Spec.TableTogether (whole.after.get (whole.args.o ++ "/" ++ whole.args.t ++ ".db"))
      (parts.map fun p => p.after.get (p.args.o ++ "/" ++ p.args.t ++ ".db"))) := by
  have key := fun (r : Run) (hr : r ∈ whole :: parts) => des_run_facts hg (hf r hr) (hobs r hr) (hcols r hr) (henv r hr) hshown h2
  haveI : Nonempty (Pipeline.State G) := let ⟨s, _⟩ := key whole (List.mem_cons_self ..); ⟨s⟩
  choose! state blocks outs h3 h4 h5 h6 h7 using key
  have hmem : whole ∈ whole :: parts := List.mem_cons_self ..
  have hpart : ∀ p ∈ parts, p ∈ whole :: parts := fun p hp => List.mem_cons_of_mem _ hp
  have hnd : (parts.flatMap Run.ids).Nodup := hids.nodup_iff.2 (hf whole hmem).objects.unique
  obtain ⟨o1, o2⟩ := own_parts Run.ids (fun p => (blocks p).flatten) (fun id => own id (obs whole)) parts hnd
    (fun p hp id => by rw [h5 p (hpart p hp), hown p hp])
  have hwp := whole_parts blocks parts (fun p hp => h4 p (hpart p hp)) o2
  have hflat : ∀ id, own id (blocks whole).flatten = own id (parts.flatMap blocks).flatten := by
    intro id
    have e : (parts.flatMap blocks).flatten = parts.flatMap fun p => (blocks p).flatten := by
      rw [List.flatMap_def, List.flatMap_def, List.flatten_flatten, List.map_map]; rfl
    rw [e, o1, h5 whole hmem]
    by_cases h : id ∈ parts.flatMap Run.ids
    · rw [if_pos h]
    · rw [if_neg h]
      exact hout id fun h' => h (hids.mem_iff.2 h')
  obtain ⟨z, z1, z2⟩ := des_rounds_parts hdet hs ht blocks state outs parts (fun p hp => h3 p (hpart p hp)) hwp (state whole)
  obtain ⟨z', y1, y2⟩ := DesRun.rounds_same hdet hs ht (state whole) (state whole) (h4 whole hmem) hwp hflat (h3 whole hmem)
  rw [z1] at y1
  cases y1
  have hperm : (outs whole).flatten.Perm (parts.flatMap fun p => (outs p).flatten) := by
    refine (y2.trans z2).trans (List.Perm.of_eq ?_)
    rw [List.flatMap_def, List.flatMap_def, List.flatten_flatten, List.map_map]; rfl
  have hnil : outs whole = [] → ∀ p ∈ parts, outs p = [] := by
    intro h0 p hp
    rw [h0, List.flatten_nil] at hperm
    have := List.flatMap_eq_nil_iff.1 hperm.symm.eq_nil p hp
    exact (des_nonempty (h3 p (hpart p hp))).1 this
  have hlines : ∀ {β : Type} (L : Row W V → β), ((outs whole).flatten.map L).Perm (parts.map fun p => (outs p).flatten.map L).flatten := by
    intro β L
    refine (hperm.map L).trans (List.Perm.of_eq ?_)
    rw [List.map_flatMap, List.flatMap_def]
  refine ⟨fun hcsv => ?_, fun hsql => ?_⟩
  · rcases h6 whole hmem hcsv with ⟨h0, hn⟩ | ⟨h0, t, ht, hr⟩
    · refine .inl ⟨hn, ?_⟩
      intro f hfm
      obtain ⟨p, hp, rfl⟩ := List.mem_map.1 hfm
      rcases h6 p (hpart p hp) hcsv with ⟨-, hn⟩ | ⟨h1, -⟩
      · exact hn
      · exact absurd (hnil h0 p hp) h1
    · refine .inr ⟨t, _, _, _, ht, hr, hlines _, forall₂_map_of _ _ _ fun p hp => ?_⟩
      rcases h6 p (hpart p hp) hcsv with ⟨h1, hn⟩ | ⟨-, h1⟩
      · exact .inl ⟨hn, by rw [h1]; rfl⟩
      · exact .inr h1
  · rcases h7 whole hmem hsql with ⟨h0, hn⟩ | ⟨h0, ht⟩
    · refine .inl ⟨hn, ?_⟩
      intro f hfm
      obtain ⟨p, hp, rfl⟩ := List.mem_map.1 hfm
      rcases h7 p (hpart p hp) hsql with ⟨-, hn⟩ | ⟨h1, -⟩
      · exact hn
      · exact absurd (hnil h0 p hp) h1
    · refine .inr ⟨_, _, _, ht, ?_, ?_, hlines _, forall₂_map_of _ _ _ fun p hp => ?_⟩
      · rw [Ne, List.map_eq_nil_iff, des_nonempty (h3 whole hmem)]
        exact h0
      · intro l hl
        obtain ⟨f, -, rfl⟩ := List.mem_map.1 hl
        exact List.length_map _
      · rcases h7 p (hpart p hp) hsql with ⟨h1, hn⟩ | ⟨-, h1⟩
        · exact .inl ⟨hn, by rw [h1]; rfl⟩
        · exact .inr h1

/-! ## Runs that end in any way -/

theorem desInvoked_tidy : Tidy (DesInvoked (G := G) (W := W) (V := V)) (·.base.glob) := by
  intro w argv d d' log out args v hargs hg h hnames hone
  by_cases hout : out = .refused
  · cases h with
    | usage _ => exact hone
    | @refused args' v' e h hc =>
      rw [hargs] at h; cases h
      exact one_fewer (History.Props.refused_files (exist := existing w.base d) (isDir := w.base.isDir) hg (a := args) (d := d)).2 hone
    | @ran args' v' a fmt chunks s done h hc hp he => exfalso; revert hout; cases done <;> simp
    | @failed args' v' a fmt chunks s done h hc hp he => exfalso; revert hout; simp
  · obtain ⟨args', v', a, fmt, chunks, b, h1, h2, h3, -, h4⟩ := des_any_parts h hout
    rw [hargs] at h1; cases h1
    exact (History.Props.runs_step hg (j := ⟨args, fmt, chunks, w.base.stamp, w.base.start⟩) hnames hone h4).1

end Sorcha.Whole.Props
