import Verif.Whole.Lemmas

/-!
# Lemmas for `sorcha run`: the rounds and the files
-/

namespace Sorcha.Whole

open Sorcha.Csv (Str)
open Sorcha.Csv.Props (asRec)
open Sorcha.Readers (Rec IdParse Line)
open Sorcha.History (Disk Chunk)
open Sorcha.Output (Cell)

variable {G W V : Type}

/-! ## The tables written -/

/-- The line of a row. -/
def outLine (dist : Cell → Cell → Cell → Cell) (oc : Output.Config) (cols : List String) (r : Output.Row) : List Cell :=
  (Output.Spec.wantedColumns oc.columns oc.keepUnlinked cols).map fun c => Output.finalCell oc c (Output.Props.rawCell dist r c)

theorem outputFrame_cells (dist : Cell → Cell → Cell → Cell) (oc : Output.Config) (f g : Output.Frame) (h : Output.outputFrame dist oc f = .ok g) :
    g.cols = Output.Spec.wantedColumns oc.columns oc.keepUnlinked f.cols ∧ g.cells = f.rows.map (outLine dist oc f.cols) := by
  have hc := (Output.Props.C21_output dist oc f g h).1
  refine ⟨hc, ?_⟩
  unfold Output.outputFrame at h
  simp only [bind, Except.bind] at h
  generalize hf : f.setCol "Obj_Sun_LTC_km" _ = f1 at h
  cases hs : Output.selectColumns oc.columns oc.keepUnlinked f1 with
  | error e => rw [hs] at h; simp at h
  | ok g0 =>
    rw [hs] at h
    simp only [Except.ok.injEq] at h
    obtain ⟨-, hr⟩ := Output.Props.selectColumns_ok _ _ _ _ hs
    obtain ⟨h1, h2⟩ := Output.round_both oc g0
    rw [h] at h1 h2
    rw [h2, hr, ← hf, ← h1, hc]
    simp only [Output.Frame.setCol, List.map_map]
    rfl

theorem outLine_spec (dist : Cell → Cell → Cell → Cell) (oc : Output.Config) (cols : List String) (r : Output.Row) :
    Spec.LineOf dist oc (Output.Spec.wantedColumns oc.columns oc.keepUnlinked cols) r (outLine dist oc cols r) := by
  unfold Spec.LineOf outLine
  rw [List.forall₂_map_right_iff, List.forall₂_same]
  intro c _
  unfold Output.finalCell
  cases Output.Spec.decimalsOf oc c with
  | none => rfl
  | some d => exact Output.cell_round_spec d _

/-- What the chunks of a run hold. -/
theorem rounds_ok (w : World G W V) (E : Pipeline.Env G W V) (c : Config.Cfg) (a : Cli.CmdArgs) : ∀ bs s chunks, rounds w E c a s bs = (chunks, true) →
    ∃ outs, Pipeline.rounds E c s (bs.map (·.1)) = .ok outs ∧
      List.Forall₂ (fun out g => Output.outputFrame w.dist (outConfig c) ⟨w.columns c a, out.map w.cells⟩ = .ok g) outs (chunks.filterMap fun c => c.results.map (·.1)) ∧
      (chunks.filterMap fun c => c.results.map (·.2)) = outs.map w.stats ∧
      (chunks.filterMap (·.ephemeris)) = bs.filterMap (·.2) := by
  intro bs
  induction bs with
  | nil => intro s chunks h; cases h; exact ⟨[], rfl, .nil, rfl, rfl⟩
  | cons b bs ih =>
    intro s chunks h
    obtain ⟨obs, eph⟩ := b
    simp only [rounds] at h
    cases hp : Pipeline.process E c s obs with
    | error e => simp [hp] at h
    | ok x =>
      obtain ⟨out, s'⟩ := x
      rw [hp] at h
      simp only at h
      split_ifs at h with h0
      · simp only [Prod.mk.injEq] at h
        obtain ⟨outs, e1, e2, e3, e4⟩ := ih s' _ (Prod.ext rfl h.2)
        refine ⟨outs, ?_, ?_, ?_, ?_⟩
        · simp [Pipeline.rounds, bind, Except.bind, hp, e1, pure, Except.pure, h0]
        · rw [← h.1]; simpa using e2
        · rw [← h.1]; simpa using e3
        · rw [← h.1]
          cases eph <;> simpa using e4
      · cases ho : Output.outputFrame w.dist (outConfig c) ⟨w.columns c a, out.map w.cells⟩ with
        | error e => simp [ho] at h
        | ok g =>
          rw [ho] at h
          simp only [Prod.mk.injEq] at h
          obtain ⟨outs, e1, e2, e3, e4⟩ := ih s' _ (Prod.ext rfl h.2)
          refine ⟨out :: outs, ?_, ?_, ?_, ?_⟩
          · simp [Pipeline.rounds, bind, Except.bind, hp, e1, pure, Except.pure, Nat.pos_of_ne_zero h0]
          · rw [← h.1]; simpa using ⟨ho, e2⟩
          · rw [← h.1]; simpa using e3
          · rw [← h.1]
            cases eph <;> simpa using e4

/-! ## The command line -/

theorem get_keep (d : Disk) (fs : Cli.FS) (p : String) (c : History.Content) (h : (d.keep fs).get p = some c) : d.get p = some c := by
  unfold Disk.keep Disk.get at *
  rw [Option.map_eq_some_iff] at h ⊢
  obtain ⟨e, he, rfl⟩ := h
  refine ⟨e, ?_, rfl⟩
  induction d with
  | nil => simp at he
  | cons x d ih =>
    by_cases hx : fs.contains x.1 = true
    · rw [List.filter_cons_of_pos (p := fun e : String × History.Content => fs.contains e.1) hx] at he
      rw [List.find?_cons] at he ⊢
      cases hq : (x.1 == p) with
      | true => rw [hq] at he; exact he
      | false => rw [hq] at he; exact ih he
    · rw [List.filter_cons_of_neg (p := fun e : String × History.Content => fs.contains e.1) hx] at he
      have hm := List.mem_of_find?_eq_some he
      have hk := List.find?_some he
      rw [List.find?_cons]
      cases hq : (x.1 == p) with
      | true =>
        exfalso
        have : x.1 = e.1 := (beq_iff_eq.1 hq).trans (beq_iff_eq.1 hk).symm
        rw [this] at hx
        exact hx (List.of_mem_filter (p := fun e : String × History.Content => fs.contains e.1) hm)
      | false => exact ih he

theorem textAt_checked {w : World G W V} {args : Cli.Args} {d : Disk} {p : String} {t : Str} (h : textAt (checked w args d) p = some t) : d.get p = some (.text t) := by
  unfold textAt at h
  cases hg : (checked w args d).get p with
  | none => rw [hg] at h; cases h
  | some x =>
    rw [hg] at h
    cases x with
    | db _ _ => cases h
    | text s =>
      cases h
      exact get_keep _ _ _ _ hg

theorem commandLine_ok {exist isDir : String → Bool} {g : Cli.Glob} {args : Cli.Args} {fs : Cli.FS} {a : Cli.CmdArgs}
    (h : (Cli.commandLine exist isDir g args fs).1 = .ok a) :
    a.paramsinput = args.p ∧ a.orbinfile = args.ob ∧ a.configfile = args.c ∧ a.outpath = args.o ∧ a.inputEphemerisFile = args.er ∧ a.surveyname = args.s ∧
      a.outfilestem = args.t ∧ (a.complexParams = none ∨ a.complexParams = args.cp) := by
  unfold Cli.commandLine at h
  cases hi : Cli.findInputs exist args with
  | error e => rw [hi] at h; cases h
  | ok x =>
    obtain ⟨cp, vd⟩ := x
    rw [hi] at h
    simp only at h
    cases hc : (Cli.checkOutputs isDir g args fs).1 with
    | error e => rw [hc] at h; cases h
    | ok u =>
      rw [hc] at h
      have h := Except.ok.inj h
      subst h
      refine ⟨rfl, rfl, rfl, rfl, rfl, rfl, rfl, ?_⟩
      simp only
      unfold Cli.findInputs at hi
      simp only [bind, Except.bind, pure, Except.pure] at hi
      repeat' split at hi
      all_goals cases hi
      rename_i hf _ _ _
      unfold Cli.findOptional at *
      cases hcp : args.cp with
      | none => left; simp_all
      | some q => simp_all [Cli.findFile, Except.map]; split_ifs at * <;> simp_all

/-! ## The input files -/

/-- A file of these rows. -/
def fileOf (recs : List (Rec Str)) : List (Line Str) := .header :: recs.map .data

theorem fileOf_holds (recs : List (Rec Str)) : Readers.Spec.Holds (fileOf recs) recs := ⟨0, by omega, rfl⟩

theorem Table.le {w : World G W V} {args : Cli.Args} {P : IdParse} {fmt : String} {d : Disk} {p : String} {recs : List (Rec Str)} (h : Spec.Table P fmt d p recs) {t : Str}
    (ht : textAt (checked w args d) p = some t) (good : Csv.TextTable → Bool) : Le (source P good fmt t) (lineSource P (fileOf recs)) := by
  obtain ⟨t', names, rows, h1, h2, h3, h4⟩ := h
  rw [textAt_checked ht] at h1
  cases h1
  have : recs = rows.map asRec := h3
  subst this
  exact source_le P good h2 (fileOf_holds _) h4

theorem Table.named {P : IdParse} {fmt : String} {d : Disk} {p : String} {recs : List (Rec Str)} (h : Spec.Table P fmt d p recs) : ∀ r ∈ recs, r.id ≠ "" := by
  obtain ⟨t, names, rows, -, h, rfl, -⟩ := h
  have hr : ∀ row ∈ rows, row.headD [] ≠ [] := by
    rcases h with ⟨-, _, _, _, -, -, -, -, -, -, h⟩ | ⟨-, _, _, _, _, _, -, -, -, -, -, -, -, -, -, h⟩ <;> exact fun row hrow => (h row hrow).2
  intro r hr'
  obtain ⟨row, hrow, rfl⟩ := List.mem_map.1 hr'
  intro e
  have e' : (String.ofList (row.headD [])).toList = "".toList := congrArg String.toList e
  rw [String.toList_ofList] at e'
  exact hr row hrow e'

theorem source_rows_nonpos (P : IdParse) (good : Csv.TextTable → Bool) {fmt : String} (t : Str) (b : ℕ) {n : ℤ} (hn : n ≤ 0) {x : List (Rec Str)}
    (h : (source P good fmt t).rows b n = .ok x) : x = [] := by
  have h : process P good (Csv.rowsOf fmt t b (some n)) = .ok x := h
  unfold Csv.rowsOf at h
  cases hr : Csv.headerRow fmt t with
  | error e => rw [hr] at h; cases e <;> simp [process] at h
  | ok r =>
    rw [hr] at h
    simp only at h
    split_ifs at h with h0
    · simp [process] at h
    · have : n = 0 := by omega
      subst this
      generalize Csv.tokens fmt _ t = tk at h
      cases tk with
      | none => simp [Csv.toTable, process] at h
      | some l =>
        cases l with
        | nil => simp [Csv.toTable, process] at h
        | cons a l =>
          simp only [Csv.toTable, Int.toNat_zero, List.take_zero, process, List.map_nil] at h
          split at h
          · cases h
          · split_ifs at h
            exact (Except.ok.inj h).symm

theorem readBlock_nonpos {missing : List Str} {e o : Source} {ss : List Source} {b : ℕ} {n : ℤ} (ho : ∀ x, o.rows b n = .ok x → x = []) {t : List (Rec Str)} {st : ℕ} :
    readBlock missing e o ss b n ≠ .ok (some t, st) := by
  intro h
  unfold readBlock at h
  cases h1 : o.rows b n with
  | error _ => simp [h1] at h
  | ok p => rw [h1, ho p h1] at h; simp at h

theorem readAuxBlock_nonpos {missing : List Str} {o : Source} {ss : List Source} {b : ℕ} {n : ℤ} (ho : ∀ x, o.rows b n = .ok x → x = []) {t : List (Rec Str)} {st : ℕ} :
    readAuxBlock missing o ss b n ≠ .ok (some t, st) := by
  intro h
  unfold readAuxBlock at h
  cases h1 : o.rows b n with
  | error _ => simp [h1] at h
  | ok p => rw [h1, ho p h1] at h; simp at h

theorem blocks_size {read : ℕ → ℤ → Except Readers.Err (Option (List (Rec Str)) × ℕ)} {lenf : ℕ} {size : ℤ} {bs : List (List (Rec Str))}
    (hread : size ≤ 0 → ∀ b t st, read b size ≠ .ok (some t, st)) (h : blocks read lenf size lenf 0 0 = (bs, true)) : (lenf = 0 ∧ bs = []) ∨ 1 ≤ size := by
  rcases lt_or_ge size 1 with hs | hs
  · left
    cases lenf with
    | zero => simp only [blocks, Prod.mk.injEq] at h; exact ⟨rfl, h.1.symm⟩
    | succ k =>
      exfalso
      simp only [blocks] at h
      rw [if_pos (by omega)] at h
      cases hx : read 0 size with
      | error e => simp [hx] at h
      | ok x =>
        obtain ⟨o, st⟩ := x
        cases o with
        | none => simp [hx] at h
        | some t => exact hread (by omega) 0 t st hx
  · exact Or.inr hs

/-- The auxiliary files. -/
theorem auxSources_le {w : World G W V} {args : Cli.Args} {d : Disk} {c : Config.Cfg} {a : Cli.CmdArgs} {orb : List (Rec Str)} {ts : List (List (Rec Str))}
    (hin : Spec.Objects w.ids d args c orb ts) (ha : a.paramsinput = args.p) (hcp : a.complexParams = none ∨ a.complexParams = args.cp) {aux : List Source}
    (h : auxSources w c a (checked w args d) = some aux) : List.Forall₂ Le aux ((ts.map fileOf).map (lineSource w.ids)) := by
  unfold auxSources at h
  rw [ha] at h
  cases hp : textAt (checked w args d) args.p with
  | none => rw [hp] at h; cases h
  | some t =>
    rw [hp] at h
    simp only at h
    rcases hin.given with ⟨h1, h2, phys, rfl, h3⟩ | ⟨h1, phys, cx, p, rfl, h2, h3, h4⟩
    · rw [if_neg (by simp [h1, h2])] at h
      cases h
      exact .cons (Table.le h3 hp _) .nil
    · rw [if_pos h1] at h
      cases hb : a.complexParams.bind (textAt (checked w args d)) with
      | none => rw [hb] at h; cases h
      | some x =>
        rw [hb] at h
        cases h
        have : textAt (checked w args d) p = some x := by
          rcases hcp with hcp | hcp
          · rw [hcp] at hb; cases hb
          · rw [hcp, h2] at hb; exact hb
        exact .cons (Table.le h3 hp _) (.cons (Table.le h4 this _) .nil)

theorem Objects.consistent {P : IdParse} {args : Cli.Args} {d : Disk} {c : Config.Cfg} {orb : List (Rec Str)} {ts : List (List (Rec Str))}
    (hin : Spec.Objects P d args c orb ts) : Readers.Props.Consistent P (fileOf orb) orb (ts.map fileOf) ts := by
  have st : ∀ {fmt p recs}, Spec.Table P fmt d p recs → Readers.Spec.StableIds P recs := by
    rintro fmt p recs ⟨_, _, _, _, _, _, h⟩
    exact h
  refine ⟨fileOf_holds _, st hin.orbits, hin.unique, ?_, ?_, hin.same⟩
  · rcases hin.given with ⟨-, -, phys, rfl, -⟩ | ⟨-, phys, cx, p, rfl, -⟩ <;> simp
  · rw [List.forall₂_map_left_iff, List.forall₂_same]
    intro t ht
    refine ⟨fileOf_holds _, ?_⟩
    rcases hin.given with ⟨-, -, phys, rfl, h3⟩ | ⟨-, phys, cx, p, rfl, -, h3, h4⟩
    · simp only [List.mem_singleton] at ht
      subst ht
      exact st h3
    · simp only [List.mem_cons, List.not_mem_nil, or_false] at ht
      rcases ht with rfl | rfl
      · exact st h3
      · exact st h4

theorem ids_length {P : IdParse} {recs : List (Rec Str)} (hs : Readers.Spec.StableIds P recs) {s : Source} (h : Le s (lineSource P (fileOf recs))) {table : List String}
    (hi : s.ids = .ok table) : table = recs.map (·.id) := by
  have := h.ids table hi
  have h2 : Readers.buildIdMap P (fileOf recs) = .ok table := this
  rw [Readers.buildIdMap_holds P _ recs (fileOf_holds _) hs] at h2
  exact (Except.ok.inj h2).symm

end Sorcha.Whole
