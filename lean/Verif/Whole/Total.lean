import Verif.Whole.Props3
import Verif.Whole.Valid
import Verif.Ini.Props
import Verif.Config.Props

/-!
# Lemmas for `sorcha run`: runs that do not fail
-/

namespace Sorcha.Whole

open Sorcha.Csv (Str)
open Sorcha.Csv.Props (asRec)
open Sorcha.Readers (Rec IdParse Line)
open Sorcha.History (Disk Chunk)
open Sorcha.Output (Cell)
open Sorcha.Whole.Props (Configured Accepted)

variable {G W V : Type}

/-! ## The settings -/

theorem configured_ok {w : World G W V} {d : Disk} {args : Cli.Args} {c : Config.Cfg} (h : Configured w d args c) (hs : args.s = "rubin_sim")
    (hlow : w.py.lower "rubin_sim" ≠ "des") : ∃ f, Config.Spec.FileOk w.py w.lightCurves w.activities "rubin_sim" f c := by
  obtain ⟨t, x, -, hx⟩ := h
  rw [hs] at hx
  unfold Ini.configure at hx
  cases hl : Ini.load w.py.lower (configLines t) with
  | error e => rw [hl] at hx; cases hx
  | ok f =>
    rw [hl] at hx
    simp only at hx
    cases hr : Config.readConfig w.py w.lightCurves w.activities "rubin_sim" f with
    | error e => rw [hr] at hx; cases hx
    | ok c' =>
      rw [hr] at hx
      simp only at hx
      have hc : c' = c := by
        split at hx
        · cases hx
        · split at hx
          · cases hx
          · cases hx; rfl
      subst hc
      have hsv : Config.Spec.IsRubin "rubin_sim" := Or.inr (Or.inr (Or.inl rfl))
      exact ⟨f, (Config.Props.C38_file _ _ _ _ f (Ini.Props.C74_wellformed _ _ _ hl).1 (.inl hsv) (fun _ => hlow) _).1 hr⟩

theorem sound_of_file {py : Config.Py} {lc ca : List String} {f : Config.File} {c : Config.Cfg} (h : Config.Spec.FileOk py lc ca "rubin_sim" f c)
    (hlow : py.lower "rubin_sim" ≠ "des") (hlim : c.saturation.on.on = true → c.saturation.limits ≠ none) : Pipeline.Spec.Sound c where
  camera := by
    intro q hq
    obtain ⟨s, -, hf, -⟩ := h.fov
    rw [hq] at hf
    cases hf with
    | visits _ _ hd => exact hlow hd
  fading := by
    intro q hq
    obtain ⟨s, -, hf, -⟩ := h.fading
    rw [hq] at hf
    cases hf with
    | desOn _ _ hs => exact absurd hs (by simp [Config.Spec.IsDes])
  limits := by
    intro hon
    rcases h.saturation with ⟨s, -, hs, -⟩ | ⟨-, hs⟩
    · have hl := hlim hon
      generalize hsat : c.saturation = sat at hs hl hon
      cases hs with
      | limits fs v xs hv hl' =>
        obtain ⟨items, ys, -, -, hx⟩ := hl'
        refine ⟨xs, rfl, ?_⟩
        rcases hx with ⟨h1, rfl⟩ | ⟨x, -, h1, -⟩ <;> omega
      | noLimits _ on hv hr ho => exact absurd rfl hl
    · rw [hs] at hon; simp [Config.Flag.on] at hon
  window := by
    intro ssp hssp
    obtain ⟨s, -, hl, -⟩ := h.linking
    rcases hl.ssp with ⟨k, hk, ho, -⟩ | ⟨hn, -⟩
    · rw [hk] at hssp
      cases hssp
      exact ⟨ho.windowB, ho.trackletsB⟩
    · rw [hn] at hssp; cases hssp

theorem frame_total {py : Config.Py} {lc ca : List String} {f : Config.File} {c : Config.Cfg} (h : Config.Spec.FileOk py lc ca "rubin_sim" f c) {columns : List String}
    (hcol : ∀ x ∈ Output.Spec.wantedColumns (Spec.output c).columns (Spec.output c).keepUnlinked columns, x ∈ columns ∨ x = "Obj_Sun_LTC_km")
    (dist : Cell → Cell → Cell → Cell) (rows : List Output.Row) : ∃ g, Output.outputFrame dist (outConfig c) ⟨columns, rows⟩ = .ok g := by
  have e : Spec.output c = outConfig c := rfl
  rw [e] at hcol
  cases hc : (outConfig c).columns with
  | basic =>
    rw [hc] at hcol
    exact (Output.Props.C21_basic_abort dist _ _ hc).2 hcol
  | list l =>
    rw [hc] at hcol
    refine (Output.Props.C21_list_abort dist _ _ l hc ?_).2.2 hcol
    obtain ⟨s, -, ho, -⟩ := h.output
    obtain ⟨v, -, hv⟩ := ho.cols
    have hc' : (match c.output.columns with | .listed l => Output.Columns.list l | .named s => if s = "basic" then .basic else .all) = .list l := hc
    rcases hv with ⟨hn, -⟩ | ⟨l', ps, hl', -, h2, h3⟩
    · rw [hn] at hc'
      simp only at hc'
      split_ifs at hc'
    · rw [hl'] at hc'
      simp only [Output.Columns.list.injEq] at hc'
      rw [← hc', ← h3.length_eq]
      exact h2
  | all =>
    unfold Output.outputFrame
    simp only [hc, Output.selectColumns, bind, Except.bind]
    exact ⟨_, rfl⟩

/-! ## The command line -/

theorem findFile_ok {exist : String → Bool} {p arg : String} (h : exist p = true) : Cli.findFile exist p arg = .ok p := by
  unfold Cli.findFile; rw [if_pos h]

theorem warn_none {gl : Cli.FS → List String} {name : String} {f : Bool} {fs : Cli.FS} (h : gl fs = []) : Cli.warnOrRemove gl name f fs = (.ok (), fs) := by
  unfold Cli.warnOrRemove; rw [h]

/-- A command whose files are in place is accepted. -/
theorem inPlace_accepted {w : World G W V} {d : Disk} {args : Cli.Args} (hg : Cli.Spec.GlobSound w.glob) (h : Spec.InPlace w.isDir d args) :
    ∃ a, Accepted w d args a := by
  have hex : ∀ p ∈ [args.p, args.ob, args.c, args.pd] ++ args.cp.toList ++ args.er.toList, existing w d p = true := by
    intro p hp
    unfold existing
    rw [List.contains_iff_mem.2 ((History.mem_paths d p).2 (h.inputs p hp).1)]
    rfl
  have hcp : ∃ cp, Cli.findOptional (existing w d) true args.cp "-cp, --complex_physical_parameters" = .ok cp := by
    unfold Cli.findOptional
    cases hc : args.cp with
    | none => exact ⟨_, rfl⟩
    | some q =>
      simp only
      split_ifs
      · exact ⟨_, rfl⟩
      · rw [findFile_ok (hex q (by simp [hc]))]
        exact ⟨_, rfl⟩
  obtain ⟨cp, hcp⟩ := hcp
  have hin : Cli.findInputs (existing w d) args = .ok (cp, none) := by
    unfold Cli.findInputs
    rw [findFile_ok (hex args.p (by simp)), findFile_ok (hex args.ob (by simp)), findFile_ok (hex args.c (by simp)),
      findFile_ok (p := args.o) (by unfold existing; rw [h.outdir]; simp), findFile_ok (hex args.pd (by simp)), hcp, h.visits]
    rfl
  have har : ∃ u, Cli.findOptional w.isDir true args.ar "-ar, --ar_data_path" = .ok u := by
    unfold Cli.findOptional
    cases ha : args.ar with
    | none => exact ⟨_, rfl⟩
    | some q =>
      simp only
      split_ifs
      · exact ⟨_, rfl⟩
      · rw [findFile_ok (h.data q ha)]
        exact ⟨_, rfl⟩
  obtain ⟨u, har⟩ := har
  have hout : (Cli.checkOutputs w.isDir w.glob args d.paths).1 = .ok () := by
    unfold Cli.checkOutputs Cli.andThen
    rcases h.fresh with hf | hf
    · simp only [hf, History.Props.warnOpt_force, har, Except.map, History.Props.warn_force]
    · have e1 : Cli.warnOptional true args.ew (w.glob.anyExt args.o) args.f d.paths = (.ok (), d.paths) := by
        unfold Cli.warnOptional
        cases he : args.ew with
        | none => rfl
        | some n =>
          simp only
          split_ifs with hne
          · rfl
          · apply warn_none
            rw [List.eq_nil_iff_forall_not_mem]
            intro p hp
            obtain ⟨h1, h2⟩ := (hg.anyExt args.o n d.paths p).1 hp
            exact (History.mem_paths d p).1 h1 (hf p (.inr (.inl ⟨n, he, by rintro rfl; simp at hne, h2⟩)))
      have e2 : Cli.warnOptional false args.st (w.glob.csv args.o) args.f d.paths = (.ok (), d.paths) := by
        unfold Cli.warnOptional
        cases he : args.st with
        | none => rfl
        | some n =>
          simp only [Bool.false_and, Bool.false_eq_true, if_false]
          apply warn_none
          rw [List.eq_nil_iff_forall_not_mem]
          intro p hp
          obtain ⟨h1, h2⟩ := (hg.csv args.o n d.paths p).1 hp
          exact (History.mem_paths d p).1 h1 (hf p (.inr (.inr ⟨n, he, h2⟩)))
      have e3 : Cli.warnOrRemove (w.glob.anyExt args.o args.t) args.t args.f d.paths = (.ok (), d.paths) := by
        apply warn_none
        rw [List.eq_nil_iff_forall_not_mem]
        intro p hp
        obtain ⟨h1, h2⟩ := (hg.anyExt args.o args.t d.paths p).1 hp
        exact (History.mem_paths d p).1 h1 (hf p (.inl h2))
      simp only [e1, e2, har, Except.map, e3]
  unfold Accepted Cli.commandLine
  rw [hin]
  simp only [hout]
  exact ⟨_, rfl⟩

/-- The simulation is started. -/
theorem inPlace_starts {w : World G W V} {d : Disk} {args : Cli.Args} (hg : Cli.Spec.GlobSound w.glob) (hone : History.Spec.AtMostOne args d)
    (h : Spec.InPlace w.isDir d args) {a : Cli.CmdArgs} (ha : Accepted w d args a) {c : Config.Cfg} (hfov : ∀ q, c.fov ≠ .visits q)
    (her : c.input.ephemeridesType = "external" → args.er ≠ none) (hcp : args.cp ≠ none ∨ c.lightcurve = none ∧ c.activity = none) :
    Cli.execute (fun p => (checked w args d).paths.contains p) w.isDir (runConfig c) a = .ok .rubin := by
  obtain ⟨-, -, e1, e2, e3, -, e5, e6, e7, e8, -, e10, -, -, e13⟩ := Cli.Props.C58_arguments ha
  have hget := (Props.checked_get hg hone ha).2
  apply Cli.Props.C58_starts
  · intro p hp
    rw [List.contains_iff_mem, History.mem_paths]
    have : p ∈ [args.p, args.ob, args.c, args.pd] ++ args.cp.toList ++ args.er.toList := by
      rw [e1, e2, e3, e5, e8] at hp
      rcases hp with rfl | rfl | rfl | rfl | hp
      · simp
      · simp
      · simp
      · simp
      · simp [hp]
    obtain ⟨h1, h2⟩ := h.inputs p this
    rw [hget p h2]
    exact h1
  · rw [e13]; exact h.data
  · rw [e8]; exact her
  · rcases hcp with hcp | hcp
    · left
      rw [e6]
      cases hq : args.cp with
      | none => exact absurd hq hcp
      | some q =>
        have : q ≠ "" := by rintro rfl; exact h.named hq
        simp [Option.filter_some, this]
    · exact .inr hcp
  · rw [e7, h.visits]
    have : (runConfig c).visitsQuery = none := by
      unfold runConfig
      cases hc : c.fov with
      | visits q => exact absurd hc (hfov q)
      | _ => rfl
    rw [this]
  · rw [e7, h.visits]; exact fun h => absurd rfl h
  · rw [e10]; exact h.survey

/-! ## The input files -/

theorem textAt_kept {w : World G W V} {d : Disk} {args : Cli.Args} {a : Cli.CmdArgs} (hg : Cli.Spec.GlobSound w.glob) (hone : History.Spec.AtMostOne args d)
    (ha : Accepted w d args a) {p : String} (hp : ¬ Spec.IsOutput args p) {t : Str} (ht : d.get p = some (.text t)) : textAt (checked w args d) p = some t := by
  unfold textAt
  rw [(Props.checked_get hg hone ha).2 p hp, ht]

/-- A table that passes its checks can be read. -/
theorem Table.ge {P : IdParse} {fmt : String} {d : Disk} {p : String} {recs : List (Rec Str)} (h : Spec.Table P fmt d p recs) {good : Csv.TextTable → Bool} (hgood : Spec.Passes good fmt d p) :
    ∃ t, d.get p = some (.text t) ∧ Le (lineSource P (fileOf recs)) (source P good fmt t) := by
  obtain ⟨t, names, rows, h1, h2, h3, h4⟩ := h
  refine ⟨t, h1, ?_⟩
  have : recs = rows.map asRec := h3
  subst this
  exact source_ge P good h2 (fileOf_holds _) h4 (hgood t names rows h1 h2)

/-- The tables of the objects can be read. -/
theorem objects_ge {w : World G W V} {d : Disk} {args : Cli.Args} {a : Cli.CmdArgs} (hg : Cli.Spec.GlobSound w.glob) (hone : History.Spec.AtMostOne args d)
    (h : Spec.InPlace w.isDir d args) (ha : Accepted w d args a) {c : Config.Cfg} {orb : List (Rec Str)} {ts : List (List (Rec Str))}
    (hin : Spec.Objects w.ids d args c orb ts) (g1 : Spec.Passes w.goodOrbits c.input.auxFormat d args.ob) (g2 : Spec.Passes w.goodParameters c.input.auxFormat d args.p)
    (g3 : c.activity ≠ none ∨ c.lightcurve ≠ none → ∀ p, args.cp = some p → Spec.Passes w.goodComplex c.input.auxFormat d p) :
    ∃ o aux, textAt (checked w args d) a.orbinfile = some o ∧ auxSources w c a (checked w args d) = some aux ∧
      Le (lineSource w.ids (fileOf orb)) (source w.ids w.goodOrbits c.input.auxFormat o) ∧ List.Forall₂ Le ((ts.map fileOf).map (lineSource w.ids)) aux ∧
      checkIds (source w.ids w.goodOrbits c.input.auxFormat o :: aux) = .ok () ∧ (source w.ids w.goodOrbits c.input.auxFormat o).ids = .ok (orb.map (·.id)) := by
  obtain ⟨-, -, e1, e2, e3, -, e5, e6, e7, e8, -⟩ := Cli.Props.C58_arguments ha
  have hk := fun p hp => (h.inputs p hp).2
  obtain ⟨o, ho, lo⟩ := Table.ge hin.orbits g1
  have hto := textAt_kept hg hone ha (hk args.ob (by simp)) ho
  have hcons := Objects.consistent hin
  have hids := lo.ids _ (Readers.buildIdMap_holds w.ids _ orb hcons.orbit hcons.stable)
  have haux : ∃ aux, auxSources w c a (checked w args d) = some aux ∧ List.Forall₂ Le ((ts.map fileOf).map (lineSource w.ids)) aux := by
    rcases hin.given with ⟨h1, h2, phys, rfl, h3⟩ | ⟨h1, phys, cx, p, rfl, h2, h3, h4⟩
    · obtain ⟨t, ht, lt⟩ := Table.ge h3 g2
      have htt := textAt_kept hg hone ha (hk args.p (by simp)) ht
      refine ⟨_, ?_, .cons lt .nil⟩
      unfold auxSources
      rw [e1, htt]
      simp only
      rw [if_neg (by simp [h1, h2])]
    · obtain ⟨t, ht, lt⟩ := Table.ge h3 g2
      have htt := textAt_kept hg hone ha (hk args.p (by simp)) ht
      obtain ⟨x, hx, lx⟩ := Table.ge h4 (g3 h1 p h2)
      have hxx := textAt_kept hg hone ha (hk p (by simp [h2])) hx
      have hp : p ≠ "" := by rintro rfl; exact h.named h2
      refine ⟨_, ?_, .cons lt (.cons lx .nil)⟩
      unfold auxSources
      rw [e1, htt]
      simp only
      rw [if_pos h1, e6, h2]
      simp only [Option.filter_some, hp, ne_eq, not_false_eq_true, decide_true, if_true, Option.bind_some]
      rw [hxx]
  obtain ⟨aux, h1, h2⟩ := haux
  refine ⟨o, aux, by rw [e2]; exact hto, h1, lo, h2, ?_, hids⟩
  have := hcons.check
  rw [← checkIds_lines] at this
  exact checkIds_le (.cons lo h2) this

theorem external_total {w : World G W V} {d : Disk} {args : Cli.Args} {a : Cli.CmdArgs} (hg : Cli.Spec.GlobSound w.glob) (hone : History.Spec.AtMostOne args d)
    (h : Spec.InPlace w.isDir d args) (ha : Accepted w d args a) {c : Config.Cfg} {eph orb : List (Rec Str)} {ts : List (List (Rec Str))}
    (hin : Spec.Objects w.ids d args c orb ts) (g1 : Spec.Passes w.goodOrbits c.input.auxFormat d args.ob) (g2 : Spec.Passes w.goodParameters c.input.auxFormat d args.p)
    (g3 : c.activity ≠ none ∨ c.lightcurve ≠ none → ∀ p, args.cp = some p → Spec.Passes w.goodComplex c.input.auxFormat d p) {pe : String} (her : args.er = some pe)
    (he : Spec.Table w.ids c.input.ephFormat d pe eph) (g4 : Spec.Passes w.goodEphemeris c.input.ephFormat d pe) (hext : c.input.ephemeridesType = "external") (hchunk : 1 ≤ c.input.chunk) :
    ∃ bs, observations w c a (checked w args d) = (bs, true) := by
  obtain ⟨o, aux, h1, h2, lo, la, h3, h4⟩ := objects_ge hg hone h ha hin g1 g2 g3
  obtain ⟨-, -, -, -, -, -, -, -, -, e8, -⟩ := Cli.Props.C58_arguments ha
  obtain ⟨t, ht, lt⟩ := Table.ge he g4
  have htt := textAt_kept hg hone ha (h.inputs pe (by simp [her])).2 ht
  have hcons := Objects.consistent hin
  have hse : Readers.Spec.StableIds w.ids eph := by
    obtain ⟨_, _, _, _, _, _, h⟩ := he
    exact h
  obtain ⟨n, hn⟩ := Int.eq_ofNat_of_zero_le (show 0 ≤ c.input.chunk by omega)
  have hn1 : 1 ≤ n := by omega
  have hrun := Readers.Props.C15_blocks w.ids w.missing (fileOf eph) (fileOf orb) eph orb (ts.map fileOf) ts hcons (fileOf_holds _) hse n hn1 (orb.map (·.id)).length
    (by rw [List.length_map]; exact chunks_le _ _ hn1)
  unfold Readers.runExternal at hrun
  rw [hcons.check] at hrun
  simp only at hrun
  rw [Readers.buildIdMap_holds w.ids _ orb hcons.orbit hcons.stable] at hrun
  simp only at hrun
  have hb := loop_blocks (read := readBlock w.missing (source w.ids w.goodEphemeris c.input.ephFormat t) (source w.ids w.goodOrbits c.input.auxFormat o) aux) (fun b x hx => by
    rw [← readBlock_lines] at hx
    exact readBlock_le w.missing lt lo la b _ hx) _ _ _ _ _ hrun
  suffices hs : (observations w c a (checked w args d)).2 = true from ⟨_, Prod.ext rfl hs⟩
  unfold observations
  rw [h1, h2]
  simp only
  rw [h3, h4]
  simp only
  rw [if_pos hext, e8, her, Option.bind_some, htt]
  simp only
  rw [hn, hb]

theorem generated_total {w : World G W V} {d : Disk} {args : Cli.Args} {a : Cli.CmdArgs} (hg : Cli.Spec.GlobSound w.glob) (hone : History.Spec.AtMostOne args d)
    (h : Spec.InPlace w.isDir d args) (ha : Accepted w d args a) {c : Config.Cfg} {orb : List (Rec Str)} {ts : List (List (Rec Str))}
    (hin : Spec.Objects w.ids d args c orb ts) (g1 : Spec.Passes w.goodOrbits c.input.auxFormat d args.ob) (g2 : Spec.Passes w.goodParameters c.input.auxFormat d args.p)
    (g3 : c.activity ≠ none ∨ c.lightcurve ≠ none → ∀ p, args.cp = some p → Spec.Passes w.goodComplex c.input.auxFormat d p)
    (hext : c.input.ephemeridesType ≠ "external") (hchunk : 1 ≤ c.input.chunk) :
    ∃ bs, observations w c a (checked w args d) = (bs, true) := by
  obtain ⟨o, aux, h1, h2, lo, la, h3, h4⟩ := objects_ge hg hone h ha hin g1 g2 g3
  have hcons := Objects.consistent hin
  obtain ⟨n, hn⟩ := Int.eq_ofNat_of_zero_le (show 0 ≤ c.input.chunk by omega)
  have hn1 : 1 ≤ n := by omega
  have hrun := Readers.Props.C12_generated w.ids w.missing (fileOf orb) orb (ts.map fileOf) ts hcons n hn1 (orb.map (·.id)).length
    (by rw [List.length_map]; exact chunks_le _ _ hn1)
  unfold Readers.runAux at hrun
  rw [hcons.check] at hrun
  simp only at hrun
  rw [Readers.buildIdMap_holds w.ids _ orb hcons.orbit hcons.stable] at hrun
  simp only at hrun
  have hb := loop_blocks (read := readAuxBlock w.missing (source w.ids w.goodOrbits c.input.auxFormat o) aux) (fun b x hx => by
    rw [← readAuxBlock_lines] at hx
    exact readAuxBlock_le w.missing lo la b _ hx) _ _ _ _ _ hrun
  suffices hs : (observations w c a (checked w args d)).2 = true from ⟨_, Prod.ext rfl hs⟩
  unfold observations
  rw [h1, h2]
  simp only
  rw [h3, h4]
  simp only
  rw [if_neg hext, hn, hb]

/-! ## The rounds -/

theorem rounds_total {w : World G W V} {E : Pipeline.Env G W V} {c : Config.Cfg} {a : Cli.CmdArgs} (hc : Pipeline.Spec.Sound c)
    (hframe : ∀ rows, ∃ g, Output.outputFrame w.dist (outConfig c) ⟨w.columns c a, rows⟩ = .ok g) :
    ∀ (bs : List (List (Pointing.Obs W) × Option Output.Frame)) s, (∀ b ∈ bs, Pipeline.Spec.Workable E c b.1) → ∃ chunks, rounds w E c a s bs = (chunks, true) := by
  intro bs
  induction bs with
  | nil => intro s _; exact ⟨_, rfl⟩
  | cons b bs ih =>
    intro s h
    obtain ⟨obs, eph⟩ := b
    obtain ⟨⟨out, s'⟩, hp⟩ := Pipeline.process_total E c s obs hc (h (obs, eph) (by simp))
    obtain ⟨ch, hr⟩ := ih s' fun b hb => h b (by simp [hb])
    simp only [rounds, hp]
    split_ifs
    · rw [hr]; exact ⟨_, rfl⟩
    · obtain ⟨g, hgf⟩ := hframe (out.map w.cells)
      rw [hgf, hr]
      exact ⟨_, rfl⟩

/-- The tables of all rounds have the same columns. -/
theorem rounds_columns {w : World G W V} {E : Pipeline.Env G W V} {c : Config.Cfg} {a : Cli.CmdArgs} {s bs chunks} (h : rounds w E c a s bs = (chunks, true)) :
    ∀ f ∈ chunks.filterMap (fun c => c.results.map (·.1)), f.cols = Output.Spec.wantedColumns (outConfig c).columns (outConfig c).keepUnlinked (w.columns c a) := by
  obtain ⟨outs, -, h2, -⟩ := rounds_ok w E c a bs s chunks h
  intro f hf
  obtain ⟨i, hi, rfl⟩ := List.getElem_of_mem hf
  have := List.Forall₂.get h2 (i := i) (by rw [h2.length_eq]; exact hi) hi
  exact (outputFrame_cells _ _ _ _ this).1

/-! ## The run -/

/-- A run whose inputs are read and whose rounds go well. -/
theorem run_total {w : World G W V} {argv : List Str} {args : Cli.Args} {v : Bool} (hargs : Argv.parseRun argv = .ok (args, v)) {d : Disk}
    (hg : Cli.Spec.GlobSound w.glob) (hnames : History.Spec.NamesDiffer args) (hone : History.Spec.AtMostOne args d) (h : Spec.InPlace w.isDir d args) {c : Config.Cfg}
    (hconf : Configured w d args c) (hlow : w.py.lower "rubin_sim" ≠ "des") (hplain : Spec.Plain c) {a : Cli.CmdArgs} (ha : Accepted w d args a)
    (hcol : Spec.Columned c (w.columns c a)) (her : c.input.ephemeridesType = "external" → args.er ≠ none)
    (hcp : args.cp ≠ none ∨ c.lightcurve = none ∧ c.activity = none) {E : Pipeline.Env G W V} (hE : w.env c a (checked w args d) = some E) {bs}
    (hbs : observations w c a (checked w args d) = (bs, true)) (hwork : ∀ b ∈ bs, Pipeline.Spec.Workable E c b.1) :
    (∃ fmt chunks, plan w a (checked w args d) = .writes fmt chunks true) ∧ ∃ d' log, Invoked w argv d d' log .finished := by
  obtain ⟨f, hf⟩ := configured_ok hconf h.survey hlow
  have hsound := sound_of_file hf hlow hplain.limits
  obtain ⟨chunks, hr⟩ := rounds_total hsound (fun rows => frame_total hf hcol.there w.dist rows) bs (w.state c a) hwork
  have hp : plan w a (checked w args d) = .writes (if c.output.format = "csv" then .csv else .sqlite) chunks true := by
    obtain ⟨-, -, -, -, e3, -, -, -, -, -, -, e10, -⟩ := Cli.Props.C58_arguments ha
    obtain ⟨t, x, ht, hx⟩ := hconf
    unfold plan
    rw [e3, textAt_kept hg hone ha (h.inputs args.c (by simp)).2 ht]
    simp only
    rw [e10, hx]
    simp only
    rw [inPlace_starts hg hone h ha hsound.camera her hcp]
    simp only
    rw [if_neg (by simp [hplain.eph, hplain.format]), hE]
    simp only
    rw [hbs, hr]
    rfl
  refine ⟨⟨_, _, hp⟩, ?_⟩
  obtain ⟨d', log, hd⟩ := History.Props.accepted_finish (ls := w.lines) hg (j := ⟨args, if c.output.format = "csv" then .csv else .sqlite, chunks, w.stamp, w.start⟩) hnames
    hone ha (by
      intro hfmt f rest hfr
      have hall := rounds_columns hr
      rw [show chunks.filterMap (fun c => c.results.map (·.1)) = f :: rest from hfr] at hall
      have hcf := hall f (by simp)
      refine ⟨fun k hk x hx => ?_, fun x hx => ?_⟩
      · unfold History.Spec.dbColumns at *
        rw [hcf]; rw [hall k (by simp [hk])] at hx; exact hx
      · have := hcol.indexed (fun hcsv => by simp [hcsv] at hfmt) x hx
        unfold History.Spec.dbColumns
        rw [hcf, List.mem_filter]
        refine ⟨this, ?_⟩
        simp only [List.mem_cons, List.not_mem_nil, or_false] at hx
        rcases hx with rfl | rfl | rfl <;> decide)
  refine ⟨d', log, ?_⟩
  generalize ho : History.Outcome.finished = out at hd
  cases hd with
  | refused h => cases ho
  | @ran k s done h' he =>
    have h' : (Cli.commandLine (existing w d) w.isDir w.glob args d.paths).1 = .ok k := h'
    rw [show (Cli.commandLine (existing w d) w.isDir w.glob args d.paths).1 = .ok a from ha] at h'
    cases h'
    exact Invoked.ran hargs ha hp he

end Sorcha.Whole
