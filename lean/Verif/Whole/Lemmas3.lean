import Verif.Whole.Lemmas2

/-!
# Lemmas for `sorcha run`: the observations of all rounds
-/

namespace Sorcha.Whole

open Sorcha.Csv (Str)
open Sorcha.Readers (Rec IdParse Line)
open Sorcha.History (Disk Chunk)

variable {G W V : Type}

/-- What has been read when the rounds are over. -/
theorem observations_ok {w : World G W V} {c : Config.Cfg} {a : Cli.CmdArgs} {d : Disk} {bs} (h : observations w c a d = (bs, true)) :
    ∃ o aux table, textAt d a.orbinfile = some o ∧ auxSources w c a d = some aux ∧ checkIds (source w.ids w.goodOrbits c.input.auxFormat o :: aux) = .ok () ∧
      (source w.ids w.goodOrbits c.input.auxFormat o).ids = .ok table ∧
      ((c.input.ephemeridesType = "external" ∧ ∃ e r, a.inputEphemerisFile.bind (textAt d) = some e ∧
          blocks (readBlock w.missing (source w.ids w.goodEphemeris c.input.ephFormat e) (source w.ids w.goodOrbits c.input.auxFormat o) aux) table.length c.input.chunk table.length 0 0 = (r, true) ∧
          bs = r.map fun b => (b.map (Pipeline.toObs w.parse), none)) ∨
        (c.input.ephemeridesType ≠ "external" ∧ ∃ r,
          blocks (readAuxBlock w.missing (source w.ids w.goodOrbits c.input.auxFormat o) aux) table.length c.input.chunk table.length 0 0 = (r, true) ∧
          bs = r.map fun b =>
            let left := if c.expert.bruteForce then b else b.filter fun x => !w.cull c a x
            if left.length = 0 ∧ !c.expert.bruteForce then ([], none) else (w.ephem c a left, some (w.ephemFrame (w.ephem c a left))))) := by
  unfold observations at h
  cases ho : textAt d a.orbinfile with
  | none => simp [ho] at h
  | some o =>
    cases hx : auxSources w c a d with
    | none => simp [ho, hx] at h
    | some aux =>
      rw [ho, hx] at h
      simp only at h
      cases hc : checkIds (source w.ids w.goodOrbits c.input.auxFormat o :: aux) with
      | error e => simp [hc] at h
      | ok u =>
        cases hi : (source w.ids w.goodOrbits c.input.auxFormat o).ids with
        | error e => simp [hc, hi] at h
        | ok table =>
          rw [hc, hi] at h
          simp only at h
          refine ⟨o, aux, table, rfl, rfl, hc, hi, ?_⟩
          by_cases he : c.input.ephemeridesType = "external"
          · rw [if_pos he] at h
            left
            refine ⟨he, ?_⟩
            cases hb : a.inputEphemerisFile.bind (textAt d) with
            | none => simp [hb] at h
            | some e =>
              rw [hb] at h
              simp only [Prod.mk.injEq] at h
              exact ⟨e, _, rfl, Prod.ext rfl h.2, h.1.symm⟩
          · rw [if_neg he] at h
            right
            simp only [Prod.mk.injEq] at h
            exact ⟨he, _, Prod.ext rfl h.2, h.1.symm⟩

theorem chunks_le (n m : ℕ) (h : 1 ≤ m) : (n + m - 1) / m ≤ n := by
  rcases Nat.eq_zero_or_pos n with rfl | hn
  · rw [Nat.zero_add, Nat.div_eq_of_lt (by omega)]
  · rw [Nat.div_le_iff_le_mul_add_pred (by omega)]
    have := Nat.mul_le_mul_right n h
    omega

theorem chunks_nil {α : Type} {n : ℕ} (h : 1 ≤ n) : Readers.Spec.chunks ([] : List α) n = [] := by
  unfold Readers.Spec.chunks
  rw [List.length_nil, Nat.zero_add, Nat.div_eq_of_lt (by omega)]
  rfl

/-- The number of objects in a round. -/
def roundSize (c : Config.Cfg) : ℕ := max 1 c.input.chunk.toNat

/-- The observations of a run with an ephemeris file. -/
theorem external_blocks_of {w : World G W V} {args : Cli.Args} {d : Disk} {c : Config.Cfg} {a : Cli.CmdArgs} {eph orb : List (Rec Str)} {ts : List (List (Rec Str))}
    (hin : Spec.Objects w.ids d args c orb ts) {pe : String} (her : args.er = some pe) (he : Spec.Table w.ids c.input.ephFormat d pe eph)
    (h1 : a.paramsinput = args.p) (h2 : a.orbinfile = args.ob) (h3 : a.inputEphemerisFile = args.er) (h4 : a.complexParams = none ∨ a.complexParams = args.cp)
    (hext : c.input.ephemeridesType = "external") {bs} (h : observations w c a (checked w args d) = (bs, true)) :
    bs.map (·.1) = Pipeline.externalBlocks w.parse orb ts eph (roundSize c) ∧ bs.filterMap (·.2) = [] := by
  obtain ⟨o, aux, table, e1, e2, e3, e4, hcase⟩ := observations_ok h
  rcases hcase with ⟨-, e, r, e5, e6, rfl⟩ | ⟨hn, -⟩
  · refine ⟨?_, by simp⟩
    have hcons := Objects.consistent hin
    rw [h2] at e1
    have lo := Table.le hin.orbits e1 w.goodOrbits
    have hse : Readers.Spec.StableIds w.ids eph := by
      obtain ⟨_, _, _, _, _, _, h⟩ := he
      exact h
    rw [h3, her] at e5
    have le := Table.le he e5 w.goodEphemeris
    have la := auxSources_le hin h1 h4 e2
    have ht := ids_length hcons.stable lo e4
    have hl : table.length = orb.length := by rw [ht, List.length_map]
    rcases blocks_size (fun hs b t st => readBlock_nonpos (fun x hx => source_rows_nonpos _ _ _ b hs hx)) e6 with ⟨h0, rfl⟩ | hs
    · have : orb = [] := List.length_eq_zero_iff.1 (hl ▸ h0)
      subst this
      unfold Pipeline.externalBlocks
      rw [roundSize, chunks_nil (le_max_left _ _)]
      rfl
    · obtain ⟨n, hn⟩ := Int.eq_ofNat_of_zero_le (show 0 ≤ c.input.chunk by omega)
      have hn1 : 1 ≤ n := by omega
      have hround : roundSize c = n := by unfold roundSize; rw [hn]; exact max_eq_right hn1
      rw [hround]
      rw [hn] at e6
      have hloop := blocks_loop (read' := Readers.readBlock w.ids w.missing ⟨fileOf eph, false, none⟩ ⟨fileOf orb, false, none⟩
        ((ts.map fileOf).map fun f => ⟨f, false, none⟩)) (fun b x hx => by
          rw [← readBlock_lines]
          exact readBlock_le w.missing le lo la b _ hx) _ _ _ _ _ e6
      have hrun := Readers.Props.C15_blocks w.ids w.missing (fileOf eph) (fileOf orb) eph orb (ts.map fileOf) ts hcons (fileOf_holds _) hse n hn1 table.length
        (by rw [hl]; exact chunks_le _ _ hn1)
      unfold Readers.runExternal at hrun
      rw [hcons.check] at hrun
      simp only at hrun
      rw [Readers.buildIdMap_holds w.ids _ orb hcons.orbit hcons.stable] at hrun
      simp only at hrun
      rw [← ht] at hrun
      have hr : r = _ := Except.ok.inj (Option.some.inj (hloop.symm.trans hrun))
      rw [List.map_map, hr]
      unfold Pipeline.externalBlocks
      rw [List.map_map]
      rfl
  · exact absurd hext hn

theorem external_blocks {w : World G W V} {args : Cli.Args} {d : Disk} {c : Config.Cfg} {a : Cli.CmdArgs} {eph orb : List (Rec Str)} {ts : List (List (Rec Str))}
    (hin : Spec.Objects w.ids d args c orb ts) {pe : String} (her : args.er = some pe) (he : Spec.Table w.ids c.input.ephFormat d pe eph)
    (h1 : a.paramsinput = args.p) (h2 : a.orbinfile = args.ob) (h3 : a.inputEphemerisFile = args.er) (h4 : a.complexParams = none ∨ a.complexParams = args.cp)
    (hext : c.input.ephemeridesType = "external") {bs} (h : observations w c a (checked w args d) = (bs, true)) :
    (∃ n : ℕ, 1 ≤ n ∧ bs.map (·.1) = Pipeline.externalBlocks w.parse orb ts eph n) ∧ bs.filterMap (·.2) = [] :=
  ⟨⟨_, le_max_left _ _, (external_blocks_of hin her he h1 h2 h3 h4 hext h).1⟩, (external_blocks_of hin her he h1 h2 h3 h4 hext h).2⟩

/-- The objects that are left after the faint ones have been dropped. -/
def keptObjects (w : World G W V) (c : Config.Cfg) (a : Cli.CmdArgs) (ts : List (List (Rec Str))) (b : List (Rec Str)) : List (Rec Str) :=
  Pipeline.left c (w.cull c a) ts b

/-- The observations of a run that makes its ephemerides. -/
theorem generated_blocks_of {w : World G W V} {args : Cli.Args} {d : Disk} {c : Config.Cfg} {a : Cli.CmdArgs} {orb : List (Rec Str)} {ts : List (List (Rec Str))}
    (hin : Spec.Objects w.ids d args c orb ts) (hnone : w.ephem c a [] = [])
    (h1 : a.paramsinput = args.p) (h2 : a.orbinfile = args.ob) (h4 : a.complexParams = none ∨ a.complexParams = args.cp)
    (hext : c.input.ephemeridesType ≠ "external") {bs} (h : observations w c a (checked w args d) = (bs, true)) :
    bs.map (·.1) = (Readers.Spec.chunks orb (roundSize c)).map (fun b => w.ephem c a (keptObjects w c a ts b)) ∧
      bs.filterMap (·.2) = ((Readers.Spec.chunks orb (roundSize c)).map (keptObjects w c a ts)).filterMap
        (fun k => if k = [] ∧ c.expert.bruteForce = false then none else some (w.ephemFrame (w.ephem c a k))) := by
  obtain ⟨o, aux, table, e1, e2, e3, e4, hcase⟩ := observations_ok h
  rcases hcase with ⟨hn, -⟩ | ⟨-, r, e6, rfl⟩
  · exact absurd hn hext
  · have hcons := Objects.consistent hin
    rw [h2] at e1
    have lo := Table.le hin.orbits e1 w.goodOrbits
    have la := auxSources_le hin h1 h4 e2
    have ht := ids_length hcons.stable lo e4
    have hl : table.length = orb.length := by rw [ht, List.length_map]
    rcases blocks_size (fun hs b t st => readAuxBlock_nonpos (fun x hx => source_rows_nonpos _ _ _ b hs hx)) e6 with ⟨h0, rfl⟩ | hs
    · have : orb = [] := List.length_eq_zero_iff.1 (hl ▸ h0)
      subst this
      rw [roundSize, chunks_nil (le_max_left _ _)]
      exact ⟨rfl, rfl⟩
    · obtain ⟨n, hn⟩ := Int.eq_ofNat_of_zero_le (show 0 ≤ c.input.chunk by omega)
      have hn1 : 1 ≤ n := by omega
      have hround : roundSize c = n := by unfold roundSize; rw [hn]; exact max_eq_right hn1
      rw [hround]
      rw [hn] at e6
      have hloop := blocks_loop (read' := Readers.readAuxBlock w.ids w.missing ⟨fileOf orb, false, none⟩
        ((ts.map fileOf).map fun f => ⟨f, false, none⟩)) (fun b x hx => by
          rw [← readAuxBlock_lines]
          exact readAuxBlock_le w.missing lo la b _ hx) _ _ _ _ _ e6
      have hrun := Readers.Props.C12_generated w.ids w.missing (fileOf orb) orb (ts.map fileOf) ts hcons n hn1 table.length
        (by rw [hl]; exact chunks_le _ _ hn1)
      unfold Readers.runAux at hrun
      rw [hcons.check] at hrun
      simp only at hrun
      rw [Readers.buildIdMap_holds w.ids _ orb hcons.orbit hcons.stable] at hrun
      simp only at hrun
      rw [← ht] at hrun
      have hr : r = _ := Except.ok.inj (Option.some.inj (hloop.symm.trans hrun))
      have hk : ∀ b : List (Rec Str), (if c.expert.bruteForce = true then b.map (Readers.Spec.extend ts) else
          (b.map (Readers.Spec.extend ts)).filter fun x => !w.cull c a x) = keptObjects w c a ts b := by
        intro b
        unfold keptObjects Pipeline.left
        cases c.expert.bruteForce <;> simp
      subst hr
      simp only [List.map_map, List.filterMap_map]
      constructor
      · apply List.map_congr_left
        intro b _
        simp only [Function.comp_apply, hk]
        split_ifs with h0
        · rw [List.length_eq_zero_iff.1 h0.1, hnone]
        · rfl
      · apply List.filterMap_congr
        intro b _
        simp only [Function.comp_apply, hk]
        by_cases h0 : keptObjects w c a ts b = [] ∧ c.expert.bruteForce = false
        · rw [if_pos h0, if_pos (by rw [h0.1, h0.2]; simp)]
        · rw [if_neg h0, if_neg (by simpa [List.length_eq_zero_iff] using h0)]

theorem generated_blocks {w : World G W V} {args : Cli.Args} {d : Disk} {c : Config.Cfg} {a : Cli.CmdArgs} {orb : List (Rec Str)} {ts : List (List (Rec Str))}
    (hin : Spec.Objects w.ids d args c orb ts) (hnone : w.ephem c a [] = [])
    (h1 : a.paramsinput = args.p) (h2 : a.orbinfile = args.ob) (h4 : a.complexParams = none ∨ a.complexParams = args.cp)
    (hext : c.input.ephemeridesType ≠ "external") {bs} (h : observations w c a (checked w args d) = (bs, true)) :
    ∃ n : ℕ, 1 ≤ n ∧ bs.map (·.1) = (Readers.Spec.chunks orb n).map (fun b => w.ephem c a (keptObjects w c a ts b)) ∧
      bs.filterMap (·.2) = ((Readers.Spec.chunks orb n).map (keptObjects w c a ts)).filterMap
        (fun k => if k = [] ∧ c.expert.bruteForce = false then none else some (w.ephemFrame (w.ephem c a k))) :=
  ⟨_, le_max_left _ _, generated_blocks_of hin hnone h1 h2 h4 hext h⟩

/-! ## The survivors of all rounds -/

theorem survivors_append (E : Pipeline.Env G W V) (c : Config.Cfg) (l m : List (Pointing.Obs W)) :
    Pipeline.Spec.survivors E c (l ++ m) = Pipeline.Spec.survivors E c l ++ Pipeline.Spec.survivors E c m := by
  unfold Pipeline.Spec.survivors Pipeline.Spec.candidates
  rw [List.flatMap_append, keep_append]

theorem survivors_perm (E : Pipeline.Env G W V) (c : Config.Cfg) {l m : List (Pointing.Obs W)} (h : l.Perm m) :
    (Pipeline.Spec.survivors E c l).Perm (Pipeline.Spec.survivors E c m) := by
  unfold Pipeline.Spec.survivors Pipeline.Spec.candidates keep
  exact (h.flatMap_right _).filter _

/-- Without random features and linking, the rows of all rounds are those that pass the filters. -/
theorem rounds_survivors {E : Pipeline.Env G W V} {c : Config.Cfg} (hsort : ∀ l, (E.sortIndex l).Perm l) (hd : Pipeline.Spec.Deterministic c)
    (hc : c.linking.ssp = none) {bs : List (List (Pointing.Obs W))} {s : Pipeline.State G} {outs} (h : Pipeline.rounds E c s bs = .ok outs) :
    (outs.flatten.map (·.row)).Perm (Pipeline.Spec.survivors E c bs.flatten) ∧ ∀ f ∈ outs.flatten, f.link = none := by
  obtain ⟨tables, ht, rfl⟩ := Pipeline.Props.C11_rounds_all h
  have hflat : (tables.filter fun t => decide (t ≠ [])).flatten = tables.flatten := by
    clear ht h
    induction tables with
    | nil => rfl
    | cons t ts ih =>
      by_cases h0 : t = []
      · subst h0
        simpa using ih
      · rw [List.filter_cons_of_pos (by simpa using h0), List.flatten_cons, List.flatten_cons, ih]
  rw [hflat]
  clear h hflat
  induction ht with
  | nil => exact ⟨List.Perm.refl _, by simp⟩
  | @cons b t bs ts hb _ ih =>
    obtain ⟨s1, s2, hp⟩ := hb
    obtain ⟨e1, e2⟩ := Pipeline.Props.C11_exact hsort hd hc hp
    refine ⟨?_, ?_⟩
    · rw [List.flatten_cons, List.flatten_cons, List.map_append, survivors_append]
      exact e1.append ih.1
    · intro f hf
      rw [List.flatten_cons, List.mem_append] at hf
      exact hf.elim (e2 f) (ih.2 f)

/-- The external observations of all rounds. -/
theorem externalBlocks_perm (parse : List Str → ℕ × ℚ × W) {P : IdParse} {fo : List (Line Str)} {orb : List (Rec Str)} {fs : List (List (Line Str))}
    {ts : List (List (Rec Str))} (hcons : Readers.Props.Consistent P fo orb fs ts) {eph : List (Rec Str)}
    (hse : Readers.Spec.StableIds P eph) {n : ℕ} (hn : 1 ≤ n) :
    (Pipeline.externalBlocks parse orb ts eph n).flatten.Perm
      ((eph.filter fun r => r.id ∈ orb.map (·.id)).map fun r => Pipeline.toObs parse (Readers.Spec.extend (orb :: ts) r)) := by
  obtain ⟨rs, h1, h2⟩ := Readers.Props.C15_whole P ([] : List Str) (fileOf eph) fo eph orb fs ts hcons (fileOf_holds _) hse n hn _ (le_refl _)
  rw [Readers.Props.C15_blocks P [] (fileOf eph) fo eph orb fs ts hcons (fileOf_holds _) hse n hn _ (le_refl _)] at h1
  have h1 := Except.ok.inj (Option.some.inj h1)
  subst h1
  have := h2.map (Pipeline.toObs parse)
  rw [List.map_map] at this
  refine List.Perm.trans (List.Perm.of_eq ?_) this
  unfold Pipeline.externalBlocks
  rw [List.map_flatten, List.map_map]
  rfl

theorem left_append (c : Config.Cfg) (cull : Rec Str → Bool) (ts : List (List (Rec Str))) (l : List (List (Rec Str))) :
    (l.map (Pipeline.left c cull ts)).flatten = Pipeline.left c cull ts l.flatten := by
  induction l with
  | nil => rfl
  | cons b l ih =>
    rw [List.map_cons, List.flatten_cons, ih, List.flatten_cons]
    unfold Pipeline.left
    rw [List.map_append, List.filter_append]

/-- The generated observations of all rounds. -/
theorem generatedBlocks_perm {w : World G W V} {c : Config.Cfg} {a : Cli.CmdArgs} {orb : List (Rec Str)} {ts : List (List (Rec Str))} (huniq : (orb.map (·.id)).Nodup)
    (halone : ∀ objs, Pipeline.Spec.PartOf orb objs → (w.ephem c a objs).Perm (objs.flatMap fun r => w.ephem c a [r])) {n : ℕ} (hn : 1 ≤ n) :
    (((Readers.Spec.chunks orb n).map fun b => w.ephem c a (keptObjects w c a ts b)).flatten).Perm
      ((keptObjects w c a ts orb).flatMap fun r => w.ephem c a [r]) := by
  have hflat := (Readers.Props.C12_partition orb n hn).1
  have hpart : ∀ b ∈ Readers.Spec.chunks orb n, Pipeline.Spec.PartOf orb (keptObjects w c a ts b) := by
    intro b hb
    have hsub : b.Sublist orb := by
      rw [← hflat]
      exact List.sublist_flatten_of_mem hb
    exact Pipeline.left_part c (w.cull c a) ts (huniq.sublist (hsub.map _)) fun r hr => hsub.subset hr
  conv_rhs => rw [← hflat]
  unfold keptObjects at hpart ⊢
  rw [← left_append]
  generalize Readers.Spec.chunks orb n = l at hpart
  induction l with
  | nil => exact List.Perm.refl _
  | cons b l ih =>
    rw [List.map_cons, List.flatten_cons, List.map_cons, List.flatten_cons, List.flatMap_append]
    exact (halone _ (hpart b (List.mem_cons_self ..))).append (ih fun b' hb' => hpart b' (List.mem_cons_of_mem _ hb'))

end Sorcha.Whole
