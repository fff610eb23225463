import Verif.Whole.Lemmas3

/-!
# Lemmas for `sorcha run`: runs that stop
-/

namespace Sorcha.Whole

open Sorcha.Csv (Str)
open Sorcha.Readers (Rec IdParse Line)
open Sorcha.History (Disk Chunk)

variable {G W V : Type}

/-- What has been read when reading fails is an initial part of what there is. -/
theorem blocks_prefix {read read' : ℕ → ℤ → Except Readers.Err (Option (List (Rec Str)) × ℕ)} {size : ℤ} (hr : ∀ b x, read b size = .ok x → read' b size = .ok x) (lenf : ℕ) :
    ∀ (fuel : ℕ) (done : ℤ) (start : ℕ) full, Readers.chunkLoop read' lenf size fuel done done start = some (.ok full) →
      (blocks read lenf size fuel done start).1 <+: full := by
  intro fuel
  induction fuel with
  | zero => intro done start full _; exact List.nil_prefix
  | succ k ih =>
    intro done start full h
    unfold Readers.chunkLoop at h
    simp only [blocks]
    by_cases hd : done < lenf
    · rw [if_pos hd] at h ⊢
      cases hx : read start size with
      | error e => exact List.nil_prefix
      | ok x =>
        obtain ⟨o, st⟩ := x
        cases o with
        | none => exact List.nil_prefix
        | some t =>
          simp only
          rw [hr _ _ hx] at h
          simp only at h
          cases hl : Readers.chunkLoop read' lenf size k (done + size) (done + size) st with
          | none => rw [hl] at h; simp at h
          | some y =>
            rw [hl] at h
            cases y with
            | error e => simp [Except.map] at h
            | ok full' =>
              simp only [Option.map_some, Except.map, Option.some.injEq, Except.ok.injEq] at h
              rw [← h, List.prefix_cons_inj]
              exact ih _ _ _ hl
    · rw [if_neg hd]
      exact List.nil_prefix

theorem blocks_nonpos {read : ℕ → ℤ → Except Readers.Err (Option (List (Rec Str)) × ℕ)} {lenf : ℕ} {size : ℤ}
    (hread : ∀ b t st, read b size ≠ .ok (some t, st)) (fuel : ℕ) (done : ℤ) (start : ℕ) : (blocks read lenf size fuel done start).1 = [] := by
  cases fuel with
  | zero => rfl
  | succ k =>
    simp only [blocks]
    split_ifs with hd
    · cases hx : read start size with
      | error e => rfl
      | ok x =>
        obtain ⟨o, st⟩ := x
        cases o with
        | none => rfl
        | some t => exact absurd hx (hread _ _ _)
    · rfl

/-- What has been read when the rounds are over, with or without success. -/
theorem observations_any (w : World G W V) (c : Config.Cfg) (a : Cli.CmdArgs) (d : Disk) :
    (observations w c a d).1 = [] ∨
    ∃ o aux table, textAt d a.orbinfile = some o ∧ auxSources w c a d = some aux ∧ checkIds (source w.ids w.goodOrbits c.input.auxFormat o :: aux) = .ok () ∧
      (source w.ids w.goodOrbits c.input.auxFormat o).ids = .ok table ∧
      ((c.input.ephemeridesType = "external" ∧ ∃ e, a.inputEphemerisFile.bind (textAt d) = some e ∧
          (observations w c a d).1 = (blocks (readBlock w.missing (source w.ids w.goodEphemeris c.input.ephFormat e) (source w.ids w.goodOrbits c.input.auxFormat o) aux) table.length c.input.chunk
            table.length 0 0).1.map fun b => (b.map (Pipeline.toObs w.parse), none)) ∨
        (c.input.ephemeridesType ≠ "external" ∧
          (observations w c a d).1 = (blocks (readAuxBlock w.missing (source w.ids w.goodOrbits c.input.auxFormat o) aux) table.length c.input.chunk table.length 0 0).1.map fun b =>
            let left := if c.expert.bruteForce then b else b.filter fun x => !w.cull c a x
            if left.length = 0 ∧ !c.expert.bruteForce then ([], none) else (w.ephem c a left, some (w.ephemFrame (w.ephem c a left))))) := by
  unfold observations
  cases ho : textAt d a.orbinfile with
  | none => exact .inl rfl
  | some o =>
    cases hx : auxSources w c a d with
    | none => exact .inl rfl
    | some aux =>
      simp only
      cases hc : checkIds (source w.ids w.goodOrbits c.input.auxFormat o :: aux) with
      | error e => exact .inl rfl
      | ok u =>
        cases hi : (source w.ids w.goodOrbits c.input.auxFormat o).ids with
        | error e => exact .inl rfl
        | ok table =>
          simp only
          by_cases he : c.input.ephemeridesType = "external"
          · rw [if_pos he]
            cases hb : a.inputEphemerisFile.bind (textAt d) with
            | none => exact .inl rfl
            | some e => exact .inr ⟨o, aux, table, rfl, rfl, hc, hi, .inl ⟨he, e, rfl, rfl⟩⟩
          · rw [if_neg he]
            exact .inr ⟨o, aux, table, rfl, rfl, hc, hi, .inr ⟨he, rfl⟩⟩

/-- The observations of a run with an ephemeris file, whether it gets to its end or not. -/
theorem external_prefix {w : World G W V} {args : Cli.Args} {d : Disk} {c : Config.Cfg} {a : Cli.CmdArgs} {eph orb : List (Rec Str)} {ts : List (List (Rec Str))}
    (hin : Spec.Objects w.ids d args c orb ts) {pe : String} (her : args.er = some pe) (he : Spec.Table w.ids c.input.ephFormat d pe eph)
    (h1 : a.paramsinput = args.p) (h2 : a.orbinfile = args.ob) (h3 : a.inputEphemerisFile = args.er) (h4 : a.complexParams = none ∨ a.complexParams = args.cp)
    (hext : c.input.ephemeridesType = "external") :
    ∃ n : ℕ, 1 ≤ n ∧ (observations w c a (checked w args d)).1.map (·.1) <+: Pipeline.externalBlocks w.parse orb ts eph n := by
  rcases observations_any w c a (checked w args d) with h0 | ⟨o, aux, table, e1, e2, e3, e4, hcase⟩
  · exact ⟨1, le_refl _, by rw [h0]; exact List.nil_prefix⟩
  · rcases hcase with ⟨-, e, e5, hbs⟩ | ⟨hn, -⟩
    · have hcons := Objects.consistent hin
      rw [h2] at e1
      have lo := Table.le hin.orbits e1 w.goodOrbits
      have hse : Readers.Spec.StableIds w.ids eph := by
        obtain ⟨_, _, _, _, _, _, h⟩ := he
        exact h
      rw [h3, her] at e5
      have le := Table.le he e5 w.goodEphemeris
      have la := auxSources_le hin h1 h4 e2
      have ht := ids_length hcons.stable lo e4
      have hl : table.length = orb.length := by rw [ht, List.length_map]
      rw [hbs]
      rcases lt_or_ge c.input.chunk 1 with hs | hs
      · refine ⟨1, le_refl _, ?_⟩
        rw [blocks_nonpos (fun b t st => readBlock_nonpos (fun x hx => source_rows_nonpos _ _ _ b (by omega) hx))]
        exact List.nil_prefix
      · obtain ⟨n, hn⟩ := Int.eq_ofNat_of_zero_le (show 0 ≤ c.input.chunk by omega)
        have hn1 : 1 ≤ n := by omega
        refine ⟨n, hn1, ?_⟩
        rw [hn]
        have hrun := Readers.Props.C15_blocks w.ids w.missing (fileOf eph) (fileOf orb) eph orb (ts.map fileOf) ts hcons (fileOf_holds _) hse n hn1 table.length
          (by rw [hl]; exact chunks_le _ _ hn1)
        unfold Readers.runExternal at hrun
        rw [hcons.check] at hrun
        simp only at hrun
        rw [Readers.buildIdMap_holds w.ids _ orb hcons.orbit hcons.stable] at hrun
        simp only at hrun
        rw [← ht] at hrun
        have hpre := blocks_prefix (read := readBlock w.missing (source w.ids w.goodEphemeris c.input.ephFormat e) (source w.ids w.goodOrbits c.input.auxFormat o) aux)
          (fun b x hx => by
            have := readBlock_le w.missing le lo la b _ hx
            rw [readBlock_lines] at this
            exact this) _ _ _ _ _ hrun
        have := hpre.map (List.map (Pipeline.toObs w.parse))
        rw [List.map_map]
        unfold Pipeline.externalBlocks
        rw [List.map_map] at this
        exact this
    · exact absurd hext hn

/-- The observations of a run that makes its ephemerides, whether it gets to its end or not. -/
theorem generated_prefix {w : World G W V} {args : Cli.Args} {d : Disk} {c : Config.Cfg} {a : Cli.CmdArgs} {orb : List (Rec Str)} {ts : List (List (Rec Str))}
    (hin : Spec.Objects w.ids d args c orb ts) (hnone : w.ephem c a [] = [])
    (h1 : a.paramsinput = args.p) (h2 : a.orbinfile = args.ob) (h4 : a.complexParams = none ∨ a.complexParams = args.cp)
    (hext : c.input.ephemeridesType ≠ "external") :
    ∃ n : ℕ, 1 ≤ n ∧ (observations w c a (checked w args d)).1.map (·.1) <+: (Readers.Spec.chunks orb n).map (fun b => w.ephem c a (keptObjects w c a ts b)) := by
  rcases observations_any w c a (checked w args d) with h0 | ⟨o, aux, table, e1, e2, e3, e4, hcase⟩
  · exact ⟨1, le_refl _, by rw [h0]; exact List.nil_prefix⟩
  · rcases hcase with ⟨hn, -⟩ | ⟨-, hbs⟩
    · exact absurd hn hext
    · have hcons := Objects.consistent hin
      rw [h2] at e1
      have lo := Table.le hin.orbits e1 w.goodOrbits
      have la := auxSources_le hin h1 h4 e2
      have ht := ids_length hcons.stable lo e4
      have hl : table.length = orb.length := by rw [ht, List.length_map]
      rw [hbs]
      rcases lt_or_ge c.input.chunk 1 with hs | hs
      · refine ⟨1, le_refl _, ?_⟩
        rw [blocks_nonpos (fun b t st => readAuxBlock_nonpos (fun x hx => source_rows_nonpos _ _ _ b (by omega) hx))]
        exact List.nil_prefix
      · obtain ⟨n, hn⟩ := Int.eq_ofNat_of_zero_le (show 0 ≤ c.input.chunk by omega)
        have hn1 : 1 ≤ n := by omega
        refine ⟨n, hn1, ?_⟩
        rw [hn]
        have hrun := Readers.Props.C12_generated w.ids w.missing (fileOf orb) orb (ts.map fileOf) ts hcons n hn1 table.length
          (by rw [hl]; exact chunks_le _ _ hn1)
        unfold Readers.runAux at hrun
        rw [hcons.check] at hrun
        simp only at hrun
        rw [Readers.buildIdMap_holds w.ids _ orb hcons.orbit hcons.stable] at hrun
        simp only at hrun
        rw [← ht] at hrun
        have hpre := blocks_prefix (read := readAuxBlock w.missing (source w.ids w.goodOrbits c.input.auxFormat o) aux)
          (fun b x hx => by
            have := readAuxBlock_le w.missing lo la b _ hx
            rw [readAuxBlock_lines] at this
            exact this) _ _ _ _ _ hrun
        have hk : ∀ b : List (Rec Str), (if c.expert.bruteForce = true then b.map (Readers.Spec.extend ts) else
            (b.map (Readers.Spec.extend ts)).filter fun x => !w.cull c a x) = keptObjects w c a ts b := by
          intro b
          unfold keptObjects Pipeline.left
          cases c.expert.bruteForce <;> simp
        have := hpre.map (fun b =>
            let left := if c.expert.bruteForce then b else b.filter fun x => !w.cull c a x
            if left.length = 0 ∧ !c.expert.bruteForce then [] else w.ephem c a left)
        rw [List.map_map] at this ⊢
        have hcong : (Readers.Spec.chunks orb n).map (fun b => w.ephem c a (keptObjects w c a ts b)) = List.map ((fun b =>
            let left := if c.expert.bruteForce then b else b.filter fun x => !w.cull c a x
            if left.length = 0 ∧ !c.expert.bruteForce then [] else w.ephem c a left) ∘ List.map (Readers.Spec.extend ts)) (Readers.Spec.chunks orb n) := by
          apply List.map_congr_left
          intro b _
          simp only [Function.comp_apply, hk]
          split_ifs with h0
          · rw [List.length_eq_zero_iff.1 h0.1, hnone]
          · rfl
        rw [hcong]
        convert this using 1
        apply List.map_congr_left
        intro b _
        simp only [Function.comp_apply]
        split_ifs <;> rfl

/-- What the rounds have written, whether they get to their end or not. -/
theorem rounds_part (w : World G W V) (E : Pipeline.Env G W V) (c : Config.Cfg) (a : Cli.CmdArgs) : ∀ bs s,
    ∃ k outs, Pipeline.rounds E c s ((bs.map (·.1)).take k) = .ok outs ∧
      List.Forall₂ (fun out g => Output.outputFrame w.dist (outConfig c) ⟨w.columns c a, out.map w.cells⟩ = .ok g) outs
        ((rounds w E c a s bs).1.filterMap fun c => c.results.map (·.1)) := by
  intro bs
  induction bs with
  | nil => intro s; exact ⟨0, [], rfl, .nil⟩
  | cons b bs ih =>
    intro s
    obtain ⟨obs, eph⟩ := b
    simp only [rounds]
    cases hp : Pipeline.process E c s obs with
    | error e => exact ⟨0, [], rfl, .nil⟩
    | ok x =>
      obtain ⟨out, s'⟩ := x
      simp only
      obtain ⟨k, outs, e1, e2⟩ := ih s'
      by_cases h0 : out.length = 0
      · rw [if_pos h0]
        refine ⟨k + 1, outs, ?_, ?_⟩
        · simp [Pipeline.rounds, bind, Except.bind, hp, e1, pure, Except.pure, h0]
        · simpa using e2
      · rw [if_neg h0]
        cases ho : Output.outputFrame w.dist (outConfig c) ⟨w.columns c a, out.map w.cells⟩ with
        | error e => exact ⟨0, [], rfl, .nil⟩
        | ok g =>
          refine ⟨k + 1, out :: outs, ?_, ?_⟩
          · simp [Pipeline.rounds, bind, Except.bind, hp, e1, pure, Except.pure, Nat.pos_of_ne_zero h0]
          · simpa using ⟨ho, e2⟩

/-- A run that stops early in the effects stops early in more effects. -/
theorem ends_early {journal : Bool} {es1 es2 : List History.Effect} {s s' : History.State} {done : Bool} (h : History.Ends journal es1 s s' done) (hne : es2 ≠ []) :
    History.Ends journal (es1 ++ es2) s s' false := by
  induction h with
  | finished =>
    cases es2 with
    | nil => exact absurd rfl hne
    | cons e es => exact .stopped
  | step h _ ih => exact .step h ih
  | stopped => exact .stopped
  | during h => exact .during h

end Sorcha.Whole
