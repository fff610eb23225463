import Verif.Whole.Total

/-!
# Properties: runs on valid inputs finish (C88)
-/

namespace Sorcha.Whole.Props

open Sorcha.Csv (Str)
open Sorcha.Readers (Rec)
open Sorcha.History (Disk)

variable {G W V : Type}

/-- C88 (ephemerides from a file): files in place, valid settings, tables of the same objects that pass the checks of their columns, columns of the results that exist, and
observations at the times of the pointing table. Then the command is accepted, the plan of the run goes to its end, and a run that nobody stops finishes. -/
theorem C88_external {w : World G W V} {argv : List Str} {args : Cli.Args} {v : Bool} (hargs : Argv.parseRun argv = .ok (args, v)) {d : Disk}
    (hg : Cli.Spec.GlobSound w.glob) (hnames : History.Spec.NamesDiffer args) (hone : History.Spec.AtMostOne args d) (hplace : Spec.InPlace w.isDir d args)
    {c : Config.Cfg} (hconf : Configured w d args c) (hlow : w.py.lower "rubin_sim" ≠ "des") (hplain : Spec.Plain c)
    (hext : c.input.ephemeridesType = "external") {orb eph : List (Rec Str)} {others : List (List (Rec Str))} (hin : Spec.Objects w.ids d args c orb others) {pe : String}
    (her : args.er = some pe) (he : Spec.Table w.ids c.input.ephFormat d pe eph) (hgood1 : Spec.Passes w.goodOrbits c.input.auxFormat d args.ob) (hgood2 : Spec.Passes w.goodParameters c.input.auxFormat d args.p)
    (hgood3 : c.activity ≠ none ∨ c.lightcurve ≠ none → ∀ p, args.cp = some p → Spec.Passes w.goodComplex c.input.auxFormat d p) (hgood4 : Spec.Passes w.goodEphemeris c.input.ephFormat d pe)
    (hcol : ∀ a, Accepted w d args a → Spec.Columned c (w.columns c a))
    (henv : ∀ a, Accepted w d args a → ∃ E, w.env c a (checked w args d) = some E ∧ Pipeline.Spec.Workable E c (Spec.observed w.parse eph orb others)) :
    (∃ a, Accepted w d args a ∧ ∃ fmt chunks, plan w a (checked w args d) = .writes fmt chunks true) ∧ ∃ d' log, Invoked w argv d d' log .finished := by
  obtain ⟨a, ha⟩ := inPlace_accepted hg hplace
  obtain ⟨E, hE, hwork⟩ := henv a ha
  obtain ⟨bs, hbs⟩ := external_total hg hone hplace ha hin hgood1 hgood2 hgood3 her he hgood4 hext hplain.chunk
  obtain ⟨e1, e2, -, -, e5, -, -, e8⟩ := commandLine_ok ha
  have hblocks := (external_blocks_of hin her he e1 e2 e5 e8 hext hbs).1
  have hse : Readers.Spec.StableIds w.ids eph := by
    obtain ⟨_, _, _, _, _, _, h⟩ := he
    exact h
  have hperm := externalBlocks_perm w.parse (Objects.consistent hin) hse (le_max_left 1 c.input.chunk.toNat)
  have hcp : args.cp ≠ none ∨ c.lightcurve = none ∧ c.activity = none := by
    rcases hin.given with ⟨h1, h2, -⟩ | ⟨-, _, _, p, -, h2, -⟩
    · exact .inr ⟨h2, h1⟩
    · exact .inl (by rw [h2]; simp)
  have h := run_total hargs hg hnames hone hplace hconf hlow hplain ha (hcol a ha) (fun _ => by rw [her]; simp) hcp hE hbs (fun b hb => hwork.part fun o ho => by
    refine hperm.mem_iff.1 ?_
    rw [show max 1 c.input.chunk.toNat = roundSize c from rfl, ← hblocks]
    exact List.mem_flatten.2 ⟨b.1, List.mem_map.2 ⟨b, hb, rfl⟩, ho⟩)
  exact ⟨⟨a, ha, h.1⟩, h.2⟩

/-- C88 (generated ephemerides): the same, if the ephemerides of an object do not depend on the other objects of its chunk and their times are those of the pointing
table. -/
theorem C88_generated {w : World G W V} {argv : List Str} {args : Cli.Args} {v : Bool} (hargs : Argv.parseRun argv = .ok (args, v)) {d : Disk}
    (hg : Cli.Spec.GlobSound w.glob) (hnames : History.Spec.NamesDiffer args) (hone : History.Spec.AtMostOne args d) (hplace : Spec.InPlace w.isDir d args)
    {c : Config.Cfg} (hconf : Configured w d args c) (hlow : w.py.lower "rubin_sim" ≠ "des") (hplain : Spec.Plain c)
    (hext : c.input.ephemeridesType ≠ "external") {orb : List (Rec Str)} {others : List (List (Rec Str))} (hin : Spec.Objects w.ids d args c orb others)
    (hgood1 : Spec.Passes w.goodOrbits c.input.auxFormat d args.ob) (hgood2 : Spec.Passes w.goodParameters c.input.auxFormat d args.p)
    (hgood3 : c.activity ≠ none ∨ c.lightcurve ≠ none → ∀ p, args.cp = some p → Spec.Passes w.goodComplex c.input.auxFormat d p)
    (hcol : ∀ a, Accepted w d args a → Spec.Columned c (w.columns c a))
    (halone : ∀ a, Accepted w d args a → ∀ objs, Pipeline.Spec.PartOf orb objs → (w.ephem c a objs).Perm (objs.flatMap fun r => w.ephem c a [r]))
    (henv : ∀ a, Accepted w d args a → ∃ E, w.env c a (checked w args d) = some E ∧
      Pipeline.Spec.Workable E c ((Spec.bright c (w.cull c a) orb others).flatMap fun r => w.ephem c a [r])) :
    (∃ a, Accepted w d args a ∧ ∃ fmt chunks, plan w a (checked w args d) = .writes fmt chunks true) ∧ ∃ d' log, Invoked w argv d d' log .finished := by
  obtain ⟨a, ha⟩ := inPlace_accepted hg hplace
  obtain ⟨E, hE, hwork⟩ := henv a ha
  obtain ⟨bs, hbs⟩ := generated_total hg hone hplace ha hin hgood1 hgood2 hgood3 hext hplain.chunk
  obtain ⟨e1, e2, -, -, -, -, -, e8⟩ := commandLine_ok ha
  have hnone : w.ephem c a [] = [] := (halone a ha [] ⟨List.nodup_nil, fun _ h => by cases h⟩).eq_nil
  have hblocks := (generated_blocks_of hin hnone e1 e2 e8 hext hbs).1
  have hperm := generatedBlocks_perm (ts := others) hin.unique (halone a ha) (le_max_left 1 c.input.chunk.toNat)
  have hcp : args.cp ≠ none ∨ c.lightcurve = none ∧ c.activity = none := by
    rcases hin.given with ⟨h1, h2, -⟩ | ⟨-, _, _, p, -, h2, -⟩
    · exact .inr ⟨h2, h1⟩
    · exact .inl (by rw [h2]; simp)
  have h := run_total hargs hg hnames hone hplace hconf hlow hplain ha (hcol a ha) (fun h => absurd h hext) hcp hE hbs (fun b hb => hwork.part fun o ho => by
    refine hperm.mem_iff.1 ?_
    rw [show max 1 c.input.chunk.toNat = roundSize c from rfl, ← hblocks]
    exact List.mem_flatten.2 ⟨b.1, List.mem_map.2 ⟨b, hb, rfl⟩, ho⟩)
  exact ⟨⟨a, ha, h.1⟩, h.2⟩

/-- Nothing is written if the configuration, the orbits or the physical parameters cannot be read. -/
theorem plan_unread {w : World G W V} {a : Cli.CmdArgs} {d : Disk} (h : textAt d a.configfile = none ∨ textAt d a.orbinfile = none ∨ textAt d a.paramsinput = none) :
    plan w a d = .other ∨ ∃ fmt, plan w a d = .writes fmt [] false := by
  unfold plan
  cases ht : textAt d a.configfile with
  | none => exact .inr ⟨_, rfl⟩
  | some t =>
    simp only
    cases Ini.configure w.py w.lightCurves w.activities a.surveyname (configLines t) with
    | error e => exact .inr ⟨_, rfl⟩
    | ok x =>
      obtain ⟨c, y⟩ := x
      simp only
      cases Cli.execute (fun p => d.paths.contains p) w.isDir (runConfig c) a with
      | error e => exact .inr ⟨_, rfl⟩
      | ok r =>
        cases r with
        | des => exact .inl rfl
        | rubin =>
          simp only
          by_cases hf : c.input.ephFormat = "hdf5" ∨ c.output.format = "hdf5"
          · rw [if_pos hf]; exact .inl rfl
          · rw [if_neg hf]
            cases w.env c a d with
            | none => exact .inr ⟨_, rfl⟩
            | some E =>
              right
              have hobs : observations w c a d = ([], false) := by
                rw [ht] at h
                unfold observations
                rcases h with h | h | h
                · cases h
                · rw [h]
                · have : auxSources w c a d = none := by unfold auxSources; rw [h]
                  rw [this]
                  cases textAt d a.orbinfile <;> rfl
              simp only
              rw [hobs]
              exact ⟨_, rfl⟩

/-- C88 fails for an input in a place of the outputs: if the configuration, the orbits or the physical parameters are in a file that `-f` deletes, the command is not
refused; the run does not finish, and the input is gone. -/
theorem C88_input_lost_fails {w : World G W V} {argv : List Str} {args : Cli.Args} {v : Bool} (hargs : Argv.parseRun argv = .ok (args, v)) {d : Disk}
    (hg : Cli.Spec.GlobSound w.glob) (hone : History.Spec.AtMostOne args d) {q : String} (hq : q ∈ [args.p, args.ob, args.c]) (hout : Spec.IsOutput args q)
    {a : Cli.CmdArgs} (hacc : Accepted w d args a) {d' : Disk} {log : List Char} {out : History.Outcome} (h : Invoked w argv d d' log out) :
    out = .stopped ∧ d'.get q = none := by
  have hnone := (checked_get hg hone hacc).1 q hout
  have htext : textAt (checked w args d) q = none := by unfold textAt; rw [hnone]
  obtain ⟨e1, e2, e3, -⟩ := commandLine_ok hacc
  have hplan : plan w a (checked w args d) = .other ∨ ∃ fmt, plan w a (checked w args d) = .writes fmt [] false := by
    apply plan_unread
    rw [e1, e2, e3]
    simp only [List.mem_cons, List.not_mem_nil, or_false] at hq
    rcases hq with rfl | rfl | rfl
    · exact .inr (.inr htext)
    · exact .inr (.inl htext)
    · exact .inl htext
  cases h with
  | usage h => rw [hargs] at h; cases h
  | refused h hc =>
    rw [hargs] at h; cases h
    rw [show (Cli.commandLine (existing w d) w.isDir w.glob args d.paths).1 = .ok a from hacc] at hc
    cases hc
  | ran h hc hp he =>
    rw [hargs] at h; cases h
    rw [show (Cli.commandLine (existing w d) w.isDir w.glob args d.paths).1 = .ok a from hacc] at hc
    cases hc
    rcases hplan with hplan | ⟨_, hplan⟩ <;> (rw [hplan] at hp; cases hp)
  | failed h hc hp he =>
    rw [hargs] at h; cases h
    rw [show (Cli.commandLine (existing w d) w.isDir w.glob args d.paths).1 = .ok a from hacc] at hc
    cases hc
    rcases hplan with hplan | ⟨_, hplan⟩ <;> rw [hplan] at hp
    · cases hp
    · cases hp
      rw [List.flatMap_nil] at he
      refine ⟨rfl, ?_⟩
      cases he <;> exact hnone

end Sorcha.Whole.Props
