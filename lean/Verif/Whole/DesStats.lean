import Verif.Whole.DesProps
import Verif.Whole.Props8

/-!
# Properties: the statistics of a DES run (C93)
-/

namespace Sorcha.Whole.Props

open Sorcha.Csv (Str)
open Sorcha.Readers (Rec)
open Sorcha.History (Disk Chunk)
open Sorcha.Output (Cell)
open Sorcha.Pipeline (Row own)
open Sorcha.DesRun (Env)
open Sorcha.DesRun.Spec (Sound Sensible)

variable {G W V : Type}

theorem des_tables {E : Env G W V} {c : Config.Cfg} {bs : List (List (Pointing.Obs W))} : ∀ {s : Pipeline.State G} {outs : List (List (Row W V))},
    DesRun.rounds E c s bs = .ok outs → ∃ tables : List (List (Row W V)),
      List.Forall₂ (fun b t => ∃ s1 s2, DesRun.process E c s1 b = .ok (t, s2)) bs tables ∧ outs.Sublist tables := by
  induction bs with
  | nil => intro s outs h; cases h; exact ⟨[], .nil, .slnil⟩
  | cons b bs ih =>
    intro s outs h
    obtain ⟨out, s1, rest, hp, hr, -, rfl⟩ := DesRun.rounds_cons_ok h
    obtain ⟨tables, h1, h2⟩ := ih hr
    refine ⟨out :: tables, .cons ⟨_, _, hp⟩ h1, ?_⟩
    split_ifs
    · exact h2.cons_cons _
    · exact h2.cons _

/-- C93 (DES): the same for the runs of the Dark Energy Survey, whatever their settings. The rows are some of those C91 describes. -/
theorem C93_des {w : DesWorld G W V} {argv : List Str} {args : Cli.Args} {v : Bool} (hargs : Argv.parseRun argv = .ok (args, v)) (hdes : IsDes args)
    {d d' : Disk} {log : List Char} (h : DesInvoked w argv d d' log .finished) {c : Config.Cfg} (hconf : Configured w.base d args c) (hL : Sensible c)
    (hg : Cli.Spec.GlobSound w.base.glob) (hnames : History.Spec.NamesDiffer args) (hone : History.Spec.AtMostOne args d)
    {orb : List (Rec Str)} {others : List (List (Rec Str))} (hin : Spec.Objects w.base.ids d args c orb others)
    {obs : Cli.CmdArgs → List (Pointing.Obs W)} (hobs : ∀ a, Accepted w.base d args a → Observes w.base d args c a orb others (obs a))
    {shown shown' : Cell → Str} (hshown : w.base.lines.output = Csv.line shown) (hshown' : w.base.lines.stats = Csv.line shown')
    (hcols : ∀ a, Accepted w.base d args a → c.output.format = "csv" → 2 ≤ (w.columns c a).length)
    {n : String} (hst : args.st = some n) {filters : List String} (hfilters : filters.Nodup) {phase : Row W V → Option ℚ}
    (hstats : ∀ rows, w.stats rows = statistics filters c.linking (rows.map (desSeen phase)))
    (hS : ∀ a E, Accepted w.base d args a → w.env c a (checked w.base args d) = some E → Sound E c (obs a) ∧ ∀ v ∈ E.base.db, v.filter ∈ filters) :
    ∃ a E rows, Accepted w.base d args a ∧ w.env c a (checked w.base args d) = some E ∧ Spec.Passed E c (obs a) rows ∧
      Spec.Lists w.base.dist shown Csv.read c (w.columns c a) w.cells rows (d'.get (Spec.resultsAt args c)) ∧
      Spec.StatisticsFile shown' Csv.read c filters (rows.map fun r => (⟨r.objId, r.optFilter, r.trailedSourceMag, phase r, none⟩ : Seen)) (d'.get (args.o ++ "/" ++ n ++ ".csv")) := by
  obtain ⟨a, fmt, chunks, h1, h2, h3⟩ := des_parts hargs hdes hconf h (by simp)
  rcases h3 with ⟨-, -, h0⟩ | ⟨E, hE, rfl, rfl, hfin⟩
  · exact absurd rfl h0
  · obtain ⟨f1, f2⟩ := hfin rfl
    obtain ⟨outs, g1, g2, g3, -⟩ := desRounds_ok w E c a _ _ _ (Prod.ext rfl f2)
    obtain ⟨hw, hown⟩ := observes_blocks hin h1 (hobs a h1) (Prod.ext rfl f1)
    have hperm := perm_of_own hown
    have hsound : ∀ b ∈ (observations w.base c a (checked w.base args d)).1.map (·.1), Sound E c b := fun b hb =>
      Sound.mono (hS a E h1 hE).1 fun o ho => hperm.mem_iff.1 (List.mem_flatten.2 ⟨b, hb, ho⟩)
    have hout := outputs_of hg hnames hone h2
    refine ⟨a, E, outs.flatten, h1, hE, Passed.mono (rounds_passed hL hsound g1) hperm.subperm, ?_, ?_⟩
    · rw [hout.1, hshown]
      exact lists_of (hcols a h1) shown (des_nonempty g1) g2
    · change Spec.StatisticsFile _ _ _ _ (outs.flatten.map (desSeen phase)) _
      rw [hout.2.1 n hst, g3, hshown', List.map_flatten]
      have hap : Apart (outs.map fun o => o.map (desSeen phase)) := by
        obtain ⟨tables, t1, t2⟩ := des_tables g1
        refine (apart_of (desSeen phase) hw (tables := tables) ?_).sublist (t2.map _)
        clear t2 hperm hown hw
        generalize (observations w.base c a (checked w.base args d)).1.map (·.1) = bs at t1 hsound
        induction t1 with
        | nil => exact .nil
        | @cons b t bs ts hbt _ ih =>
          refine .cons ?_ (ih fun b hb => hsound b (List.mem_cons_of_mem _ hb))
          intro f hf
          obtain ⟨s1, s2, hp⟩ := hbt
          obtain ⟨⟨o, ho, _, _, _, _, _, _, _, hid, _⟩, _⟩ := DesRun.Props.C63_sound (hsound b (List.mem_cons_self ..)) hL hp f hf
          exact ⟨o, ho, hid⟩
      have := statistics_file (c := c) hfilters (shown := shown') (outs := outs.map fun o => o.map (desSeen phase)) ?_ hap ?_
      · rw [List.map_map] at this
        rw [show outs.map w.stats = outs.map (statistics filters c.linking ∘ fun o => o.map (desSeen phase)) from List.map_congr_left fun o _ => hstats o]
        exact this
      · intro x hx
        obtain ⟨o, ho, rfl⟩ := List.mem_map.1 hx
        rw [Ne, List.map_eq_nil_iff]
        exact (DesRun.Props.C63_rounds g1 o ho).1
      · intro x hx r hr
        obtain ⟨o, ho, rfl⟩ := List.mem_map.1 hx
        obtain ⟨f, hf, rfl⟩ := List.mem_map.1 hr
        obtain ⟨-, b, hb, s1, s2, hp⟩ := DesRun.Props.C63_rounds g1 o ho
        obtain ⟨⟨_, _, v, hv, _, _, _, _, _, _, hid, _⟩, _⟩ := DesRun.Props.C63_sound (hsound b hb) hL hp f hf
        show f.optFilter ∈ filters
        rw [hid]
        exact (hS a E h1 hE).2 v hv

end Sorcha.Whole.Props
