import Verif.Whole.ParallelLemmas

/-!
# Properties: runs at the same time (C101)
-/

namespace Sorcha.Whole.Props

open Sorcha.Csv (Str)
open Sorcha.Cli (CmdArgs)
open Sorcha.History (Disk Effect Outcome)

variable {G W V : Type} {ι : Type} [DecidableEq ι]

/-- What a process reads: `args` is what its arguments mean, if they are understood, and it looks only at the files in `reads`, among them all it is given to read. -/
structure Reads (x : Proc) (args : Cli.Args) (reads : String → Prop) : Prop where
  means : ∀ a v, Argv.parseRun x.argv = .ok (a, v) → a = args
  named : ∀ p, Spec.Named args p → reads p
  only : ∀ d a, (x.commandLine args d).1 = .ok a → ∀ e e', (∀ p, reads p → Disk.get e p = Disk.get e' p) → x.plan a e = x.plan a e'
  glob : Cli.Spec.GlobSound x.glob

/-- A process on its own: the steps of a run in one. -/
inductive Single (x : Proc) (d : Disk) : Disk → List Char → Outcome → Prop
  | usage {e} (h : Argv.parseRun x.argv = .error e) : Single x d d [] .refused
  | refused {args v e} (h : Argv.parseRun x.argv = .ok (args, v)) (hc : (x.commandLine args d).1 = .error e) :
      Single x d (d.keep (x.commandLine args d).2) x.startLog .refused
  | ran {args v a fmt chunks s finishes done} (h : Argv.parseRun x.argv = .ok (args, v)) (hc : (x.commandLine args d).1 = .ok a)
      (hp : x.plan a (d.keep (x.commandLine args d).2) = .writes fmt chunks finishes)
      (he : History.Ends false (x.effects a fmt chunks finishes) ⟨d.keep (x.commandLine args d).2, x.startLog⟩ s done) :
      Single x d s.disk s.log (if finishes && done then .finished else .stopped)

theorem single_rubin {w : World G W V} {argv : List Str} {d d' : Disk} {log : List Char} {out : Outcome} (h : Single (rubin w argv) d d' log out) : Invoked w argv d d' log out := by
  cases h with
  | usage h => exact .usage h
  | refused h hc => exact .refused h hc
  | @ran args v a fmt chunks s finishes done h hc hp he =>
    cases finishes with
    | true => simpa using Invoked.ran (argv := argv) h hc hp he
    | false => simpa using Invoked.failed (argv := argv) h hc hp he

theorem single_either {w : DesWorld G W V} {argv : List Str} {d d' : Disk} {log : List Char} {out : Outcome} (h : Single (eitherSurvey w argv) d d' log out) :
    DesInvoked w argv d d' log out := by
  cases h with
  | usage h => exact .usage h
  | refused h hc => exact .refused h hc
  | @ran args v a fmt chunks s finishes done h hc hp he =>
    cases finishes with
    | true => simpa using DesInvoked.ran (argv := argv) h hc hp he
    | false => simpa using DesInvoked.failed (argv := argv) h hc hp he

theorem rubin_single {w : World G W V} {argv : List Str} {d d' : Disk} {log : List Char} {out : Outcome} (h : Invoked w argv d d' log out) : Single (rubin w argv) d d' log out := by
  cases h with
  | usage h => exact .usage h
  | refused h hc => exact .refused h hc
  | @ran args v a fmt chunks s done h hc hp he => simpa using Single.ran (x := rubin w argv) (finishes := true) h hc hp he
  | @failed args v a fmt chunks s done h hc hp he => simpa using Single.ran (x := rubin w argv) (finishes := false) h hc hp he

theorem either_single {w : DesWorld G W V} {argv : List Str} {d d' : Disk} {log : List Char} {out : Outcome} (h : DesInvoked w argv d d' log out) :
    Single (eitherSurvey w argv) d d' log out := by
  cases h with
  | usage h => exact .usage h
  | refused h hc => exact .refused h hc
  | @ran args v a fmt chunks s done h hc hp he => simpa using Single.ran (x := eitherSurvey w argv) (finishes := true) h hc hp he
  | @failed args v a fmt chunks s done h hc hp he => simpa using Single.ran (x := eitherSurvey w argv) (finishes := false) h hc hp he

/-! ## The invariant -/

/-- The phases of a process on its own that has found the files `d` and has come to the files `e`. -/
inductive Along (x : Proc) (args : Cli.Args) (d : Disk) : Phase → Disk → Prop
  | waiting : Along x args d .waiting d
  | accepted {v a} (h : Argv.parseRun x.argv = .ok (args, v)) (hc : (x.commandLine args d).1 = .ok a) :
      Along x args d (.accepted a) (d.keep (x.commandLine args d).2)
  | running {v a fmt chunks finishes es log e} (h : Argv.parseRun x.argv = .ok (args, v)) (hc : (x.commandLine args d).1 = .ok a)
      (hp : x.plan a (d.keep (x.commandLine args d).2) = .writes fmt chunks finishes)
      (hin : ∀ f ∈ es, ∀ p, pathOf? f = some p → Spec.IsOutput args p)
      (he : ∀ s done, History.Ends false es ⟨e, log⟩ s done → History.Ends false (x.effects a fmt chunks finishes) ⟨d.keep (x.commandLine args d).2, x.startLog⟩ s done) :
      Along x args d (.running es log (if finishes then .finished else .stopped)) e
  | over {e log out} (h : Single x d e log out) : Along x args d (.over log out) e

theorem effects_outputs {x : Proc} {args : Cli.Args} {a : CmdArgs} (hn : History.Names args a) (fmt : History.Format) (chunks : List History.Chunk) (finishes : Bool) :
    ∀ f ∈ x.effects a fmt chunks finishes, ∀ p, pathOf? f = some p → Spec.IsOutput args p := by
  have key : ∀ f, History.Kind x.lines args fmt f ∨ (fmt = .sqlite ∧ f = .index (History.pathOf args .sqlite)) → ∀ p, pathOf? f = some p → Spec.IsOutput args p := by
    intro f hf p hp
    rcases hf with hf | ⟨-, rfl⟩
    · cases hf with
      | log l => cases hp
      | ephemeris n g hn hne =>
        cases hp
        exact .inr (.inl ⟨n, hn, hne, History.belongs_csv _ _⟩)
      | stats n g hn =>
        cases hp
        exact .inr (.inr ⟨n, hn, rfl⟩)
      | results g h =>
        cases hp
        exact .inl (History.pathOf_results args .csv)
      | database g h =>
        cases hp
        exact .inl (History.pathOf_results args .sqlite)
    · cases hp
      exact .inl (History.pathOf_results args .sqlite)
  intro f hf
  unfold Proc.effects at hf
  cases finishes with
  | true => exact key f (History.run_kinds hn fmt chunks x.stamp f hf)
  | false => exact key f (.inl (History.chunks_kinds hn fmt chunks f hf))

/-- One step of a process among others: it changes its outputs only, and it is a step of the process on its own. -/
theorem step_along {x : Proc} {args : Cli.Args} {reads : String → Prop} (hr : Reads x args reads) {d0 : Disk} (hone : History.Spec.AtMostOne args d0) {ph ph' : Phase} {d d' e : Disk}
    (hs : Step x ph d ph' d') (ha : Along x args d0 ph e) (hread : ∀ p, reads p → d.get p = e.get p) (hout : ∀ p, Spec.IsOutput args p → d.get p = e.get p) :
    (∀ p, ¬ Spec.IsOutput args p → d'.get p = d.get p) ∧ ∃ e', Along x args d0 ph' e' ∧ ∀ p, d.get p = e.get p → d'.get p = e'.get p := by
  cases hs with
  | usage h =>
    cases ha
    exact ⟨fun _ _ => rfl, _, .over (.usage h), fun _ h => h⟩
  | @refused _ args' v err h hc =>
    cases ha
    obtain rfl := hr.means _ _ h
    obtain ⟨h1, h2⟩ := check_local (x := x) hr.glob hone (fun p hp => (hread p (hr.named p hp)).symm) (fun p hp => (hout p hp).symm)
    exact ⟨fun p hp => check_others hr.glob hp, _, .over (.refused h (h1.trans hc)), fun p hp => (h2 p hp.symm).symm⟩
  | @check _ args' v a h hc =>
    cases ha
    obtain rfl := hr.means _ _ h
    obtain ⟨h1, h2⟩ := check_local (x := x) hr.glob hone (fun p hp => (hread p (hr.named p hp)).symm) (fun p hp => (hout p hp).symm)
    exact ⟨fun p hp => check_others hr.glob hp, _, .accepted h (h1.trans hc), fun p hp => (h2 p hp.symm).symm⟩
  | @read _ a fmt chunks finishes hp =>
    cases ha with
    | @accepted v _ h hc =>
      have hp' := (hr.only _ _ hc _ _ hread).symm.trans hp
      exact ⟨fun _ _ => rfl, _, .running h hc hp' (effects_outputs (History.Props.names_of hc) fmt chunks finishes) (fun _ _ h => h), fun _ h => h⟩
  | @effect _ f es log out s hf =>
    cases ha with
    | running h hc hp hin he =>
      obtain ⟨h1, s', h2, h3, h4⟩ := perform_local hf (fun p hp => hout p (hin f List.mem_cons_self p hp))
      refine ⟨fun p hp => h1 p fun h => hp (hin f List.mem_cons_self p h), s'.disk, ?_, h4⟩
      refine .running h hc hp (fun g hg => hin g (List.mem_cons_of_mem _ hg)) fun t done ht => he t done (.step h2 ?_)
      rw [← h3] at ht
      exact ht
  | @stop _ f es log out =>
    cases ha with
    | @running v a fmt chunks finishes _ _ _ h hc hp hin he =>
      refine ⟨fun _ _ => rfl, e, .over ?_, fun _ h => h⟩
      simpa using Single.ran h hc hp (he _ _ .stopped)
  | @during _ f es log out s hf =>
    cases ha with
    | @running v a fmt chunks finishes _ _ _ h hc hp hin he =>
      obtain ⟨h1, s', h2, h3, h4⟩ := interrupted_local hf (fun p hp => hout p (hin f List.mem_cons_self p hp))
      refine ⟨fun p hp => h1 p fun h => hp (hin f List.mem_cons_self p h), s'.disk, .over ?_, h4⟩
      rw [← h3]
      simpa using Single.ran h hc hp (he _ _ (.during h2))
  | @done _ log out =>
    cases ha with
    | @running v a fmt chunks finishes _ _ _ h hc hp hin he =>
      refine ⟨fun _ _ => rfl, e, .over ?_, fun _ h => h⟩
      simpa using Single.ran h hc hp (he _ _ .finished)

theorem schedule_along {procs : ι → Proc} {args : ι → Cli.Args} {reads : ι → String → Prop} (hr : ∀ i, Reads (procs i) (args i) (reads i)) (hsep : Spec.Separate args reads) {d D : Disk}
    (hone : ∀ i, History.Spec.AtMostOne (args i) d) {ph0 ph : ι → Phase} (h : Schedule procs ph0 d ph D) (h0 : ph0 = allWaiting) :
    (∀ p, (∀ i, ¬ Spec.IsOutput (args i) p) → D.get p = d.get p) ∧
    ∀ i, ∃ e, Along (procs i) (args i) d (ph i) e ∧ (∀ p, reads i p → D.get p = e.get p) ∧ ∀ p, Spec.IsOutput (args i) p → D.get p = e.get p := by
  induction h with
  | nil =>
    subst h0
    exact ⟨fun _ _ => rfl, fun i => ⟨_, .waiting, fun _ _ => rfl, fun _ _ => rfl⟩⟩
  | @snoc ph1 d1 d2 i p h hs ih =>
    obtain ⟨ih1, ih2⟩ := ih
    obtain ⟨e, ha, hread, hout⟩ := ih2 i
    obtain ⟨k1, e', k2, k3⟩ := step_along (hr i) (hone i) hs ha hread hout
    refine ⟨fun q hq => (k1 q (hq i)).trans (ih1 q hq), fun j => ?_⟩
    by_cases hj : j = i
    · subst hj
      refine ⟨e', by simpa using k2, fun q hq => k3 q (hread q hq), fun q hq => k3 q (hout q hq)⟩
    · obtain ⟨f, f1, f2, f3⟩ := ih2 j
      refine ⟨f, by simpa [Function.update_of_ne hj] using f1, fun q hq => ?_, fun q hq => ?_⟩
      · rw [k1 q (hsep.inputs j i hj q hq), f2 q hq]
      · rw [k1 q (hsep.outputs j i hj q hq), f3 q hq]

/-! ## The properties -/

/-- C101 (runs at the same time): take any number of `sorcha run`, of either survey, that do not meet, and any order of their steps, each of them finishing, refused, failing or stopped
at any point. Once one of them is over, wherever the others are, it has ended in a way it could have ended alone on the files of the beginning, with the same log, the same outcome and
the same outputs. -/
theorem C101_alone {procs : ι → Proc} {args : ι → Cli.Args} {reads : ι → String → Prop} (hr : ∀ i, Reads (procs i) (args i) (reads i)) (hsep : Spec.Separate args reads) {d D : Disk}
    (hone : ∀ i, History.Spec.AtMostOne (args i) d) {ph : ι → Phase} (h : Schedule procs allWaiting d ph D) {i : ι} {log : List Char} {out : Outcome} (hi : ph i = .over log out) :
    (∀ (G W V : Type) (w : World G W V) (argv : List Str), procs i = rubin w argv →
      ∃ d', Invoked w argv d d' log out ∧ ∀ p, Spec.IsOutput (args i) p → D.get p = d'.get p) ∧
    ∀ (G W V : Type) (w : DesWorld G W V) (argv : List Str), procs i = eitherSurvey w argv →
      ∃ d', DesInvoked w argv d d' log out ∧ ∀ p, Spec.IsOutput (args i) p → D.get p = d'.get p := by
  obtain ⟨e, h1, -, h3⟩ := (schedule_along hr hsep hone h rfl).2 i
  rw [hi] at h1
  cases h1 with
  | over h1 =>
    refine ⟨fun G W V w argv hw => ⟨e, ?_, h3⟩, fun G W V w argv hw => ⟨e, ?_, h3⟩⟩
    · rw [hw] at h1
      exact single_rubin h1
    · rw [hw] at h1
      exact single_either h1

/-- C101 (other files): at every moment all files are as they were but for the outputs of the runs. -/
theorem C101_others {procs : ι → Proc} {args : ι → Cli.Args} {reads : ι → String → Prop} (hr : ∀ i, Reads (procs i) (args i) (reads i)) (hsep : Spec.Separate args reads) {d D : Disk}
    (hone : ∀ i, History.Spec.AtMostOne (args i) d) {ph : ι → Phase} (h : Schedule procs allWaiting d ph D) {p : String} (hp : ∀ i, ¬ Spec.IsOutput (args i) p) : D.get p = d.get p :=
  (schedule_along hr hsep hone h rfl).1 p hp

/-! ## A run on its own, among others -/

theorem ends_schedule {procs : ι → Proc} {i : ι} {ph0 : ι → Phase} {d0 : Disk} {es : List Effect} {s s' : History.State} {done : Bool} (h : History.Ends false es s s' done) {out : Outcome} :
    ∀ {ph : ι → Phase}, Schedule procs ph0 d0 ph s.disk → ph i = .running es s.log out →
      ∃ ph', Schedule procs ph0 d0 ph' s'.disk ∧ ph' i = .over s'.log (if done then out else .stopped) ∧ ∀ j, j ≠ i → ph' j = ph j := by
  induction h with
  | @finished s =>
    intro ph h hi
    exact ⟨_, .snoc i h (p := .over s.log out) (by rw [hi]; exact .done), by simp, fun j hj => by simp [Function.update_of_ne hj]⟩
  | @step e es s s1 s' done hp _ ih =>
    intro ph h hi
    obtain ⟨ph', h1, h2, h3⟩ := ih (.snoc i h (p := .running es s1.log out) (by rw [hi]; exact .effect hp)) (by simp)
    exact ⟨ph', h1, h2, fun j hj => by rw [h3 j hj, Function.update_of_ne hj]⟩
  | @stopped e es s =>
    intro ph h hi
    exact ⟨_, .snoc i h (p := .over s.log .stopped) (by rw [hi]; exact .stop), by simp, fun j hj => by simp [Function.update_of_ne hj]⟩
  | @during e es s s' hp =>
    intro ph h hi
    exact ⟨_, .snoc i h (p := .over s'.log .stopped) (by rw [hi]; exact .during hp), by simp, fun j hj => by simp [Function.update_of_ne hj]⟩

theorem single_schedule {procs : ι → Proc} {i : ι} {ph0 ph : ι → Phase} {d0 d d' : Disk} {log : List Char} {out : Outcome} (h : Schedule procs ph0 d0 ph d) (hi : ph i = .waiting)
    (hs : Single (procs i) d d' log out) : ∃ ph', Schedule procs ph0 d0 ph' d' ∧ ph' i = .over log out ∧ ∀ j, j ≠ i → ph' j = ph j := by
  cases hs with
  | usage hu => exact ⟨_, .snoc i h (by rw [hi]; exact .usage hu), by simp, fun j hj => by simp [Function.update_of_ne hj]⟩
  | refused hu hc => exact ⟨_, .snoc i h (by rw [hi]; exact .refused hu hc), by simp, fun j hj => by simp [Function.update_of_ne hj]⟩
  | @ran args v a fmt chunks s finishes done hu hc hp he =>
    have h1 := Schedule.snoc i h (p := .accepted a) (by rw [hi]; exact .check hu hc)
    have h2 := Schedule.snoc i h1 (p := .running ((procs i).effects a fmt chunks finishes) (procs i).startLog (if finishes then .finished else .stopped))
      (by simpa using Step.read hp)
    obtain ⟨ph', k1, k2, k3⟩ := ends_schedule he (out := if finishes then .finished else .stopped) h2 (Function.update_self i _ _)
    refine ⟨ph', k1, by rw [k2]; cases finishes <;> cases done <;> simp, fun j hj => ?_⟩
    rw [k3 j hj, Function.update_of_ne hj, Function.update_of_ne hj]

/-- C101 (one after another): a run that is carried out without interruption while the others wait is one of the schedules; so are runs one after another, in any order. -/
theorem C101_series {procs : ι → Proc} {i : ι} {w : World G W V} {argv : List Str} (hw : procs i = rubin w argv) {ph0 ph : ι → Phase} {d0 d d' : Disk} {log : List Char} {out : Outcome}
    (h : Schedule procs ph0 d0 ph d) (hi : ph i = .waiting) (hs : Invoked w argv d d' log out) :
    ∃ ph', Schedule procs ph0 d0 ph' d' ∧ ph' i = .over log out ∧ ∀ j, j ≠ i → ph' j = ph j :=
  single_schedule h hi (by rw [hw]; exact rubin_single hs)

/-- C101 (one after another, either survey). -/
theorem C101_series_des {procs : ι → Proc} {i : ι} {w : DesWorld G W V} {argv : List Str} (hw : procs i = eitherSurvey w argv) {ph0 ph : ι → Phase} {d0 d d' : Disk} {log : List Char}
    {out : Outcome} (h : Schedule procs ph0 d0 ph d) (hi : ph i = .waiting) (hs : DesInvoked w argv d d' log out) :
    ∃ ph', Schedule procs ph0 d0 ph' d' ∧ ph' i = .over log out ∧ ∀ j, j ≠ i → ph' j = ph j :=
  single_schedule h hi (by rw [hw]; exact either_single hs)

/-! ## Any order gives the same files -/

theorem ends_true {es : List Effect} {s s1 s2 : History.State} {b : Bool} (h1 : History.Ends false es s s1 b) (hb : b = true) (h2 : History.Ends false es s s2 true) : s1 = s2 := by
  induction h1 with
  | finished => cases h2; rfl
  | step hp _ ih =>
    cases h2 with
    | step hp' h2 =>
      rw [hp] at hp'
      cases hp'
      exact ih hb h2
  | stopped => cases hb
  | during => cases hb

theorem single_same {x : Proc} {d d1 d2 : Disk} {log1 log2 : List Char} (h1 : Single x d d1 log1 .finished) (h2 : Single x d d2 log2 .finished) : d1 = d2 ∧ log1 = log2 := by
  have key : ∀ {d' log out}, Single x d d' log out → out = .finished → ∃ args v a fmt chunks s, Argv.parseRun x.argv = .ok (args, v) ∧ (x.commandLine args d).1 = .ok a ∧
      x.plan a (d.keep (x.commandLine args d).2) = .writes fmt chunks true ∧
      History.Ends false (x.effects a fmt chunks true) ⟨d.keep (x.commandLine args d).2, x.startLog⟩ s true ∧ d' = s.disk ∧ log = s.log := by
    intro d' log out h ho
    cases h with
    | usage => cases ho
    | refused => cases ho
    | @ran args v a fmt chunks s finishes done h hc hp he =>
      cases finishes <;> cases done <;> simp at ho
      exact ⟨args, v, a, fmt, chunks, s, h, hc, hp, he, rfl, rfl⟩
  obtain ⟨args, v, a, fmt, chunks, s, i1, i2, i3, i4, rfl, rfl⟩ := key h1 rfl
  obtain ⟨args', v', a', fmt', chunks', s', j1, j2, j3, j4, rfl, rfl⟩ := key h2 rfl
  rw [i1] at j1; cases j1
  rw [i2] at j2; cases j2
  rw [i3] at j3; cases j3
  rw [ends_true i4 rfl j4]
  exact ⟨rfl, rfl⟩

/-- C101 (any order): two schedules of the same runs on the same files, in both of which all runs finish, leave the same files and the same logs. -/
theorem C101_same {procs : ι → Proc} {args : ι → Cli.Args} {reads : ι → String → Prop} (hr : ∀ i, Reads (procs i) (args i) (reads i)) (hsep : Spec.Separate args reads) {d D1 D2 : Disk}
    (hone : ∀ i, History.Spec.AtMostOne (args i) d) {log1 log2 : ι → List Char} (h1 : Schedule procs allWaiting d (fun i => .over (log1 i) .finished) D1)
    (h2 : Schedule procs allWaiting d (fun i => .over (log2 i) .finished) D2) : (∀ p, D1.get p = D2.get p) ∧ log1 = log2 := by
  have k1 := schedule_along hr hsep hone h1 rfl
  have k2 := schedule_along hr hsep hone h2 rfl
  have key : ∀ i, log1 i = log2 i ∧ ∀ p, Spec.IsOutput (args i) p → D1.get p = D2.get p := by
    intro i
    obtain ⟨e1, a1, -, b1⟩ := k1.2 i
    obtain ⟨e2, a2, -, b2⟩ := k2.2 i
    cases a1 with
    | over a1 =>
      cases a2 with
      | over a2 =>
        obtain ⟨rfl, hl⟩ := single_same a1 a2
        exact ⟨hl, fun p hp => (b1 p hp).trans (b2 p hp).symm⟩
  refine ⟨fun p => ?_, funext fun i => (key i).1⟩
  by_cases hp : ∃ i, Spec.IsOutput (args i) p
  · obtain ⟨i, hi⟩ := hp
    exact (key i).2 p hi
  · rw [k1.1 p fun i hi => hp ⟨i, hi⟩, k2.1 p fun i hi => hp ⟨i, hi⟩]

end Sorcha.Whole.Props
