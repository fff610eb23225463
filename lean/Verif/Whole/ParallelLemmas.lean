import Verif.Whole.Parallel
import Verif.Whole.Campaign

/-!
# Lemmas: runs at the same time
-/

namespace Sorcha.Whole.Props

open Sorcha.Csv (Str)
open Sorcha.Cli (CmdArgs FS Glob)
open Sorcha.History (Disk Effect Outcome get_put_self get_put_ne mem_paths)

/-! ## Effects see and change one file -/

/-- The file of an effect. -/
def pathOf? : Effect → Option String
  | .csv p _ _ => some p
  | .sqlite p _ => some p
  | .index p => some p
  | .log _ => none

theorem put_agree {d d' : Disk} {q : String} (h : d.get q = d'.get q) (p : String) (c : History.Content) : (d.put p c).get q = (d'.put p c).get q := by
  by_cases hq : q = p
  · subst hq; rw [get_put_self, get_put_self]
  · rw [get_put_ne _ _ hq, get_put_ne _ _ hq, h]

theorem perform_local {e : Effect} {d d' : Disk} {log : List Char} {s : History.State} (h : History.perform e ⟨d, log⟩ = .ok s) (hp : ∀ p, pathOf? e = some p → d.get p = d'.get p) :
    (∀ q, pathOf? e ≠ some q → s.disk.get q = d.get q) ∧
    ∃ s', History.perform e ⟨d', log⟩ = .ok s' ∧ s'.log = s.log ∧ ∀ q, d.get q = d'.get q → s.disk.get q = s'.disk.get q := by
  have hne : ∀ p q : String, pathOf? e = some p → pathOf? e ≠ some q → q ≠ p := by
    rintro p q h1 h2 rfl; exact h2 h1
  cases e with
  | csv p line f =>
    have hp := hp p rfl
    unfold History.perform at h ⊢
    simp only at h ⊢
    rw [← hp]
    cases hg : d.get p with
    | none =>
      rw [hg] at h
      have h := (Except.ok.inj h).symm
      subst h
      exact ⟨fun q hq => get_put_ne _ _ (hne p q rfl hq), _, rfl, rfl, fun q hq => put_agree hq _ _⟩
    | some c =>
      rw [hg] at h
      cases c with
      | text old =>
        have h := (Except.ok.inj h).symm
        subst h
        exact ⟨fun q hq => get_put_ne _ _ (hne p q rfl hq), _, rfl, rfl, fun q hq => put_agree hq _ _⟩
      | db t ix => cases h
  | sqlite p f =>
    have hp := hp p rfl
    unfold History.perform at h ⊢
    simp only at h ⊢
    rw [← hp]
    cases hg : History.appendTable (d.get p) f with
    | error e => rw [hg] at h; cases h
    | ok c =>
      rw [hg] at h
      have h := (Except.ok.inj h).symm
      subst h
      exact ⟨fun q hq => get_put_ne _ _ (hne p q rfl hq), _, rfl, rfl, fun q hq => put_agree hq _ _⟩
  | index p =>
    have hp := hp p rfl
    unfold History.perform at h ⊢
    simp only at h ⊢
    rw [← hp]
    cases hg : d.get p with
    | none =>
      rw [hg] at h
      have h := (Except.ok.inj h).symm
      subst h
      exact ⟨fun q hq => rfl, _, rfl, rfl, fun q hq => hq⟩
    | some c =>
      rw [hg] at h
      cases c with
      | text old => cases h
      | db t ix =>
        cases t with
        | none => cases h
        | some t =>
          simp only at h ⊢
          cases hx : History.addIndices t.1 ix History.indexColumns with
          | error e => rw [hx] at h; cases h
          | ok ix' =>
            rw [hx] at h
            have h := (Except.ok.inj h).symm
            subst h
            exact ⟨fun q hq => get_put_ne _ _ (hne p q rfl hq), _, rfl, rfl, fun q hq => put_agree hq _ _⟩
  | log line =>
    unfold History.perform at h ⊢
    have h := (Except.ok.inj h).symm
    subst h
    exact ⟨fun q _ => rfl, _, rfl, rfl, fun q hq => hq⟩

theorem interrupted_local {e : Effect} {d d' : Disk} {log : List Char} {s : History.State} (h : History.Interrupted false e ⟨d, log⟩ s)
    (hp : ∀ p, pathOf? e = some p → d.get p = d'.get p) :
    (∀ q, pathOf? e ≠ some q → s.disk.get q = d.get q) ∧
    ∃ s', History.Interrupted false e ⟨d', log⟩ s' ∧ s'.log = s.log ∧ ∀ q, d.get q = d'.get q → s.disk.get q = s'.disk.get q := by
  have hne : ∀ p q : String, pathOf? e = some p → pathOf? e ≠ some q → q ≠ p := by
    rintro p q h1 h2 rfl; exact h2 h1
  cases h with
  | @newCsv p line f _ part h hpart =>
    exact ⟨fun q hq => get_put_ne _ _ (hne p q rfl hq), _, .newCsv part ((hp p rfl).symm.trans h) hpart, rfl, fun q hq => put_agree hq _ _⟩
  | @oldCsv p line f _ old part h hpart =>
    exact ⟨fun q hq => get_put_ne _ _ (hne p q rfl hq), _, .oldCsv old part ((hp p rfl).symm.trans h) hpart, rfl, fun q hq => put_agree hq _ _⟩
  | @newDb p f _ h => exact ⟨fun q hq => get_put_ne _ _ (hne p q rfl hq), _, .newDb ((hp p rfl).symm.trans h), rfl, fun q hq => put_agree hq _ _⟩
  | newJournal j h hj => cases hj
  | oldJournal j h hj => cases hj
  | @index p _ t ix part h hpart =>
    exact ⟨fun q hq => get_put_ne _ _ (hne p q rfl hq), _, .index part ((hp p rfl).symm.trans h) hpart, rfl, fun q hq => put_agree hq _ _⟩
  | indexJournal j h hj => cases hj
  | log part hpart => exact ⟨fun q _ => rfl, _, .log part hpart, rfl, fun q hq => hq⟩

/-! ## The checks of the command line see and change the outputs -/

theorem warn_local {gl : FS → List String} {name : String} {f : Bool} {fs fs' : FS} {P : String → Prop} (hgl : ∀ fs p, p ∈ gl fs ↔ p ∈ fs ∧ P p)
    (hone : ∀ p ∈ fs, ∀ q ∈ fs, P p → P q → p = q) (hfs : ∀ p, P p → (p ∈ fs ↔ p ∈ fs')) :
    (Cli.warnOrRemove gl name f fs).1 = (Cli.warnOrRemove gl name f fs').1 ∧
    ∀ p, (p ∈ fs ↔ p ∈ fs') → (p ∈ (Cli.warnOrRemove gl name f fs).2 ↔ p ∈ (Cli.warnOrRemove gl name f fs').2) := by
  have h1 := hgl fs
  have h2 := hgl fs'
  unfold Cli.warnOrRemove
  cases e1 : gl fs with
  | nil =>
    cases e2 : gl fs' with
    | nil => exact ⟨rfl, fun p h => h⟩
    | cons q qs =>
      exfalso
      rw [e2] at h2
      have := (h2 q).1 List.mem_cons_self
      rw [e1] at h1
      exact absurd ((h1 q).2 ⟨(hfs q this.2).2 this.1, this.2⟩) List.not_mem_nil
  | cons q qs =>
    rw [e1] at h1
    have hq := (h1 q).1 List.mem_cons_self
    cases e2 : gl fs' with
    | nil =>
      exfalso
      rw [e2] at h2
      exact absurd ((h2 q).2 ⟨(hfs q hq.2).1 hq.1, hq.2⟩) List.not_mem_nil
    | cons q' qs' =>
      rw [e2] at h2
      have hq' := (h2 q').1 List.mem_cons_self
      have : q = q' := hone q hq.1 q' ((hfs q' hq'.2).2 hq'.1) hq.2 hq'.2
      subst this
      cases f with
      | false => exact ⟨rfl, fun p h => h⟩
      | true =>
        refine ⟨rfl, fun p h => ?_⟩
        simp only [if_true, List.mem_filter, h]

theorem warnOpt_local {sk : Bool} {name : Option String} {g : String → FS → List String} {f : Bool} {fs fs' : FS} {P : String → String → Prop}
    (hgl : ∀ n fs p, p ∈ g n fs ↔ p ∈ fs ∧ P n p) (hone : ∀ n, name = some n → (sk = true → n ≠ "") → ∀ p ∈ fs, ∀ q ∈ fs, P n p → P n q → p = q)
    (hfs : ∀ n, name = some n → (sk = true → n ≠ "") → ∀ p, P n p → (p ∈ fs ↔ p ∈ fs')) :
    (Cli.warnOptional sk name g f fs).1 = (Cli.warnOptional sk name g f fs').1 ∧
    ∀ p, (p ∈ fs ↔ p ∈ fs') → (p ∈ (Cli.warnOptional sk name g f fs).2 ↔ p ∈ (Cli.warnOptional sk name g f fs').2) := by
  unfold Cli.warnOptional
  cases name with
  | none => exact ⟨rfl, fun p h => h⟩
  | some n =>
    by_cases h : (sk && n.isEmpty) = true
    · simp only [h, if_true]
      exact ⟨trivial, fun p h => h⟩
    · simp only [h]
      have hn : sk = true → n ≠ "" := by
        rintro rfl rfl
        exact h rfl
      exact warn_local (hgl n) (hone n rfl hn) (hfs n rfl hn)

theorem outputs_local {isDir : String → Bool} {g : Glob} {a : Cli.Args} (hg : Cli.Spec.GlobSound g) {fs fs' : FS}
    (hr : ∀ p ∈ fs, ∀ q ∈ fs, History.Spec.IsResults a p → History.Spec.IsResults a q → p = q)
    (he : ∀ p ∈ fs, ∀ q ∈ fs, History.Spec.IsEphemeris a p → History.Spec.IsEphemeris a q → p = q)
    (hfs : ∀ p, Spec.IsOutput a p → (p ∈ fs ↔ p ∈ fs')) :
    (Cli.checkOutputs isDir g a fs).1 = (Cli.checkOutputs isDir g a fs').1 ∧
    ∀ p, (p ∈ fs ↔ p ∈ fs') → (p ∈ (Cli.checkOutputs isDir g a fs).2 ↔ p ∈ (Cli.checkOutputs isDir g a fs').2) := by
  unfold Cli.checkOutputs
  have s1 := (@Cli.Props.warnOpt_sub true a.ew (g.anyExt a.o) a.f fs).1
  obtain ⟨r1, m1⟩ := warnOpt_local (sk := true) (name := a.ew) (f := a.f) (fs := fs) (fs' := fs') (fun n fs p => hg.anyExt a.o n fs p)
    (fun n hn hne p hp q hq h1 h2 => he p hp q hq ⟨n, hn, hne rfl, h1⟩ ⟨n, hn, hne rfl, h2⟩)
    (fun n hn hne p h => hfs p (.inr (.inl ⟨n, hn, hne rfl, h⟩)))
  unfold Cli.andThen
  rw [← r1]
  cases (Cli.warnOptional true a.ew (g.anyExt a.o) a.f fs).1 with
  | error e => exact ⟨rfl, m1⟩
  | ok u =>
    simp only
    generalize (Cli.warnOptional true a.ew (g.anyExt a.o) a.f fs).2 = fs1 at s1 m1 ⊢
    generalize (Cli.warnOptional true a.ew (g.anyExt a.o) a.f fs').2 = fs1' at m1 ⊢
    have s2 := (@Cli.Props.warnOpt_sub false a.st (g.csv a.o) a.f fs1).1
    obtain ⟨r2, m2⟩ := warnOpt_local (sk := false) (name := a.st) (f := a.f) (fs := fs1) (fs' := fs1') (fun n fs p => hg.csv a.o n fs p)
      (fun n _ _ p _ q _ h1 h2 => h1.trans h2.symm) (fun n hn _ p h => m1 p (hfs p (.inr (.inr ⟨n, hn, h⟩))))
    rw [← r2]
    cases (Cli.warnOptional false a.st (g.csv a.o) a.f fs1).1 with
    | error e => exact ⟨rfl, fun p h => m2 p (m1 p h)⟩
    | ok u =>
      simp only
      generalize (Cli.warnOptional false a.st (g.csv a.o) a.f fs1).2 = fs2 at s2 m2 ⊢
      generalize (Cli.warnOptional false a.st (g.csv a.o) a.f fs1').2 = fs2' at m2 ⊢
      cases (Cli.findOptional isDir true a.ar "-ar, --ar_data_path").map fun _ => () with
      | error e => exact ⟨rfl, fun p h => m2 p (m1 p h)⟩
      | ok u =>
        simp only
        obtain ⟨r3, m3⟩ := warn_local (name := a.t) (f := a.f) (fs := fs2) (fs' := fs2') (fun fs p => hg.anyExt a.o a.t fs p)
          (fun p hp q hq h1 h2 => hr p (s1.subset (s2.subset hp)) q (s1.subset (s2.subset hq)) h1 h2) (fun p h => m2 p (m1 p (hfs p (.inl h))))
        exact ⟨r3, fun p h => m3 p (m2 p (m1 p h))⟩

theorem inputs_local {exist exist' : String → Bool} {a : Cli.Args} (h : ∀ p, Spec.Named a p → exist p = exist' p) : Cli.findInputs exist a = Cli.findInputs exist' a := by
  have hopt : ∀ (sk : Bool) (o : Option String) (s : String), (∀ p, o = some p → exist p = exist' p) → Cli.findOptional exist sk o s = Cli.findOptional exist' sk o s := by
    intro sk o s ho
    cases o with
    | none => rfl
    | some p => simp only [Cli.findOptional, Cli.findFile, ho p rfl]
  unfold Cli.findInputs
  rw [hopt true a.cp _ (fun p hp => h p (by simp [Spec.Named, hp])), hopt false a.vd _ (fun p hp => h p (by simp [Spec.Named, hp]))]
  simp only [Cli.findFile, h a.p (by simp [Spec.Named]), h a.ob (by simp [Spec.Named]), h a.c (by simp [Spec.Named]), h a.o (by simp [Spec.Named]),
    h a.pd (by simp [Spec.Named])]

/-- The checks of the command line on two disks that agree on the files that are named and on the outputs. -/
theorem check_local {x : Proc} {a : Cli.Args} (hg : Cli.Spec.GlobSound x.glob) {d d' : Disk} (hone : History.Spec.AtMostOne a d) (hn : ∀ p, Spec.Named a p → d.get p = d'.get p)
    (ho : ∀ p, Spec.IsOutput a p → d.get p = d'.get p) :
    (x.commandLine a d).1 = (x.commandLine a d').1 ∧
    ∀ p, d.get p = d'.get p → (d.keep (x.commandLine a d).2).get p = (d'.keep (x.commandLine a d').2).get p := by
  have hmem : ∀ p, d.get p = d'.get p → (p ∈ d.paths ↔ p ∈ d'.paths) := fun p h => by rw [mem_paths, mem_paths, h]
  have hex : ∀ p, Spec.Named a p → (d.paths.contains p || x.isDir p) = (d'.paths.contains p || x.isDir p) := by
    intro p hp
    congr 1
    rw [Bool.eq_iff_iff, List.contains_iff_mem, List.contains_iff_mem]
    exact hmem p (hn p hp)
  obtain ⟨r, m⟩ := outputs_local (isDir := x.isDir) hg (a := a) (fs := d.paths) (fs' := d'.paths)
    (fun p hp q hq => hone.1 p q ((mem_paths _ _).1 hp) ((mem_paths _ _).1 hq)) (fun p hp q hq => hone.2 p q ((mem_paths _ _).1 hp) ((mem_paths _ _).1 hq))
    (fun p h => hmem p (ho p h))
  unfold Proc.commandLine Cli.commandLine
  rw [inputs_local hex]
  cases Cli.findInputs (fun p => d'.paths.contains p || x.isDir p) a with
  | error e =>
    refine ⟨rfl, fun p h => ?_⟩
    rw [History.get_keep, History.get_keep, h]
    exact if_congr (hmem p h) rfl rfl
  | ok cv =>
    refine ⟨by simp only [r], fun p h => ?_⟩
    rw [History.get_keep, History.get_keep, h]
    exact if_congr (m p (hmem p h)) rfl rfl

theorem check_others {x : Proc} {a : Cli.Args} (hg : Cli.Spec.GlobSound x.glob) {d : Disk} {p : String} (hp : ¬ Spec.IsOutput a p) : (d.keep (x.commandLine a d).2).get p = d.get p := by
  simp only [Spec.IsOutput, not_or] at hp
  exact (History.Props.refused_files hg (a := a) (d := d)).1 p hp.1 hp.2.1 hp.2.2

end Sorcha.Whole.Props
