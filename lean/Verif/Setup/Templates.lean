import Verif.Setup.Spec
import Mathlib.Tactic.IntervalCases

/-!
# C67: `sorcha init` and `sorcha demo prepare`
-/

namespace Sorcha.Setup

theorem join_inj {dir a b : String} (h : join dir a = join dir b) : a = b := by
  simp only [join] at h
  have key : ∀ x : String, x ++ a = x ++ b → a = b := by
    intro x hx
    have := congrArg String.toList hx
    rw [String.toList_append, String.toList_append] at this
    exact String.toList_injective (List.append_cancel_left this)
  by_cases hl : dir.toList.getLast? = some '/'
  · simp only [hl, if_true] at h
    exact key _ h
  · simp only [hl, if_false] at h
    exact key _ h

theorem put_same (d : Disk) (p : String) (s : List Char) : d.put p s p = some (.file s) := by simp [Disk.put]

theorem put_other (d : Disk) {p q : String} (s : List Char) (h : q ≠ p) : d.put p s q = d q := by simp [Disk.put, h]

theorem mem_writing {d s : Disk} {p : String} {t : List Char} : s ∈ writing d p t ↔ ∃ part, part <+: t ∧ s = d.put p part := by
  simp only [writing, List.mem_map, List.mem_inits]
  constructor <;> rintro ⟨a, h, rfl⟩ <;> exact ⟨a, h, rfl⟩

theorem isFile_of {d : Disk} {p : String} : d.isFile p = true ↔ ∃ t, d p = some (.file t) := by
  simp only [Disk.isFile]
  rcases h : d p with _ | ⟨t⟩ | _ <;> simp

theorem isDir_of {d : Disk} {p : String} : d.isDir p = true ↔ d p = some .dir := by simp [Disk.isDir]

/-- Everything about the loop. -/
theorem copyAll_spec (package : String → List Char) (dir : String) (force : Bool) (l : List String) (hl : l.Nodup) (d : Disk) :
    (∀ s, Spec.Seen (copyAll package dir force l d) s →
      (∀ p, (∀ fn ∈ l, p ≠ join dir fn) → s p = d p) ∧
      (∀ fn ∈ l, s (join dir fn) = d (join dir fn) ∨
        (d (join dir fn) ≠ some .dir ∧ (force = false → d (join dir fn) = none) ∧
          ∃ part, part <+: package fn ∧ s (join dir fn) = some (.file part)))) ∧
    (∀ fn ∈ l, (copyAll package dir force l d).disk (join dir fn) = d (join dir fn) ∨
      (copyAll package dir force l d).disk (join dir fn) = some (.file (package fn))) ∧
    ((copyAll package dir force l d).result = .ok () ↔
      ∀ fn ∈ l, d (join dir fn) ≠ some .dir ∧ (force = true ∨ d (join dir fn) = none)) ∧
    ((copyAll package dir force l d).result = .ok () → ∀ fn ∈ l, (copyAll package dir force l d).disk (join dir fn) = some (.file (package fn))) := by
  induction l generalizing d with
  | nil =>
    refine ⟨?_, by simp, by simp [copyAll], by simp⟩
    intro s hs
    have : s = d := by simpa [Spec.Seen, copyAll] using hs
    subst this
    simp
  | cons fn rest ih =>
    obtain ⟨hfn, hrest⟩ := List.nodup_cons.1 hl
    have hne : ∀ g ∈ rest, join dir g ≠ join dir fn := by
      intro g hg h
      have := join_inj h
      subst this
      exact hfn hg
    rw [copyAll]
    by_cases h1 : (!force && d.isFile (join dir fn)) = true
    · rw [if_pos h1]
      have hf : force = false ∧ d.isFile (join dir fn) = true := by simpa using h1
      obtain ⟨t, ht⟩ := isFile_of.1 hf.2
      refine ⟨?_, fun g _ => .inl rfl, ?_, by simp⟩
      · intro s hs
        have : s = d := by simpa [Spec.Seen] using hs
        subst this
        exact ⟨fun _ _ => rfl, fun g _ => .inl rfl⟩
      · simp only [reduceCtorEq, false_iff]
        intro h
        have := (h fn (by simp)).2
        simp [hf.1, ht] at this
    · rw [if_neg h1]
      by_cases h2 : d.isDir (join dir fn) = true
      · rw [if_pos h2]
        refine ⟨?_, fun g _ => .inl rfl, ?_, by simp⟩
        · intro s hs
          have : s = d := by simpa [Spec.Seen] using hs
          subst this
          exact ⟨fun _ _ => rfl, fun g _ => .inl rfl⟩
        · simp only [reduceCtorEq, false_iff]
          intro h
          exact (h fn (by simp)).1 (isDir_of.1 h2)
      · rw [if_neg h2]
        have hnd : d (join dir fn) ≠ some .dir := fun h => h2 (isDir_of.2 h)
        have hno : force = false → d (join dir fn) = none := by
          intro hf
          rcases hd : d (join dir fn) with _ | ⟨t⟩ | _
          · rfl
          · exact absurd (by simp [hf, isFile_of, hd]) h1
          · exact absurd hd hnd
        obtain ⟨i1, i2, i3, i4⟩ := ih hrest (d.put (join dir fn) (package fn))
        have hg : ∀ g ∈ rest, d.put (join dir fn) (package fn) (join dir g) = d (join dir g) := fun g hg => put_other _ _ (hne g hg)
        have hkeep : (copyAll package dir force rest (d.put (join dir fn) (package fn))).disk (join dir fn) = some (.file (package fn)) := by
          rw [(i1 _ (.inr rfl)).1 _ fun g hg h => hne g hg h.symm, put_same]
        refine ⟨?_, ?_, ?_, ?_⟩
        · intro s hs
          have hcase : s = d ∨ (∃ part, part <+: package fn ∧ s = d.put (join dir fn) part) ∨
              Spec.Seen (copyAll package dir force rest (d.put (join dir fn) (package fn))) s := by
            simp only [Spec.Seen, List.cons_append, List.mem_cons, List.mem_append, mem_writing] at hs
            rcases hs with (h | h | h) | h
            · exact .inl h
            · exact .inr (.inl h)
            · exact .inr (.inr (.inl h))
            · exact .inr (.inr (.inr h))
          rcases hcase with rfl | ⟨part, hp, rfl⟩ | hs
          · exact ⟨fun _ _ => rfl, fun g _ => .inl rfl⟩
          · refine ⟨fun p hp => put_other _ _ (hp fn (by simp)), ?_⟩
            intro g hgm
            rcases List.mem_cons.1 hgm with rfl | hgm
            · exact .inr ⟨hnd, hno, part, hp, put_same _ _ _⟩
            · exact .inl (put_other _ _ (hne g hgm))
          · obtain ⟨j1, j2⟩ := i1 s hs
            refine ⟨fun p hp => ?_, ?_⟩
            · rw [j1 p fun g hg => hp g (List.mem_cons_of_mem _ hg), put_other _ _ (hp fn (by simp))]
            · intro g hgm
              rcases List.mem_cons.1 hgm with rfl | hgm
              · refine .inr ⟨hnd, hno, package g, List.prefix_rfl, ?_⟩
                rw [j1 _ fun g' hg' h => hne g' hg' h.symm, put_same]
              · have := j2 g hgm
                rwa [hg g hgm] at this
        · intro g hgm
          rcases List.mem_cons.1 hgm with rfl | hgm
          · exact .inr hkeep
          · have := i2 g hgm
            rwa [hg g hgm] at this
        · refine Iff.trans i3 ?_
          constructor
          · intro h g hgm
            rcases List.mem_cons.1 hgm with rfl | hgm
            · refine ⟨hnd, ?_⟩
              cases hf : force
              · exact .inr (hno hf)
              · exact .inl rfl
            · have := h g hgm
              rwa [hg g hgm] at this
          · intro h g hgm
            rw [hg g hgm]
            exact h g (List.mem_cons_of_mem _ hgm)
        · intro h g hgm
          rcases List.mem_cons.1 hgm with rfl | hgm
          · exact hkeep
          · exact i4 h g hgm

variable {int : String → Option ℤ} {package : String → List Char}

/-- What a command does: nothing, or the loop over the files asked for. -/
theorem run_cases (c : Command) (d : Disk) :
    (Spec.Understood int c ∧ d (Spec.target c) = some .dir ∧
      c.run int package d = copyAll package (Spec.target c) (Spec.forced c) (Spec.wanted int c) d) ∨
    (¬ (Spec.Understood int c ∧ d (Spec.target c) = some .dir) ∧ ∃ e, c.run int package d = ⟨[d], .error e, d⟩) := by
  cases c with
  | init dir answer force =>
    simp only [Command.run, sorchaInit, parseSelection, Spec.Understood, Spec.target, Spec.forced, Spec.wanted]
    rcases hi : int answer with _ | n
    · exact .inr ⟨by simp, .notANumber, by simp⟩
    · simp only [Option.some.injEq, exists_eq_left', Option.elim]
      by_cases hd : d.isDir dir = true
      · have hd' := isDir_of.1 hd
        by_cases h1 : n = 1
        · exact .inl ⟨by omega, hd', by subst h1; simp [copyConfigs, hd, Spec.menu]⟩
        by_cases h2 : n = 2
        · exact .inl ⟨by omega, hd', by subst h2; simp [copyConfigs, hd, Spec.menu]⟩
        by_cases h3 : n = 3
        · exact .inl ⟨by omega, hd', by subst h3; simp [copyConfigs, hd, Spec.menu]⟩
        by_cases h4 : n = 4
        · exact .inl ⟨by omega, hd', by subst h4; simp [copyConfigs, hd, Spec.menu]⟩
        by_cases h5 : n = 5
        · exact .inl ⟨by omega, hd', by subst h5; simp [copyConfigs, hd, Spec.menu]⟩
        · exact .inr ⟨by omega, .notInMenu, by simp [h1, h2, h3, h4, h5]⟩
      · have hd' : ¬ d dir = some .dir := fun h => hd (isDir_of.2 h)
        refine .inr ⟨by simp [hd'], ?_⟩
        split
        · exact ⟨_, rfl⟩
        · exact ⟨.notDir, by simp [copyConfigs, hd]⟩
  | demo dir force =>
    simp only [Command.run, demoPrepare, Spec.Understood, Spec.target, Spec.forced, Spec.wanted, Spec.demoFiles, true_and]
    by_cases hd : d.isDir dir = true
    · exact .inl ⟨isDir_of.1 hd, by simp [hd]⟩
    · exact .inr ⟨fun h => hd (isDir_of.2 h), .notDir, by simp [hd]⟩

theorem wanted_nodup (c : Command) : (Spec.wanted int c).Nodup := by
  cases c with
  | init dir answer force =>
    simp only [Spec.wanted]
    rcases int answer with _ | n
    · simp
    · simp only [Option.elim]
      rw [Spec.menu.eq_def]
      split <;> decide
  | demo dir force => simp only [Spec.wanted]; decide

/-- A state seen while a command does nothing is the one it started with. -/
theorem seen_idle {e : Err} {d s : Disk} {α : Type} (h : Spec.Seen (⟨[d], .error e, d⟩ : Ran α) s) : s = d := by
  simpa [Spec.Seen] using h

namespace Props

/-- **C67, protection.** Without `-f`, whatever exists stays as it is, at whatever moment the command is ended. -/
theorem C67_protects (c : Command) (d s : Disk) (hf : Spec.forced c = false) (hs : Spec.Seen (c.run int package d) s) (p : String)
    (hp : d p ≠ none) : s p = d p := by
  rcases run_cases (int := int) (package := package) c d with ⟨_, _, h⟩ | ⟨_, e, h⟩
  · rw [h] at hs
    obtain ⟨h1, h2⟩ := (copyAll_spec package _ _ _ (wanted_nodup c) d).1 s hs
    by_cases hx : ∀ fn ∈ Spec.wanted int c, p ≠ join (Spec.target c) fn
    · exact h1 p hx
    · push Not at hx
      obtain ⟨fn, hfn, rfl⟩ := hx
      rcases h2 fn hfn with h | ⟨_, h, _⟩
      · exact h
      · exact absurd (h hf) hp
  · rw [h] at hs
    rw [seen_idle hs]

/-- **C67, own files only.** A command touches no path but those of the files it is asked for, at whatever moment it is ended. -/
theorem C67_only_own (c : Command) (d s : Disk) (hs : Spec.Seen (c.run int package d) s) (p : String)
    (hp : ∀ fn ∈ Spec.wanted int c, p ≠ join (Spec.target c) fn) : s p = d p := by
  rcases run_cases (int := int) (package := package) c d with ⟨_, _, h⟩ | ⟨_, e, h⟩
  · rw [h] at hs
    exact ((copyAll_spec package _ _ _ (wanted_nodup c) d).1 s hs).1 p hp
  · rw [h] at hs
    rw [seen_idle hs]

/-- **C67, acceptance.** A command succeeds iff the answer is a number of the menu, the directory exists, no directory is in the way and, without `-f`,
none of the files exists. -/
theorem C67_accepts (c : Command) (d : Disk) : (c.run int package d).result = .ok () ↔
    Spec.Understood int c ∧ d (Spec.target c) = some .dir ∧
    ∀ fn ∈ Spec.wanted int c, d (join (Spec.target c) fn) ≠ some .dir ∧ (Spec.forced c = true ∨ d (join (Spec.target c) fn) = none) := by
  rcases run_cases (int := int) (package := package) c d with ⟨hu, hd, h⟩ | ⟨hn, e, h⟩
  · rw [h, (copyAll_spec package _ _ _ (wanted_nodup c) d).2.2.1]
    simp only [hu, hd, true_and]
  · rw [h]
    constructor
    · intro h'
      cases h'
    · rintro ⟨hu, hd, -⟩
      exact absurd ⟨hu, hd⟩ hn

/-- **C67, delivery.** After a command that succeeds, the files asked for are those of the package. -/
theorem C67_delivers (c : Command) (d : Disk) (h : (c.run int package d).result = .ok ()) :
    ∀ fn ∈ Spec.wanted int c, (c.run int package d).disk (join (Spec.target c) fn) = some (.file (package fn)) := by
  rcases run_cases (int := int) (package := package) c d with ⟨hu, hd, hr⟩ | ⟨hn, e, hr⟩
  · rw [hr] at h ⊢
    exact (copyAll_spec package _ _ _ (wanted_nodup c) d).2.2.2 h
  · rw [hr] at h
    cases h

/-- **C67, interruption.** At whatever moment a command is ended, each of its files is as before or an initial part of that of the package; if it ends by
itself, as before or complete. -/
theorem C67_stages (c : Command) (d : Disk) : ∀ fn ∈ Spec.wanted int c,
    (∀ s, Spec.Seen (c.run int package d) s → s (join (Spec.target c) fn) = d (join (Spec.target c) fn) ∨
      ∃ part, part <+: package fn ∧ s (join (Spec.target c) fn) = some (.file part)) ∧
    ((c.run int package d).disk (join (Spec.target c) fn) = d (join (Spec.target c) fn) ∨
      (c.run int package d).disk (join (Spec.target c) fn) = some (.file (package fn))) := by
  intro fn hfn
  rcases run_cases (int := int) (package := package) c d with ⟨hu, hd, hr⟩ | ⟨hn, e, hr⟩
  · rw [hr]
    obtain ⟨h1, h2, -⟩ := copyAll_spec package _ _ _ (wanted_nodup (int := int) c) d
    refine ⟨fun s hs => ?_, h2 fn hfn⟩
    rcases (h1 s hs).2 fn hfn with h | ⟨_, _, h⟩
    · exact .inl h
    · exact .inr h
  · rw [hr]
    refine ⟨fun s hs => .inl ?_, .inl rfl⟩
    rw [seen_idle hs]

/-- No command makes or removes a directory. -/
theorem dirs_kept (c : Command) (d s : Disk) (hs : Spec.Seen (c.run int package d) s) (p : String) : s p = some .dir ↔ d p = some .dir := by
  by_cases hx : ∀ fn ∈ Spec.wanted int c, p ≠ join (Spec.target c) fn
  · rw [C67_only_own c d s hs p hx]
  · push Not at hx
    obtain ⟨fn, hfn, rfl⟩ := hx
    rcases run_cases (int := int) (package := package) c d with ⟨_, _, h⟩ | ⟨_, e, h⟩
    · rw [h] at hs
      rcases ((copyAll_spec package _ _ _ (wanted_nodup c) d).1 s hs).2 fn hfn with h | ⟨hnd, -, part, -, h⟩
      · rw [h]
      · simp [h, hnd]
    · rw [h] at hs
      rw [seen_idle hs]

/-- **C67, recovery.** After any history of such commands, each ended at any moment, a command with `-f` succeeds and delivers, if the directory exists and
no directory is in the way. -/
theorem C67_recovers (c : Command) (d s : Disk) (hl : Spec.Left int package d s) (hf : Spec.forced c = true) (hu : Spec.Understood int c)
    (hd : d (Spec.target c) = some .dir) (hn : ∀ fn ∈ Spec.wanted int c, d (join (Spec.target c) fn) ≠ some .dir) :
    (c.run int package s).result = .ok () ∧
    ∀ fn ∈ Spec.wanted int c, (c.run int package s).disk (join (Spec.target c) fn) = some (.file (package fn)) := by
  have key : ∀ p, s p = some .dir ↔ d p = some .dir := by
    induction hl with
    | start => intro p; rfl
    | next c' _ ht ih => intro p; rw [dirs_kept c' _ _ ht p, ih p]
  have hok : (c.run int package s).result = .ok () := by
    rw [C67_accepts]
    exact ⟨hu, (key _).2 hd, fun fn hfn => ⟨fun h => hn fn hfn ((key _).1 h), .inl hf⟩⟩
  exact ⟨hok, C67_delivers c s hok⟩

/-- **C67, demo command.** The files named in the printed command are those `sorcha demo prepare` copies, all of them. -/
theorem C67_demo_command : ∀ f, f ∈ Spec.demoFiles ↔ ∃ o ∈ ["-c", "-p", "--orbits", "--pointing-db"], [o, f] <:+: demoCommand := by
  intro f
  constructor
  · intro h
    simp only [Spec.demoFiles, List.mem_cons, List.not_mem_nil, or_false] at h
    rcases h with rfl | rfl | rfl | rfl
    · exact ⟨"-c", by simp, ["sorcha", "run"], _, rfl⟩
    · exact ⟨"-p", by simp, ["sorcha", "run", "-c", "sorcha_config_demo.ini"], _, rfl⟩
    · exact ⟨"--orbits", by simp, ["sorcha", "run", "-c", "sorcha_config_demo.ini", "-p", "sspp_testset_colours.txt"], _, rfl⟩
    · exact ⟨"--pointing-db", by simp, ["sorcha", "run", "-c", "sorcha_config_demo.ini", "-p", "sspp_testset_colours.txt", "--orbits",
        "sspp_testset_orbits.des"], _, rfl⟩
  · rintro ⟨o, ho, a, b, h⟩
    have h' : a ++ o :: f :: b = demoCommand := by simpa using h
    have hf : demoCommand[a.length + 1]? = some f := by
      rw [← h', List.getElem?_append_right (by omega)]
      simp
    have hoo : demoCommand[a.length]? = some o := by
      rw [← h', List.getElem?_append_right (by omega)]
      simp
    have hlen : a.length < demoCommand.length := by
      rw [← h']; simp
    have hl16 : demoCommand.length = 16 := rfl
    rw [hl16] at hlen
    generalize a.length = k at *
    interval_cases k <;> simp [demoCommand] at hf hoo <;> subst hf <;> subst hoo <;> simp_all [Spec.demoFiles]

/-! ## Cases -/

/-- A home directory with one of the configuration files, changed by the user. -/
def home : Disk := fun p => if p = "/home" then some .dir else if p = "/home/Rubin_known_object_prediction.ini" then some (.file "mine".toList) else none

/-- Reading the numbers of the menu. -/
def readNumber : String → Option ℤ := fun s => if s = "3" then some 3 else if s = "5" then some 5 else if s = "6" then some 6 else none

/-- The files of the package, as short texts. -/
def shipped : String → List Char := fun _ => "new".toList

example : Spec.Understood readNumber (.init "/home" "3" true) ∧ home (Spec.target (.init "/home" "3" true)) = some .dir ∧
    Spec.wanted readNumber (.init "/home" "3" true) = ["Rubin_known_object_prediction.ini"] := by
  refine ⟨⟨3, by decide +kernel, by decide, by decide⟩, by decide +kernel, by decide +kernel⟩

/-- With `-f` the changed file is replaced … -/
example : ((Command.init "/home" "3" true).run readNumber shipped home).result = .ok () ∧
    ((Command.init "/home" "3" true).run readNumber shipped home).disk "/home/Rubin_known_object_prediction.ini" = some (.file "new".toList) := by
  refine ⟨by decide +kernel, by decide +kernel⟩

/-- … without it the command stops, as it does for a number the error message offers. -/
example : ((Command.init "/home" "3" false).run readNumber shipped home).result = .error .fileExists ∧
    ((Command.init "/home" "6" false).run readNumber shipped home).result = .error .notInMenu := by
  refine ⟨by decide +kernel, by decide +kernel⟩

/-- A disk on which the demo can be prepared. -/
example : ((Command.demo "/home" false).run readNumber shipped home).result = .ok () := by decide +kernel

/-- **C67, refusals are not all or nothing.** A refused command may have copied some of its files. -/
theorem C67_refused_fails : ∃ (c : Command) (d : Disk), Spec.forced c = false ∧
    (c.run readNumber shipped d).result = .error .fileExists ∧ (c.run readNumber shipped d).disk ≠ d := by
  refine ⟨.init "/home" "5" false, home, rfl, by decide +kernel, fun h => ?_⟩
  have := congrFun h "/home/Rubin_full_footprint.ini"
  revert this
  decide +kernel

/-- **C67, no resuming.** A command that was ended in the middle of a file is refused when it is repeated without `-f`, and the file stays incomplete. -/
theorem C67_resume_fails : ∃ (c : Command) (s : Disk), Spec.forced c = false ∧ Spec.Seen (c.run readNumber shipped home) s ∧
    (c.run readNumber shipped s).result = .error .fileExists ∧
    (c.run readNumber shipped s).disk "/home/sorcha_config_demo.ini" = some (.file "ne".toList) := by
  refine ⟨.demo "/home" false, home.put "/home/sorcha_config_demo.ini" "ne".toList, rfl, .inl ?_, by decide +kernel, by decide +kernel⟩
  have h1 : home.isDir "/home" = true := by decide +kernel
  have h2 : (!false && home.isFile (join "/home" "sorcha_config_demo.ini")) = false := by decide +kernel
  have h3 : home.isDir (join "/home" "sorcha_config_demo.ini") = false := by decide +kernel
  have hj : join "/home" "sorcha_config_demo.ini" = "/home/sorcha_config_demo.ini" := by decide +kernel
  simp only [Command.run, demoPrepare, h1, Bool.not_true, Bool.false_eq_true, if_false]
  rw [copyAll, if_neg (by rw [h2]; decide), if_neg (by rw [h3]; decide)]
  simp only [List.cons_append, List.mem_cons, List.mem_append, mem_writing, hj]
  exact .inr (.inl ⟨"ne".toList, ⟨['w'], by decide +kernel⟩, rfl⟩)

end Props
end Sorcha.Setup
