import Verif.Cmd.Props

/-!
# C90: what the commands leave, from their arguments
-/

namespace Sorcha.Cmd.Props
open Argv Argv.Spec Spec
open Setup (Disk Node join)

variable {int : String → Option ℤ} {package : String → List Char} {abspath : String → String} {answer cwd : String} {text : List Char} {d s : Disk}

/-- The arguments of `sorcha init` determine what it does. -/
theorem init_says {argv : List (List Char)} {gs : List (InitSetting × List Char)} (h : InitSays argv gs) : ∃ f : Bool, (f = true ↔ Given gs .force) ∧
    init int package abspath answer argv d = .worked ((Setup.Command.init (abspath ((lastOf gs .path).getD "./")) answer f).run int package d) := by
  classical
  refine ⟨decide (Given gs .force), by simp, ?_⟩
  rw [init, (C90_init argv ⟨decide (Given gs .verbose), (lastOf gs .path).getD "./", decide (Given gs .force)⟩).2 ⟨gs, h, rfl, by simp, by simp⟩]
  rfl

/-- C90 (nothing is overwritten unasked): whatever the arguments of `sorcha init` and whatever is typed in, if they do not say `-f`, everything that exists stays as it is, at
whatever moment the command is ended. -/
theorem C90_init_keeps (argv : List (List Char)) (hf : ∀ gs, InitSays argv gs → ¬ Given gs .force) (hs : Leaves (init int package abspath answer argv d) d s)
    (p : String) (hp : d p ≠ none) : s p = d p := by
  cases h : initArgs argv with
  | error x => rw [init, h] at hs; rw [show s = d from hs]
  | ok a =>
    obtain ⟨gs, hg, -⟩ := (C90_init argv a).1 h
    obtain ⟨f, hff, he⟩ := init_says (int := int) (package := package) (abspath := abspath) (answer := answer) (d := d) hg
    rw [he] at hs
    refine Setup.Props.C67_protects _ d s ?_ hs p hp
    cases f
    · rfl
    · exact absurd (hff.1 rfl) (hf gs hg)

/-- C90 (the files arrive where they should): if the arguments of `sorcha init` say settings, a number of the menu is typed in, and the directory is there without anything
in the way, the files of that number are afterwards in the directory said, as they are in the package, and nothing else has changed. -/
theorem C90_init_files {argv : List (List Char)} {gs : List (InitSetting × List Char)} (h : InitSays argv gs) {n : ℤ} (hn : int answer = some n) (h1 : 1 ≤ n) (h5 : n ≤ 5)
    (hd : d (abspath ((lastOf gs .path).getD "./")) = some .dir)
    (hw : ∀ fn ∈ Setup.Spec.menu n, d (join (abspath ((lastOf gs .path).getD "./")) fn) ≠ some .dir ∧
      (Given gs .force ∨ d (join (abspath ((lastOf gs .path).getD "./")) fn) = none)) :
    ∃ r, init int package abspath answer argv d = .worked r ∧ r.result = .ok () ∧
      (∀ fn ∈ Setup.Spec.menu n, r.disk (join (abspath ((lastOf gs .path).getD "./")) fn) = some (.file (package fn))) ∧
      ∀ p, (∀ fn ∈ Setup.Spec.menu n, p ≠ join (abspath ((lastOf gs .path).getD "./")) fn) → r.disk p = d p := by
  obtain ⟨f, hff, he⟩ := init_says (int := int) (package := package) (abspath := abspath) (answer := answer) (d := d) h
  have hm : Setup.Spec.wanted int (.init (abspath ((lastOf gs .path).getD "./")) answer f) = Setup.Spec.menu n := by simp [Setup.Spec.wanted, hn]
  have hok := (Setup.Props.C67_accepts (int := int) (package := package) (.init (abspath ((lastOf gs .path).getD "./")) answer f) d).2
    ⟨⟨n, hn, h1, h5⟩, hd, by rw [hm]; exact fun fn hfn => ⟨(hw fn hfn).1, (hw fn hfn).2.imp_left hff.2⟩⟩
  refine ⟨_, he, hok, ?_, ?_⟩
  · rw [← hm]; exact Setup.Props.C67_delivers _ d hok
  · rw [← hm]; exact fun p hp => Setup.Props.C67_only_own _ d _ (.inr rfl) p hp

/-- The arguments of `sorcha demo prepare` determine what it does. -/
theorem demo_says {rest : List (List Char)} {gs : List (DemoSetting × List Char)} (h : DemoSays rest gs) : ∃ f : Bool, (f = true ↔ Given gs .force) ∧
    demo package abspath ("prepare".toList :: rest) d = .worked ((Setup.Command.demo (abspath ((lastOf gs .path).getD "./")) f).run int package d) := by
  classical
  refine ⟨decide (Given gs .force), by simp, ?_⟩
  rw [demo, (C90_demo_prepare _ ⟨(lastOf gs .path).getD "./", decide (Given gs .force)⟩).2 ⟨rest, gs, rfl, h, rfl, by simp⟩]
  rfl

/-- C90 (nothing is overwritten unasked): whatever the arguments of `sorcha demo`, if they are not `prepare` with `-f`, everything that exists stays as it is, at whatever
moment the command is ended. -/
theorem C90_demo_keeps (argv : List (List Char)) (hf : ∀ rest gs, argv = "prepare".toList :: rest → DemoSays rest gs → ¬ Given gs .force)
    (hs : Leaves (demo package abspath argv d) d s) (p : String) (hp : d p ≠ none) : s p = d p := by
  cases h : demoArgs argv with
  | error x => rw [demo, h] at hs; rw [show s = d from hs]
  | ok a =>
    cases a with
    | none => rw [demo, h] at hs; rw [show s = d from hs]
    | some a =>
      cases a with
      | howto => rw [demo, h] at hs; rw [show s = d from hs]
      | prepare a =>
        obtain ⟨rest, gs, rfl, hg, -⟩ := (C90_demo_prepare argv a).1 h
        obtain ⟨f, hff, he⟩ := demo_says (int := fun _ => none) (package := package) (abspath := abspath) (d := d) hg
        rw [he] at hs
        refine Setup.Props.C67_protects _ d s ?_ hs p hp
        cases f
        · rfl
        · exact absurd (hff.1 rfl) (hf rest gs rfl hg)

/-- C90 (the files arrive where they should): `sorcha demo prepare` with settings puts the files of the demo in the directory said, and nothing else has changed. -/
theorem C90_demo_files {rest : List (List Char)} {gs : List (DemoSetting × List Char)} (h : DemoSays rest gs)
    (hd : d (abspath ((lastOf gs .path).getD "./")) = some .dir)
    (hw : ∀ fn ∈ Setup.Spec.demoFiles, d (join (abspath ((lastOf gs .path).getD "./")) fn) ≠ some .dir ∧
      (Given gs .force ∨ d (join (abspath ((lastOf gs .path).getD "./")) fn) = none)) :
    ∃ r, demo package abspath ("prepare".toList :: rest) d = .worked r ∧ r.result = .ok () ∧
      (∀ fn ∈ Setup.Spec.demoFiles, r.disk (join (abspath ((lastOf gs .path).getD "./")) fn) = some (.file (package fn))) ∧
      ∀ p, (∀ fn ∈ Setup.Spec.demoFiles, p ≠ join (abspath ((lastOf gs .path).getD "./")) fn) → r.disk p = d p := by
  obtain ⟨f, hff, he⟩ := demo_says (int := fun _ => none) (package := package) (abspath := abspath) (d := d) h
  have hok := (Setup.Props.C67_accepts (int := fun _ => none) (package := package) (.demo (abspath ((lastOf gs .path).getD "./")) f) d).2
    ⟨trivial, hd, fun fn hfn => ⟨(hw fn hfn).1, (hw fn hfn).2.imp_left hff.2⟩⟩
  exact ⟨_, he, hok, Setup.Props.C67_delivers _ d hok, fun p hp => Setup.Props.C67_only_own _ d _ (.inr rfl) p hp⟩

/-- C90 (`sorcha cite`): at whatever moment it is ended, no path has changed but that of `sorcha_citation.txt` in the directory said, which is as before or an initial part of
the text; with `-p`, or if the arguments say nothing, nothing has changed. -/
theorem C90_cite_only (argv : List (List Char)) (hs : Leaves (sorchaCite abspath cwd text argv d) d s) :
    s = d ∨ ∃ gs, CiteSays argv gs ∧ ¬ Given gs .print ∧ d (abspath ((lastOf gs .dir).getD cwd)) = some .dir ∧
      ∃ part, part <+: text ∧ s (join (abspath ((lastOf gs .dir).getD cwd)) "sorcha_citation.txt") = some (.file part) ∧
        ∀ p, p ≠ join (abspath ((lastOf gs .dir).getD cwd)) "sorcha_citation.txt" → s p = d p := by
  cases h : citeArgs cwd argv with
  | error x => rw [sorchaCite, h] at hs; exact .inl hs
  | ok a =>
    obtain ⟨gs, hg, ho, hp⟩ := (C90_cite cwd argv a).1 h
    rw [sorchaCite, h] at hs
    simp only [Leaves, cite] at hs
    rw [ho] at hs
    by_cases h1 : a.p = true
    · rw [if_pos h1] at hs; exact .inl (by simpa [Setup.Spec.Seen] using hs)
    · rw [if_neg h1] at hs
      by_cases h2 : d.isDir (abspath ((lastOf gs .dir).getD cwd)) = true
      · rw [if_neg (by simp [h2])] at hs
        by_cases h3 : d.isDir (join (abspath ((lastOf gs .dir).getD cwd)) "sorcha_citation.txt") = true
        · rw [if_pos h3] at hs; exact .inl (Setup.seen_idle hs)
        · rw [if_neg h3] at hs
          simp only [Setup.Spec.Seen, List.mem_cons, Setup.mem_writing] at hs
          have hcase : s = d ∨ ∃ part, part <+: text ∧ s = d.put (join (abspath ((lastOf gs .dir).getD cwd)) "sorcha_citation.txt") part := by
            rcases hs with (hs | hs) | hs
            · exact .inl hs
            · exact .inr hs
            · exact .inr ⟨text, List.prefix_rfl, hs⟩
          refine hcase.imp_right ?_
          rintro ⟨part, hpart, he⟩
          exact ⟨gs, hg, fun hx => h1 (hp.2 hx), Setup.isDir_of.1 h2, part, hpart, by rw [he]; exact Setup.put_same _ _ _, fun p hne => by rw [he]; exact Setup.put_other _ _ hne⟩
      · rw [if_pos (by simp [h2])] at hs; exact .inl (Setup.seen_idle hs)

/-- C90 (`sorcha cite`): if the arguments say no `-p` and the directory said is there, without a directory in the place of the file, the file holds the text afterwards. -/
theorem C90_cite_file {argv : List (List Char)} {gs : List (CiteSetting × List Char)} (h : CiteSays argv gs) (hp : ¬ Given gs .print)
    (hd : d (abspath ((lastOf gs .dir).getD cwd)) = some .dir) (hn : d (join (abspath ((lastOf gs .dir).getD cwd)) "sorcha_citation.txt") ≠ some .dir) :
    ∃ r, sorchaCite abspath cwd text argv d = .worked r ∧ r.result = .ok .saved ∧
      r.disk (join (abspath ((lastOf gs .dir).getD cwd)) "sorcha_citation.txt") = some (.file text) := by
  rw [sorchaCite, (C90_cite cwd argv ⟨(lastOf gs .dir).getD cwd, false⟩).2 ⟨gs, h, rfl, by simp [hp]⟩]
  refine ⟨_, rfl, ?_⟩
  simp only [cite, Bool.false_eq_true, if_false]
  rw [if_neg (by simp [Setup.isDir_of.2 hd]), if_neg (fun hx => hn (Setup.isDir_of.1 hx))]
  exact ⟨rfl, Setup.put_same _ _ _⟩

variable {walk : Setup.Walk} {br : Char → Bool} {csv : List Setup.LogRow → List Char} {dirname : String → String} {sqlite : SqlArgs → Disk → Setup.Ran Setup.Told}

/-- C90 (nothing is overwritten unasked): with `check-logs` as the first argument of `sorcha outputs` and without `--force`, everything that exists stays as it is, at whatever
moment the command is ended, if a report that is asked for has a name that ends in `.csv`. -/
theorem C90_logs_keeps (hw : Setup.Spec.WalkSound walk) (hfin : Setup.Spec.Finite d) (rest : List (List Char)) (hf : ∀ gs, LogsSays rest gs → ¬ Given gs .force)
    (hcsv : ∀ gs p, LogsSays rest gs → lastOf gs .report = some p → p ≠ "" → ".csv".toList <:+ (abspath p).toList)
    (hs : Leaves (outputs walk br csv dirname abspath sqlite ("check-logs".toList :: rest) d) d s) (q : String) (hq : d q ≠ none) : s q = d q := by
  cases h : outputsArgs ("check-logs".toList :: rest) with
  | error x => rw [outputs, h] at hs; rw [show s = d from hs]
  | ok a =>
    cases a with
    | none => rw [outputs, h] at hs; rw [show s = d from hs]
    | some a =>
      cases a with
      | createSqlite a =>
        obtain ⟨rest', gs, he, -⟩ := (C90_create_sqlite _ a).1 h
        injection he with he
        exact absurd he (by decide)
      | checkLogs a =>
        obtain ⟨rest', gs, he, hg, hdir, hrep, hforce⟩ := (C90_check_logs _ a).1.1 h
        injection he with _ he
        subst he
        have hff : a.force = false := by
          cases hb : a.force
          · rfl
          · exact absurd (hforce.1 hb) (hf gs hg)
        rw [outputs, h] at hs
        simp only [Leaves, checkLogs, hff] at hs
        have hnone : ∀ s', Setup.Spec.Seen (Setup.cmdCheckLogs walk br csv dirname (abspath a.filepath) none false d) s' → s' = d :=
          (Setup.Props.C68_only_report (p := "") hw hfin).1
        cases ho : a.outpath with
        | none => rw [ho] at hs; rw [hnone s hs]
        | some p =>
          rw [ho] at hs
          simp only at hs
          by_cases hp : p = ""
          · rw [if_pos hp] at hs; rw [hnone s hs]
          · rw [if_neg hp] at hs
            have hsuf := hcsv gs p hg (hrep.trans ho) hp
            by_cases hx : d (abspath p) = none
            · refine ((Setup.Props.C68_only_report (p := abspath p) hw hfin).2 hsuf s hs).1 q ?_
              rintro rfl; exact hq hx
            · rw [Setup.Props.C68_protects hsuf hx s hs]

/-- C90 (`-v` changes nothing): what `sorcha init` does depends on the path and `-f` only. -/
theorem C90_verbose {argv argv' : List (List Char)} {gs gs' : List (InitSetting × List Char)} (h : InitSays argv gs) (h' : InitSays argv' gs')
    (hp : lastOf gs .path = lastOf gs' .path) (hf : Given gs .force ↔ Given gs' .force) : init int package abspath answer argv d = init int package abspath answer argv' d := by
  obtain ⟨f, h1, h2⟩ := init_says (int := int) (package := package) (abspath := abspath) (answer := answer) (d := d) h
  obtain ⟨f', h1', h2'⟩ := init_says (int := int) (package := package) (abspath := abspath) (answer := answer) (d := d) h'
  have : f = f' := by rw [Bool.eq_iff_iff, h1, h1', hf]
  rw [h2, h2', hp, this]

end Sorcha.Cmd.Props
