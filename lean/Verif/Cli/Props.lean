import Verif.Cli.Spec
import Mathlib.Tactic.Ring
import Mathlib.Tactic.Linarith

/-!
# Properties C22, C42, C43, C44, C58: the command line utilities
-/

namespace Sorcha.Cli.Props
open Sorcha.Cli

/-! ## C22: existing output files -/

theorem warn_no_force {gl : FS → List String} {name : String} {fs : FS} : (warnOrRemove gl name false fs).2 = fs ∧
    ((warnOrRemove gl name false fs).1 = .ok () → gl fs = []) := by
  unfold warnOrRemove
  cases gl fs with
  | nil => simp
  | cons p ps => simp

theorem warn_sub {gl : FS → List String} {name : String} {f : Bool} {fs : FS} : (warnOrRemove gl name f fs).2.Sublist fs ∧
    ∀ p ∈ fs, p ∉ (warnOrRemove gl name f fs).2 → p ∈ gl fs := by
  unfold warnOrRemove
  cases h : gl fs with
  | nil => exact ⟨List.Sublist.refl _, fun p hp hn => absurd hp hn⟩
  | cons q qs =>
    cases f with
    | false => exact ⟨List.Sublist.refl _, fun p hp hn => absurd hp hn⟩
    | true =>
      refine ⟨List.filter_sublist, fun p hp hn => ?_⟩
      have : p = q := by
        by_contra hne
        exact hn (List.mem_filter.2 ⟨hp, by simpa using hne⟩)
      rw [this]; exact List.mem_cons_self

theorem warnOpt_no_force {sk : Bool} {name : Option String} {g : String → FS → List String} {fs : FS} :
    (warnOptional sk name g false fs).2 = fs ∧ ((warnOptional sk name g false fs).1 = .ok () →
      ∀ n, name = some n → (sk = true → n ≠ "") → g n fs = []) := by
  unfold warnOptional
  cases name with
  | none => exact ⟨rfl, fun _ n h => by simp at h⟩
  | some n =>
    by_cases h : (sk && n.isEmpty) = true
    · simp only [h, if_true]
      refine ⟨trivial, fun _ m hm hs => ?_⟩
      simp only [Bool.and_eq_true] at h
      exact absurd (by simpa using h.2) (by rw [Option.some.inj hm]; exact hs h.1)
    · simp only [h]
      refine ⟨warn_no_force.1, fun h' m hm _ => ?_⟩
      rw [← Option.some.inj hm]
      exact warn_no_force.2 h'

theorem warnOpt_sub {sk : Bool} {name : Option String} {g : String → FS → List String} {f : Bool} {fs : FS} :
    (warnOptional sk name g f fs).2.Sublist fs ∧ ∀ p ∈ fs, p ∉ (warnOptional sk name g f fs).2 →
      ∃ n, name = some n ∧ (sk = true → n ≠ "") ∧ p ∈ g n fs := by
  unfold warnOptional
  cases name with
  | none => exact ⟨List.Sublist.refl _, fun p hp hn => absurd hp hn⟩
  | some n =>
    by_cases h : (sk && n.isEmpty) = true
    · simp only [h, if_true]
      exact ⟨List.Sublist.refl _, fun p hp hn => absurd hp hn⟩
    · simp only [h]
      refine ⟨warn_sub.1, fun p hp hn => ⟨n, rfl, ?_, warn_sub.2 p hp hn⟩⟩
      rintro rfl rfl
      exact h (by decide)

section
variable {exist isDir : String → Bool} {g : Glob} {a : Args} {fs fs' : FS} {c : CmdArgs}

/-- C22 (without `-f`): whatever happens no file is touched, and if the command line is accepted, no file of the output stem, of the ephemeris
output or of the statistics exists. -/
theorem C22_no_force (hg : Spec.GlobSound g) (hf : a.f = false) : (commandLine exist isDir g a fs).2 = fs ∧
    ((commandLine exist isDir g a fs).1 = .ok c → (∀ p ∈ fs, ¬ Spec.BelongsTo a.o a.t p) ∧
      (∀ n, a.ew = some n → n ≠ "" → ∀ p ∈ fs, ¬ Spec.BelongsTo a.o n p) ∧ ∀ n, a.st = some n → a.o ++ "/" ++ n ++ ".csv" ∉ fs) := by
  unfold commandLine
  cases hi : findInputs exist a with
  | error e => exact ⟨rfl, fun h => by simp at h⟩
  | ok cv =>
    obtain ⟨cp, vd⟩ := cv
    simp only
    unfold checkOutputs
    rw [hf]
    have e1 := @warnOpt_no_force true a.ew (g.anyExt a.o) fs
    have e2 := @warnOpt_no_force false a.st (g.csv a.o) fs
    have e3 := @warn_no_force (g.anyExt a.o a.t) a.t fs
    unfold andThen
    cases h1 : (warnOptional true a.ew (g.anyExt a.o) false fs).1 with
    | error e => simp [e1.1, Except.map]
    | ok u =>
      simp only [e1.1]
      cases h2 : (warnOptional false a.st (g.csv a.o) false fs).1 with
      | error e => simp [e2.1, Except.map]
      | ok u =>
        simp only [e2.1]
        cases h3 : (findOptional isDir true a.ar "-ar, --ar_data_path") with
        | error e => simp [Except.map]
        | ok u =>
          simp only [Except.map]
          refine ⟨e3.1, fun h => ?_⟩
          cases h4 : (warnOrRemove (g.anyExt a.o a.t) a.t false fs).1 with
          | error e => rw [h4] at h; simp at h
          | ok u =>
            refine ⟨?_, ?_, ?_⟩
            · intro p hp hb
              have := e3.2 h4
              have hm := (hg.anyExt a.o a.t fs p).2 ⟨hp, hb⟩
              rw [this] at hm
              exact absurd hm List.not_mem_nil
            · intro n hn hne p hp hb
              have := e1.2 h1 n hn (fun _ => hne)
              have hm := (hg.anyExt a.o n fs p).2 ⟨hp, hb⟩
              rw [this] at hm
              exact absurd hm List.not_mem_nil
            · intro n hn hp
              have := e2.2 h2 n hn (fun h => by simp at h)
              have hm := (hg.csv a.o n fs _).2 ⟨hp, rfl⟩
              rw [this] at hm
              exact absurd hm List.not_mem_nil

/-- C22 (only own files): files are at most removed, never created, and every file removed is an output file of the command. -/
theorem C22_only_own (hg : Spec.GlobSound g) : (commandLine exist isDir g a fs).2.Sublist fs ∧
    ∀ p ∈ fs, p ∉ (commandLine exist isDir g a fs).2 → Spec.IsOutput a p := by
  unfold commandLine
  cases hi : findInputs exist a with
  | error e => exact ⟨List.Sublist.refl _, fun p hp hn => absurd hp hn⟩
  | ok cv =>
    obtain ⟨cp, vd⟩ := cv
    simp only
    unfold checkOutputs
    have e1 := @warnOpt_sub true a.ew (g.anyExt a.o) a.f fs
    have key1 : ∀ p ∈ fs, p ∉ (warnOptional true a.ew (g.anyExt a.o) a.f fs).2 → Spec.IsOutput a p := by
      intro p hp hn
      obtain ⟨n, h, hne, hm⟩ := e1.2 p hp hn
      exact Or.inr (Or.inl ⟨n, h, hne rfl, ((hg.anyExt _ _ _ _).1 hm).2⟩)
    unfold andThen
    cases h1 : (warnOptional true a.ew (g.anyExt a.o) a.f fs).1 with
    | error e => exact ⟨e1.1, key1⟩
    | ok u =>
      simp only
      set fs1 := (warnOptional true a.ew (g.anyExt a.o) a.f fs).2 with hfs1
      have e2 := @warnOpt_sub false a.st (g.csv a.o) a.f fs1
      have key2 : ∀ p ∈ fs, p ∉ (warnOptional false a.st (g.csv a.o) a.f fs1).2 → Spec.IsOutput a p := by
        intro p hp hn
        by_cases hp1 : p ∈ fs1
        · obtain ⟨n, h, -, hm⟩ := e2.2 p hp1 hn
          exact Or.inr (Or.inr ⟨n, h, ((hg.csv _ _ _ _).1 hm).2⟩)
        · exact key1 p hp hp1
      cases h2 : (warnOptional false a.st (g.csv a.o) a.f fs1).1 with
      | error e => exact ⟨e2.1.trans e1.1, key2⟩
      | ok u =>
        simp only
        set fs2 := (warnOptional false a.st (g.csv a.o) a.f fs1).2 with hfs2
        cases h3 : (findOptional isDir true a.ar "-ar, --ar_data_path") with
        | error e => exact ⟨e2.1.trans e1.1, key2⟩
        | ok u =>
          simp only [Except.map]
          have e3 := @warn_sub (g.anyExt a.o a.t) a.t a.f fs2
          refine ⟨e3.1.trans (e2.1.trans e1.1), ?_⟩
          intro p hp hn
          by_cases hp2 : p ∈ fs2
          · exact Or.inl ((hg.anyExt _ _ _ _).1 (e3.2 p hp2 hn)).2
          · exact key2 p hp hp2

/-- C22 (with `-f`): if the command line is accepted and at most one file of the output stem existed, none exists afterwards. -/
theorem C22_force_single (hg : Spec.GlobSound g) (hf : a.f = true) (h : (commandLine exist isDir g a fs).1 = .ok c)
    (hone : ∀ p ∈ fs, ∀ q ∈ fs, Spec.BelongsTo a.o a.t p → Spec.BelongsTo a.o a.t q → p = q) :
    ∀ p ∈ (commandLine exist isDir g a fs).2, ¬ Spec.BelongsTo a.o a.t p := by
  unfold commandLine at h ⊢
  cases hi : findInputs exist a with
  | error e => rw [hi] at h; simp at h
  | ok cv =>
    obtain ⟨cp, vd⟩ := cv
    rw [hi] at h
    simp only at h ⊢
    unfold checkOutputs at h ⊢
    have e1 := @warnOpt_sub true a.ew (g.anyExt a.o) a.f fs
    unfold andThen at h ⊢
    cases h1 : (warnOptional true a.ew (g.anyExt a.o) a.f fs).1 with
    | error e => rw [h1] at h; simp [Except.map] at h
    | ok u =>
      rw [h1] at h
      simp only at h ⊢
      set fs1 := (warnOptional true a.ew (g.anyExt a.o) a.f fs).2 with hfs1
      have e2 := @warnOpt_sub false a.st (g.csv a.o) a.f fs1
      cases h2 : (warnOptional false a.st (g.csv a.o) a.f fs1).1 with
      | error e => rw [h2] at h; simp [Except.map] at h
      | ok u =>
        rw [h2] at h
        simp only at h ⊢
        set fs2 := (warnOptional false a.st (g.csv a.o) a.f fs1).2 with hfs2
        have hsub : fs2.Sublist fs := e2.1.trans e1.1
        cases h3 : (findOptional isDir true a.ar "-ar, --ar_data_path") with
        | error e => rw [h3] at h; simp [Except.map] at h
        | ok u =>
          simp only [Except.map]
          intro p hp hb
          unfold warnOrRemove at hp
          have hm : ∀ q, q ∈ g.anyExt a.o a.t fs2 ↔ q ∈ fs2 ∧ Spec.BelongsTo a.o a.t q := hg.anyExt a.o a.t fs2
          cases hl : g.anyExt a.o a.t fs2 with
          | nil =>
            rw [hl] at hp hm
            exact absurd ((hm p).2 ⟨hp, hb⟩) List.not_mem_nil
          | cons q qs =>
            rw [hl, hf] at hp
            rw [hl] at hm
            simp only [if_true] at hp
            rw [List.mem_filter] at hp
            have hq := (hm q).1 List.mem_cons_self
            have : p = q := hone p (hsub.subset hp.1) q (hsub.subset hq.1) hb hq.2
            simp [this] at hp

/-- C22 (effect): with `-f` a file of the output stem is removed when there is one: it does not survive that all of them remain. -/
theorem C22_force_removes (hg : Spec.GlobSound g) (hf : a.f = true) (h : (commandLine exist isDir g a fs).1 = .ok c)
    (hex : ∃ p ∈ fs, Spec.BelongsTo a.o a.t p) : ∃ p ∈ fs, Spec.BelongsTo a.o a.t p ∧ p ∉ (commandLine exist isDir g a fs).2 := by
  by_contra hno
  push Not at hno
  unfold commandLine at h hno
  cases hi : findInputs exist a with
  | error e => rw [hi] at h; simp at h
  | ok cv =>
    obtain ⟨cp, vd⟩ := cv
    rw [hi] at h
    simp only [hi] at h hno
    unfold checkOutputs at h hno
    unfold andThen at h hno
    cases h1 : (warnOptional true a.ew (g.anyExt a.o) a.f fs).1 with
    | error e => rw [h1] at h; simp [Except.map] at h
    | ok u =>
      rw [h1] at h hno
      simp only at h hno
      have e1 := @warnOpt_sub true a.ew (g.anyExt a.o) a.f fs
      set fs1 := (warnOptional true a.ew (g.anyExt a.o) a.f fs).2 with hfs1
      have e2 := @warnOpt_sub false a.st (g.csv a.o) a.f fs1
      cases h2 : (warnOptional false a.st (g.csv a.o) a.f fs1).1 with
      | error e => rw [h2] at h; simp [Except.map] at h
      | ok u =>
        rw [h2] at h hno
        simp only at h hno
        set fs2 := (warnOptional false a.st (g.csv a.o) a.f fs1).2 with hfs2
        cases h3 : (findOptional isDir true a.ar "-ar, --ar_data_path") with
        | error e => rw [h3] at h; simp [Except.map] at h
        | ok u =>
          rw [h3] at hno
          simp only [Except.map] at hno
          have hm : ∀ q, q ∈ g.anyExt a.o a.t fs2 ↔ q ∈ fs2 ∧ Spec.BelongsTo a.o a.t q := hg.anyExt a.o a.t fs2
          obtain ⟨p, hp, hb⟩ := hex
          have e3 := @warn_sub (g.anyExt a.o a.t) a.t a.f fs2
          have hp2 : p ∈ fs2 := e3.1.subset (hno p hp hb)
          cases hl : g.anyExt a.o a.t fs2 with
          | nil =>
            rw [hl] at hm
            exact absurd ((hm p).2 ⟨hp2, hb⟩) List.not_mem_nil
          | cons q qs =>
            rw [hl] at hm
            have hq := (hm q).1 List.mem_cons_self
            have := hno q ((e2.1.trans e1.1).subset hq.1) hq.2
            unfold warnOrRemove at this
            rw [hl, hf] at this
            simp at this

end

theorem exists_glob : ∃ g : Glob, Spec.GlobSound g := by
  classical
  refine ⟨⟨fun dir stem fs => fs.filter fun p => decide (Spec.BelongsTo dir stem p),
    fun dir stem fs => fs.filter fun p => decide (p = dir ++ "/" ++ stem ++ ".csv")⟩, ?_, ?_⟩
  · intro dir stem fs p; simp
  · intro dir stem fs p; simp

/-- An accepted command line: all files exist. -/
def okArgs : Args := ⟨"p.csv", "o.csv", "c.ini", "out", "pd.db", none, none, none, none, none, none, true, "rubin_sim", "run"⟩

/-- C22 fails with `-f` when the stem has two files (say `run.csv` of one run and `run.db` of another): only one of them is removed, for every
`glob`. -/
theorem C22_force_fails : ∀ g : Glob, Spec.GlobSound g → ∃ (fs : FS) (c : CmdArgs),
    (commandLine (fun _ => true) (fun _ => true) g okArgs fs).1 = .ok c ∧
      ∃ p ∈ (commandLine (fun _ => true) (fun _ => true) g okArgs fs).2, Spec.BelongsTo okArgs.o okArgs.t p := by
  intro g hg
  have hb1 : Spec.BelongsTo okArgs.o okArgs.t "out/run.csv" := ⟨"csv", by decide, rfl⟩
  have hb2 : Spec.BelongsTo okArgs.o okArgs.t "out/run.db" := ⟨"db", by decide, rfl⟩
  have hm : ∀ q, q ∈ g.anyExt okArgs.o okArgs.t ["out/run.csv", "out/run.db"] ↔ q ∈ ["out/run.csv", "out/run.db"] ∧
    Spec.BelongsTo okArgs.o okArgs.t q := hg.anyExt _ _ _
  have hfs : commandLine (fun _ => true) (fun _ => true) g okArgs ["out/run.csv", "out/run.db"] =
      ((warnOrRemove (g.anyExt okArgs.o okArgs.t) okArgs.t true ["out/run.csv", "out/run.db"]).1.map fun _ =>
        ⟨"p.csv", "o.csv", "c.ini", "out", "pd.db", none, none, none, none, "rubin_sim", "run", none, none⟩,
       (warnOrRemove (g.anyExt okArgs.o okArgs.t) okArgs.t true ["out/run.csv", "out/run.db"]).2) := rfl
  refine ⟨["out/run.csv", "out/run.db"], ⟨"p.csv", "o.csv", "c.ini", "out", "pd.db", none, none, none, none, "rubin_sim", "run", none, none⟩, ?_⟩
  rw [hfs]
  unfold warnOrRemove
  cases hl : g.anyExt okArgs.o okArgs.t ["out/run.csv", "out/run.db"] with
  | nil =>
    rw [hl] at hm
    exact absurd ((hm "out/run.csv").2 ⟨by simp, hb1⟩) List.not_mem_nil
  | cons q qs =>
    rw [hl] at hm
    refine ⟨rfl, ?_⟩
    have hq := ((hm q).1 List.mem_cons_self).1
    simp only [List.mem_cons, List.not_mem_nil, or_false] at hq
    rcases hq with rfl | rfl
    · exact ⟨"out/run.db", by simp, hb2⟩
    · exact ⟨"out/run.csv", by simp, hb1⟩

/-- C22 fails for commands that stop: with `-f` an ephemeris file of an earlier run is removed although the command then stops, because the
directory given with `--ar` is looked for later. -/
theorem C22_abort_fails : ∀ g : Glob, Spec.GlobSound g → ∃ (a : Args) (fs : FS) (e : Err),
    (commandLine (fun _ => true) (fun _ => false) g a fs).1 = .error e ∧ (commandLine (fun _ => true) (fun _ => false) g a fs).2 ≠ fs := by
  intro g hg
  have hb1 : Spec.BelongsTo "out" "eph" "out/eph.csv" := ⟨"csv", by decide, rfl⟩
  have hm : ∀ q, q ∈ g.anyExt "out" "eph" ["out/eph.csv"] ↔ q ∈ ["out/eph.csv"] ∧ Spec.BelongsTo "out" "eph" q := hg.anyExt _ _ _
  refine ⟨⟨"p.csv", "o.csv", "c.ini", "out", "pd.db", none, none, some "eph", none, none, some "data", true, "rubin_sim", "run"⟩, ["out/eph.csv"],
    .notFound "-ar, --ar_data_path", ?_⟩
  have hw : warnOptional true (some "eph") (g.anyExt "out") true ["out/eph.csv"] = (.ok (), []) := by
    have hne : (true && "eph".isEmpty) = false := by decide
    unfold warnOptional warnOrRemove
    simp only [hne, Bool.false_eq_true, if_false]
    cases hl : g.anyExt "out" "eph" ["out/eph.csv"] with
    | nil =>
      rw [hl] at hm
      exact absurd ((hm "out/eph.csv").2 ⟨by simp, hb1⟩) List.not_mem_nil
    | cons q qs =>
      rw [hl] at hm
      have hq := ((hm q).1 List.mem_cons_self).1
      simp only [List.mem_cons, List.not_mem_nil, or_false] at hq
      subst hq
      simp
  unfold commandLine
  have hi : findInputs (fun _ => true) ⟨"p.csv", "o.csv", "c.ini", "out", "pd.db", none, none, some "eph", none, none, some "data", true, "rubin_sim",
    "run"⟩ = .ok (none, none) := rfl
  rw [hi]
  simp only [checkOutputs, hw]
  refine ⟨rfl, ?_⟩
  intro h
  have h' : ([] : FS) = ["out/eph.csv"] := h
  exact absurd h' (by decide)

/-- The hypotheses of the `-f` theorems are met by one existing file, for every sound `glob`. -/
example (g : Glob) (hg : Spec.GlobSound g) : ∃ c, (commandLine (fun _ => true) (fun _ => true) g okArgs ["out/run.csv", "other"]).1 = .ok c := by
  have hfs : commandLine (fun _ => true) (fun _ => true) g okArgs ["out/run.csv", "other"] =
      ((warnOrRemove (g.anyExt okArgs.o okArgs.t) okArgs.t true ["out/run.csv", "other"]).1.map fun _ =>
        ⟨"p.csv", "o.csv", "c.ini", "out", "pd.db", none, none, none, none, "rubin_sim", "run", none, none⟩,
       (warnOrRemove (g.anyExt okArgs.o okArgs.t) okArgs.t true ["out/run.csv", "other"]).2) := rfl
  rw [hfs]
  unfold warnOrRemove
  cases g.anyExt okArgs.o okArgs.t ["out/run.csv", "other"] with
  | nil => exact ⟨_, rfl⟩
  | cons q qs => exact ⟨_, rfl⟩

/-- Without `-f` the command is accepted in an empty directory. -/
example (g : Glob) (hg : Spec.GlobSound g) : ∃ c, (commandLine (fun _ => true) (fun _ => true) g { okArgs with f := false } []).1 = .ok c := by
  have h : g.anyExt "out" "run" [] = [] := by
    cases hl : g.anyExt "out" "run" [] with
    | nil => rfl
    | cons q qs =>
      have := (hg.anyExt "out" "run" [] q).1 (by rw [hl]; exact List.mem_cons_self)
      exact absurd this.1 List.not_mem_nil
  have hfs : commandLine (fun _ => true) (fun _ => true) g { okArgs with f := false } [] =
      ((warnOrRemove (g.anyExt "out" "run") "run" false []).1.map fun _ =>
        ⟨"p.csv", "o.csv", "c.ini", "out", "pd.db", none, none, none, none, "rubin_sim", "run", none, none⟩,
       (warnOrRemove (g.anyExt "out" "run") "run" false []).2) := rfl
  rw [hfs]
  unfold warnOrRemove
  rw [h]
  exact ⟨_, rfl⟩

/-! ## C58: what a run needs -/

theorem needComplex_ok {m cp : Option String} (h : needComplex m cp = .ok ()) : ∀ x, m = some x → x ≠ "" → cp ≠ none := by
  intro x hx hne
  subst hx
  unfold needComplex at h
  cases cp with
  | none =>
    by_cases he : x.isEmpty
    · exact absurd (by simpa using he) hne
    · simp [he] at h
  | some c => simp

theorem validate_ok {isFile isDir : String → Bool} {a : CmdArgs} (h : validateArguments isFile isDir a = .ok ()) :
    isFile a.paramsinput = true ∧ isFile a.orbinfile = true ∧ isFile a.configfile = true ∧ isFile a.pointingDatabase = true ∧
    (∀ e, a.inputEphemerisFile = some e → e ≠ "" → isFile e = true) ∧ (∀ e, a.arDataPath = some e → e ≠ "" → isDir e = true) := by
  unfold validateArguments at h
  split at h
  · simp at h
  split at h
  · simp at h
  split at h
  · simp at h
  split at h
  · simp at h
  split at h
  · simp at h
  split at h
  · simp at h
  rename_i h1 h2 h3 h4 h5 h6
  refine ⟨by simpa using h1, by simpa using h2, by simpa using h4, by simpa using h5, ?_, ?_⟩
  · intro e he hne
    rw [he] at h3
    simpa [hne] using h3
  · intro e he hne
    rw [he] at h6
    simpa [hne] using h6

/-- C58: a simulation starts only when what it needs is there: the parameter, orbit, configuration and pointing files exist; external ephemerides
come with a file; a light-curve or activity model comes with complex parameters; a visits database is given exactly when the configuration has a
query for it, and only for the visit-specific footprint; the survey is Rubin or DES. -/
theorem C58_start {isFile isDir : String → Bool} {cfg : RunConfig} {a : CmdArgs} {s : Start} (h : execute isFile isDir cfg a = .ok s) :
    (isFile a.paramsinput = true ∧ isFile a.orbinfile = true ∧ isFile a.configfile = true ∧ isFile a.pointingDatabase = true) ∧
    (cfg.ephemeridesType = "external" → ∃ e, a.inputEphemerisFile = some e ∧ (e ≠ "" → isFile e = true)) ∧
    (∀ m, cfg.lcModel = some m → m ≠ "" → a.complexParams ≠ none) ∧ (∀ m, cfg.cometActivity = some m → m ≠ "" → a.complexParams ≠ none) ∧
    (a.visitsDatabase ≠ none ↔ cfg.visitsQuery ≠ none) ∧ (a.visitsDatabase ≠ none → cfg.cameraModel = "visits_footprint") ∧
    ((s = .rubin ∧ (a.surveyname = "rubin_sim" ∨ a.surveyname = "RUBIN_SIM")) ∨ (s = .des ∧ (a.surveyname = "DES" ∨ a.surveyname = "des"))) := by
  unfold execute at h
  simp only [bind, Except.bind, pure, Except.pure] at h
  by_cases c1 : cfg.ephemeridesType = "external" ∧ a.inputEphemerisFile = none
  · simp [c1] at h
  simp only [c1, if_false] at h
  cases h2 : needComplex cfg.lcModel a.complexParams with
  | error e => simp [h2] at h
  | ok u =>
  cases h3 : needComplex cfg.cometActivity a.complexParams with
  | error e => simp [h2, h3] at h
  | ok u =>
  simp only [h2, h3] at h
  by_cases c4 : cfg.cameraModel ≠ "visits_footprint" ∧ a.visitsDatabase ≠ none
  · simp [c4] at h
  simp only [c4, if_false] at h
  by_cases c5 : (a.visitsDatabase ≠ none ∧ cfg.visitsQuery = none) ∨ (a.visitsDatabase = none ∧ cfg.visitsQuery ≠ none)
  · simp [c5] at h
  simp only [c5, if_false] at h
  have hv : validateArguments isFile isDir a = .ok () ∧
      ((s = .rubin ∧ (a.surveyname = "rubin_sim" ∨ a.surveyname = "RUBIN_SIM")) ∨ (s = .des ∧ (a.surveyname = "DES" ∨ a.surveyname = "des"))) := by
    cases hval : validateArguments isFile isDir a with
    | error e =>
      rw [hval] at h
      simp only at h
      split_ifs at h
    | ok u =>
      rw [hval] at h
      simp only at h
      by_cases d1 : a.surveyname = "rubin_sim" ∨ a.surveyname = "RUBIN_SIM"
      · rw [if_pos d1] at h
        exact ⟨rfl, Or.inl ⟨(Except.ok.inj h).symm, d1⟩⟩
      · rw [if_neg d1] at h
        by_cases d2 : a.surveyname = "LSST" ∨ a.surveyname = "lsst"
        · rw [if_pos d2] at h; simp at h
        · rw [if_neg d2] at h
          by_cases d3 : a.surveyname = "DES" ∨ a.surveyname = "des"
          · rw [if_pos d3] at h
            exact ⟨rfl, Or.inr ⟨(Except.ok.inj h).symm, d3⟩⟩
          · rw [if_neg d3] at h; simp at h
  obtain ⟨v1, v2, v3, v4, v5, v6⟩ := validate_ok hv.1
  refine ⟨⟨v1, v2, v3, v4⟩, ?_, needComplex_ok h2, needComplex_ok h3, ?_, ?_, hv.2⟩
  · intro he
    cases hie : a.inputEphemerisFile with
    | none => exact absurd ⟨he, hie⟩ c1
    | some e => exact ⟨e, rfl, fun hne => v5 e hie hne⟩
  · push Not at c5
    exact ⟨fun h => c5.1 h, fun h hn => h (c5.2 hn)⟩
  · intro hd
    by_contra hc
    exact c4 ⟨hc, hd⟩

/-- C58 (the arguments handed on): what the command line is accepted with exists, and every argument reaches the run under its own name. -/
theorem C58_arguments {exist isDir : String → Bool} {g : Glob} {a : Args} {fs : FS} {c : CmdArgs}
    (h : (commandLine exist isDir g a fs).1 = .ok c) :
    (∀ p, p = a.p ∨ p = a.ob ∨ p = a.c ∨ p = a.o ∨ p = a.pd ∨ (a.cp = some p ∧ p ≠ "") ∨ a.vd = some p → exist p = true) ∧
    (∀ p, a.ar = some p → p ≠ "" → isDir p = true) ∧
    c.paramsinput = a.p ∧ c.orbinfile = a.ob ∧ c.configfile = a.c ∧ c.outpath = a.o ∧ c.pointingDatabase = a.pd ∧
    c.complexParams = a.cp.filter (· ≠ "") ∧ c.visitsDatabase = a.vd ∧ c.inputEphemerisFile = a.er ∧ c.outputEphemerisFile = a.ew ∧
    c.surveyname = a.s ∧ c.outfilestem = a.t ∧ c.stats = a.st ∧ c.arDataPath = a.ar := by
  have hff : ∀ {q arg : String} {r}, findFile exist q arg = .ok r → exist q = true := by
    intro q arg r h
    unfold findFile at h
    split_ifs at h with h'
    exact h'
  unfold commandLine at h
  cases hi : findInputs exist a with
  | error e => rw [hi] at h; simp at h
  | ok cv =>
    obtain ⟨cp, vd⟩ := cv
    rw [hi] at h
    simp only at h
    unfold findInputs at hi
    simp only [bind, Except.bind, pure, Except.pure] at hi
    cases h1 : findFile exist a.p "-p, --params" with
    | error e => rw [h1] at hi; simp at hi
    | ok r1 =>
    cases h2 : findFile exist a.ob "-ob, --orbit" with
    | error e => rw [h1, h2] at hi; simp at hi
    | ok r2 =>
    cases h3 : findFile exist a.c "-c, --config" with
    | error e => rw [h1, h2, h3] at hi; simp at hi
    | ok r3 =>
    cases h4 : findFile exist a.o "-o, --outfile" with
    | error e => rw [h1, h2, h3, h4] at hi; simp at hi
    | ok r4 =>
    cases h5 : findFile exist a.pd "-pd, --pointing_database" with
    | error e => rw [h1, h2, h3, h4, h5] at hi; simp at hi
    | ok r5 =>
    rw [h1, h2, h3, h4, h5] at hi
    simp only at hi
    cases h6 : findOptional exist true a.cp "-cp, --complex_physical_parameters" with
    | error e => rw [h6] at hi; simp at hi
    | ok r6 =>
    cases h7 : findOptional exist false a.vd "-vd, --visits-db" with
    | error e => rw [h6, h7] at hi; simp at hi
    | ok r7 =>
    rw [h6, h7] at hi
    simp only [Except.ok.injEq, Prod.mk.injEq] at hi
    obtain ⟨rfl, rfl⟩ := hi
    have hopt : ∀ {ex : String → Bool} {sk : Bool} {o : Option String} {arg : String} {r}, findOptional ex sk o arg = .ok r →
        r = o.filter (fun q => !(sk && q.isEmpty)) ∧ ∀ q, o = some q → (sk && q.isEmpty) = false → ex q = true := by
      intro ex sk o arg r h
      unfold findOptional at h
      cases o with
      | none => exact ⟨by simpa using (Except.ok.inj h).symm, fun q hq => by simp at hq⟩
      | some q =>
        simp only at h
        by_cases hc : (sk && q.isEmpty) = true
        · rw [if_pos hc] at h
          refine ⟨by rw [← Except.ok.inj h, Option.filter_some, hc]; rfl, fun q' hq' hn => ?_⟩
          rw [← Option.some.inj hq', hc] at hn
          simp at hn
        · rw [if_neg hc] at h
          unfold findFile at h
          split_ifs at h with h'
          swap
          · simp [Except.map] at h
          refine ⟨?_, fun q' hq' _ => by rw [← Option.some.inj hq']; exact h'⟩
          have : some q = r := Except.ok.inj h
          rw [← this, Option.filter_some, if_pos (by rw [Bool.not_eq_true'] ; simpa only [Bool.not_eq_true] using hc)]
    obtain ⟨e6, x6⟩ := hopt h6
    obtain ⟨e7, x7⟩ := hopt h7
    cases ho : (checkOutputs isDir g a fs).1 with
    | error e => rw [ho] at h; simp [Except.map] at h
    | ok u =>
    rw [ho] at h
    have hc := Except.ok.inj h
    refine ⟨?_, ?_, ?_⟩
    · rintro p (rfl | rfl | rfl | rfl | rfl | ⟨hp, hne⟩ | hp)
      · exact hff h1
      · exact hff h2
      · exact hff h3
      · exact hff h4
      · exact hff h5
      · exact x6 p hp (by simpa using hne)
      · exact x7 p hp rfl
    · intro p hp hne
      unfold checkOutputs andThen at ho
      split at ho
      · simp only at ho
        split at ho
        · cases h8 : findOptional isDir true a.ar "-ar, --ar_data_path" with
          | error e => rw [h8] at ho; simp [Except.map] at ho
          | ok r8 => exact (hopt h8).2 p hp (by simpa using hne)
        · simp at ho
      · simp at ho
    · subst hc
      refine ⟨rfl, rfl, rfl, rfl, rfl, ?_, ?_, rfl, rfl, rfl, rfl, rfl, rfl⟩
      · simp only
        rw [e6]
        cases a.cp with
        | none => rfl
        | some q => simp [Option.filter_some]
      · simp only
        rw [e7]
        cases a.vd with
        | none => rfl
        | some q => simp [Option.filter_some]

example : execute (fun _ => true) (fun _ => true) ⟨"ar", none, none, "visits_footprint", some "SELECT *"⟩
    ⟨"p", "o", "c", "out", "pd", none, none, none, some "v.db", "DES", "t", none, none⟩ = .ok .des := by decide

/-- C58 (the other direction): when all of it is there, the simulation starts. -/
theorem C58_starts {isFile isDir : String → Bool} {cfg : RunConfig} {a : CmdArgs}
    (hf : ∀ p, p = a.paramsinput ∨ p = a.orbinfile ∨ p = a.configfile ∨ p = a.pointingDatabase ∨ a.inputEphemerisFile = some p → isFile p = true)
    (har : ∀ p, a.arDataPath = some p → isDir p = true) (he : cfg.ephemeridesType = "external" → a.inputEphemerisFile ≠ none)
    (hc : a.complexParams ≠ none ∨ cfg.lcModel = none ∧ cfg.cometActivity = none) (hv : a.visitsDatabase ≠ none ↔ cfg.visitsQuery ≠ none)
    (hm : a.visitsDatabase ≠ none → cfg.cameraModel = "visits_footprint") (hs : a.surveyname = "rubin_sim") :
    execute isFile isDir cfg a = .ok .rubin := by
  have hval : validateArguments isFile isDir a = .ok () := by
    unfold validateArguments
    rw [hf a.paramsinput (by simp), hf a.orbinfile (by simp), hf a.configfile (by simp), hf a.pointingDatabase (by simp)]
    have h1 : a.inputEphemerisFile.any (fun e => !e.isEmpty && !isFile e) = false := by
      cases h : a.inputEphemerisFile with
      | none => rfl
      | some e => simp [hf e (by simp [h])]
    have h2 : a.arDataPath.any (fun e => !e.isEmpty && !isDir e) = false := by
      cases h : a.arDataPath with
      | none => rfl
      | some e => simp [har e h]
    simp [h1, h2]
  have hn : ∀ m, (m = cfg.lcModel ∨ m = cfg.cometActivity) → needComplex m a.complexParams = .ok () := by
    intro m hm'
    unfold needComplex
    cases m with
    | none => rfl
    | some x =>
      rcases hc with h | ⟨h1, h2⟩
      · cases hcp : a.complexParams with
        | none => exact absurd hcp h
        | some c => simp
      · rcases hm' with h | h
        · rw [h1] at h; simp at h
        · rw [h2] at h; simp at h
  unfold execute
  simp only [bind, Except.bind, pure, Except.pure]
  rw [if_neg (fun h => he h.1 h.2)]
  rw [hn _ (Or.inl rfl), hn _ (Or.inr rfl)]
  simp only
  rw [if_neg (fun h => h.1 (hm h.2))]
  rw [if_neg (by
    rintro (⟨h1, h2⟩ | ⟨h1, h2⟩)
    · exact (hv.1 h1) h2
    · exact (hv.2 h2) h1)]
  rw [if_pos (Or.inl hs), hval]

/-- C58 fails for the message: a light-curve model without complex parameters stops with an uncaught `KeyError`, not with the intended message. -/
theorem C58_message_fails : ∃ (cfg : RunConfig) (a : CmdArgs), cfg.lcModel = some "sinusoidal" ∧ a.complexParams = none ∧
    execute (fun _ => true) (fun _ => true) cfg a = .error .keyError :=
  ⟨⟨"ar", some "sinusoidal", none, "circle", none⟩, ⟨"p", "o", "c", "out", "pd", none, none, none, none, "rubin_sim", "t", none, none⟩, rfl, rfl,
    by decide⟩

/-! ## C42: one results database -/

section
variable {V : Type}

theorem insertAll_ok (content : String → Option (Tab V)) (n : ℕ) (rows : String → List (List V)) (l : List String)
    (h : ∀ f ∈ l, ∃ cols, content f = some ⟨cols, rows f⟩ ∧ ∀ r ∈ rows f, r.length = n) : insertAll content n l = .ok (l.flatMap rows) := by
  induction l with
  | nil => rfl
  | cons f l ih =>
    obtain ⟨cols, hc, hr⟩ := h f List.mem_cons_self
    unfold insertAll
    rw [hc]
    simp only
    rw [if_pos (by rw [List.all_eq_true]; intro r hr'; simpa using hr r hr'), ih (fun f' hf' => h f' (List.mem_cons_of_mem _ hf'))]
    rfl

/-- C42: when all result databases found have a table with the same columns, the new table has these columns and exactly the rows of the databases
found, each once, in the order they were found; the new database itself, if it was found, contributes nothing. Required: the new database
is not the first one found. -/
theorem C42_rows (content : String → Option (Tab V)) (first : String) (rest : List String) (inputs out : String) (cols : List String)
    (rows : String → List (List V)) (hin : inputs ∉ first :: rest) (hfirst : first ≠ out)
    (hc : ∀ f ∈ first :: rest, f ≠ out → content f = some ⟨cols, rows f⟩ ∧ ∀ r ∈ rows f, r.length = cols.length) :
    createResults content (first :: rest) inputs out = .ok ⟨cols, ((first :: rest).filter (· ≠ out)).flatMap rows⟩ := by
  unfold createResults
  rw [List.erase_of_not_mem hin]
  simp only
  rw [(hc first List.mem_cons_self hfirst).1]
  simp only
  have := insertAll_ok (fun f => if f = out then some ⟨cols, []⟩ else content f) cols.length (fun f => if f = out then [] else rows f)
    (first :: rest) (by
      intro f hf
      by_cases h : f = out
      · exact ⟨cols, by simp [h], by simp [h]⟩
      · obtain ⟨h1, h2⟩ := hc f hf h
        exact ⟨cols, by simp [h, h1], by simpa [h] using h2⟩)
  rw [this]
  have hfl : ∀ l : List String, l.flatMap (fun f => if f = out then [] else rows f) = (l.filter (· ≠ out)).flatMap rows := by
    intro l
    induction l with
    | nil => rfl
    | cons f l ih =>
      rw [List.flatMap_cons, ih, List.filter_cons]
      by_cases h : f = out <;> simp [h]
  rw [hfl]
  rfl

example : createResults (fun f => if f = "a.db" then some ⟨["ObjID", "RA"], [["x", "1"], ["x", "2"]]⟩ else if f = "b.db" then
    some ⟨["ObjID", "RA"], [["y", "3"]]⟩ else none) ["a.db", "all.db", "b.db"] "/inputs" "all.db" =
    .ok ⟨["ObjID", "RA"], [["x", "1"], ["x", "2"], ["y", "3"]]⟩ := by decide

/-- C42: a database with a different number of columns is never added: the command stops. -/
theorem C42_mixed (content : String → Option (Tab V)) (first : String) (rest : List String) (inputs out : String) (t : Tab V)
    (hin : inputs ∉ first :: rest) (ht : content first = some t) (f : String) (hf : f ∈ first :: rest) (hfo : f ≠ out) (u : Tab V)
    (hu : content f = some u) (r : List V) (hr : r ∈ u.rows) (hlen : r.length ≠ t.columns.length) :
    ∃ e, createResults content (first :: rest) inputs out = .error e := by
  unfold createResults
  rw [List.erase_of_not_mem hin]
  simp only
  rw [ht]
  simp only
  have : ∀ l : List String, f ∈ l → ∃ e, insertAll (fun f => if f = out then some ⟨t.columns, []⟩ else content f) t.columns.length l = .error e := by
    intro l
    induction l with
    | nil => intro h; exact absurd h List.not_mem_nil
    | cons g l ih =>
      intro h
      unfold insertAll
      cases hg : (if g = out then some ⟨t.columns, []⟩ else content g : Option (Tab V)) with
      | none => exact ⟨_, rfl⟩
      | some v =>
        simp only
        by_cases hall : v.rows.all (fun r => decide (r.length = t.columns.length)) = true
        · rw [if_pos hall]
          rcases List.mem_cons.1 h with rfl | h
          · rw [if_neg hfo, hu] at hg
            rw [← Option.some.inj hg, List.all_eq_true] at hall
            exact absurd (by simpa using hall r hr) hlen
          · obtain ⟨e, he⟩ := ih h
            rw [he]
            exact ⟨e, rfl⟩
        · rw [if_neg hall]
          exact ⟨_, rfl⟩
  obtain ⟨e, he⟩ := this _ hf
  rw [he]
  exact ⟨e, rfl⟩

/-- C42 fails when the new database is the first file found (it lies in the results directory and matches the stem): the command stops, because
the path that is excluded from the search is that of the inputs directory. -/
theorem C42_output_first_fails : ∃ (content : String → Option (Tab String)) (found : List String),
    content "res/run1.db" = some ⟨["ObjID"], [["x"]]⟩ ∧ found.Perm ["res/all.db", "res/run1.db"] ∧
      createResults content found "inputs" "res/all.db" = .error .noTable :=
  ⟨fun f => if f = "res/run1.db" then some ⟨["ObjID"], [["x"]]⟩ else none, ["res/all.db", "res/run1.db"], by decide, List.Perm.refl _, by decide⟩

/-- C42 fails when the new database is left from an earlier call and found first: its old column names are used. -/
theorem C42_stale_columns_fails : ∃ (content : String → Option (Tab String)),
    content "res/run1.db" = some ⟨["ObjID", "Dec"], [["x", "5"]]⟩ ∧
      createResults content ["res/all.db", "res/run1.db"] "inputs" "res/all.db" = .ok ⟨["ObjID", "RA"], [["x", "5"]]⟩ :=
  ⟨fun f => if f = "res/run1.db" then some ⟨["ObjID", "Dec"], [["x", "5"]]⟩ else some ⟨["ObjID", "RA"], [["x", "4"]]⟩, by decide, by decide⟩

/-- C42 fails for databases with the same columns in another order: values are stored under the wrong names, since rows are inserted by
position. Here no row of the result has the object `y`. -/
theorem C42_column_order_fails : ∃ (content : String → Option (Tab String)) (t : Tab String),
    content "b.db" = some ⟨["RA", "ObjID"], [["3", "y"]]⟩ ∧ createResults content ["a.db", "b.db"] "inputs" "all.db" = .ok t ∧
      t.columns = ["ObjID", "RA"] ∧ ∀ r ∈ t.rows, r[0]? ≠ some "y" :=
  ⟨fun f => if f = "a.db" then some ⟨["ObjID", "RA"], [["x", "1"]]⟩ else some ⟨["RA", "ObjID"], [["3", "y"]]⟩,
    ⟨["ObjID", "RA"], [["x", "1"], ["3", "y"]]⟩, by decide, by decide, rfl, by decide⟩

end

/-! ## C43: checking logs -/

theorem splitGo_line (br : Char → Bool) (hn : br '\n' = true) (l : List Char) (hl : ∀ c ∈ l, br c = false) (acc rest : List Char) :
    splitGo br acc (l ++ '\n' :: rest) = (acc.reverse ++ l) :: splitGo br [] rest := by
  induction l generalizing acc with
  | nil => simp [splitGo, hn]
  | cons c l ih =>
    rw [List.cons_append]
    rw [splitGo.eq_2, hl c List.mem_cons_self]
    simp only [Bool.false_eq_true, if_false]
    rw [ih (fun d hd => hl d (List.mem_cons_of_mem _ hd))]
    simp

theorem splitGo_part (br : Char → Bool) (l : List Char) (hl : ∀ c ∈ l, br c = false) (acc : List Char) :
    splitGo br acc l = if acc.isEmpty ∧ l = [] then [] else [acc.reverse ++ l] := by
  induction l generalizing acc with
  | nil => cases acc <;> simp [splitGo]
  | cons c l ih =>
    unfold splitGo
    rw [hl c List.mem_cons_self]
    simp only [Bool.false_eq_true, if_false]
    rw [ih (fun d hd => hl d (List.mem_cons_of_mem _ hd))]
    simp

theorem splitlines_log (br : Char → Bool) (hn : br '\n' = true) (lines : List (List Char)) (part : List Char)
    (hl : ∀ l ∈ lines, ∀ c ∈ l, br c = false) (hp : ∀ c ∈ part, br c = false) :
    splitlines br (Spec.logText lines part) = lines ++ (if part = [] then [] else [part]) := by
  unfold splitlines Spec.logText
  induction lines with
  | nil =>
    rw [List.flatMap_nil, List.nil_append, splitGo_part br part hp]
    by_cases h : part = [] <;> simp [h]
  | cons l lines ih =>
    rw [List.flatMap_cons, List.append_assoc, List.append_assoc, List.singleton_append,
      splitGo_line br hn l (hl l List.mem_cons_self), ih (fun l' hl' => hl l' (List.mem_cons_of_mem _ hl'))]
    simp

theorem drop_iff (l : List Char) : l.drop (l.length - 29) = completion ↔ "Sorcha process is completed. ".toList <:+ l := by
  unfold completion
  rw [List.suffix_iff_eq_drop]
  have : "Sorcha process is completed. ".toList.length = 29 := by decide
  rw [this]
  exact eq_comm

/-- C43 (a finished log): the run is reported as successful exactly when the last line of its log ends with the completion message; otherwise
that line is reported. -/
theorem C43_last_line (br : Char → Bool) (hn : br '\n' = true) (lines : List (List Char)) (l : List Char)
    (hl : ∀ m ∈ lines ++ [l], ∀ c ∈ m, br c = false) :
    ("Sorcha process is completed. ".toList <:+ l → checkLog br (Spec.logText (lines ++ [l]) []) = .ok (true, " ".toList)) ∧
    (¬ "Sorcha process is completed. ".toList <:+ l → checkLog br (Spec.logText (lines ++ [l]) []) = .ok (false, l)) := by
  have hs : splitlines br (Spec.logText (lines ++ [l]) []) = lines ++ [l] := by
    rw [splitlines_log br hn _ _ hl (by simp)]; simp
  unfold checkLog
  rw [hs, List.getLast?_append]
  simp only [List.getLast?_singleton, Option.some_or]
  constructor
  · intro h
    rw [if_pos ((drop_iff l).2 h)]
    rfl
  · intro h
    rw [if_neg (fun h' => h ((drop_iff l).1 h'))]

/-- C43 (an unfinished last line): the unfinished line decides. -/
theorem C43_unfinished (br : Char → Bool) (hn : br '\n' = true) (lines : List (List Char)) (part : List Char) (hne : part ≠ [])
    (hl : ∀ m ∈ lines, ∀ c ∈ m, br c = false) (hp : ∀ c ∈ part, br c = false)
    (h : ¬ "Sorcha process is completed. ".toList <:+ part) : checkLog br (Spec.logText lines part) = .ok (false, part) := by
  unfold checkLog
  rw [splitlines_log br hn _ _ hl hp, if_neg hne, List.getLast?_append]
  simp only [List.getLast?_singleton, Option.some_or]
  rw [if_neg (fun h' => h ((drop_iff part).1 h'))]

theorem splitGo_last (br : Char → Bool) (s acc l : List Char) (h : (splitGo br acc s).getLast? = some l) :
    ∃ a t, acc.reverse ++ s = a ++ l ++ t ∧ (t = [] ∨ ∃ c, br c = true ∧ t = [c]) := by
  induction s generalizing acc with
  | nil =>
    unfold splitGo at h
    cases acc with
    | nil => simp at h
    | cons c acc =>
      simp only [List.isEmpty_cons, Bool.false_eq_true, if_false, List.getLast?_singleton, Option.some.injEq] at h
      exact ⟨[], [], by rw [← h]; simp, Or.inl rfl⟩
  | cons c s ih =>
    unfold splitGo at h
    by_cases hb : br c = true
    · rw [if_pos hb] at h
      cases hr : splitGo br [] s with
      | nil =>
        rw [hr] at h
        simp only [List.getLast?_singleton, Option.some.injEq] at h
        have hs : s = [] := by
          cases s with
          | nil => rfl
          | cons d s =>
            exfalso
            have hne : ∀ (s acc : List Char), acc ≠ [] → splitGo br acc s ≠ [] := by
              intro s
              induction s with
              | nil => intro acc ha; unfold splitGo; cases acc <;> simp_all
              | cons e s ihs =>
                intro acc ha
                unfold splitGo
                by_cases he : br e = true
                · rw [if_pos he]; simp
                · rw [if_neg he]; exact ihs _ (by simp)
            unfold splitGo at hr
            by_cases hd : br d = true
            · rw [if_pos hd] at hr; simp at hr
            · rw [if_neg hd] at hr; exact hne s [d] (by simp) hr
        exact ⟨[], [c], by rw [hs, ← h]; simp, Or.inr ⟨c, hb, rfl⟩⟩
      | cons x xs =>
        rw [hr] at h
        rw [List.getLast?_cons_cons] at h
        rw [← hr] at h
        obtain ⟨a, t, h1, h2⟩ := ih [] h
        refine ⟨acc.reverse ++ [c] ++ a, t, ?_, h2⟩
        simp only [List.reverse_nil, List.nil_append] at h1
        rw [h1]; simp
    · rw [if_neg hb] at h
      obtain ⟨a, t, h1, h2⟩ := ih (c :: acc) h
      refine ⟨a, t, ?_, h2⟩
      rw [← h1]; simp

theorem splitlines_ne (br : Char → Bool) (s : List Char) (hs : s ≠ []) : ∃ l, (splitlines br s).getLast? = some l := by
  have hne : ∀ (s acc : List Char), (acc ≠ [] ∨ s ≠ []) → splitGo br acc s ≠ [] := by
    intro s
    induction s with
    | nil => intro acc ha; unfold splitGo; cases acc <;> simp_all
    | cons e s ihs =>
      intro acc ha
      unfold splitGo
      by_cases he : br e = true
      · rw [if_pos he]; simp
      · rw [if_neg he]; exact ihs _ (Or.inl (by simp))
  have h := hne s [] (Or.inr hs)
  exact ⟨_, List.getLast?_eq_some_getLast h⟩

/-- C43 (every crash point): a log that has the completion message only at its very end, cut off anywhere before that message is complete, is not
reported as successful, however far the run got, and even if it stopped in the middle of a line. -/
theorem C43_killed (br : Char → Bool) (full : List Char)
    (honly : ∀ a b, full = a ++ "Sorcha process is completed. ".toList ++ b → b = ['\n'])
    (written lost : List Char) (hcut : full = written ++ lost) (hlost : lost ≠ []) (hlost' : lost ≠ ['\n']) (hw : written ≠ []) :
    ∃ l, checkLog br written = .ok (false, l) := by
  obtain ⟨l, hl⟩ := splitlines_ne br written hw
  unfold checkLog
  rw [hl]
  simp only
  rw [if_neg]
  · exact ⟨l, rfl⟩
  intro h
  obtain ⟨pre, hpre⟩ := (drop_iff l).1 h
  obtain ⟨a, t, h1, h2⟩ := splitGo_last br written [] l hl
  simp only [List.reverse_nil, List.nil_append] at h1
  have := honly (a ++ pre) (t ++ lost) (by rw [hcut, h1, ← hpre]; simp)
  rcases h2 with rfl | ⟨c, -, rfl⟩
  · exact hlost' (by simpa using this)
  · simp only [List.singleton_append, List.cons.injEq] at this
    exact hlost this.2

/-- The hypothesis about the completion message can be met. -/
example : ∃ full : List Char, full = "start \nSorcha process is completed. \n".toList ∧
    ∀ a b, full = a ++ "Sorcha process is completed. ".toList ++ b → b = ['\n'] := by
  refine ⟨_, rfl, ?_⟩
  intro a b h
  have hlen := congrArg List.length h
  have hl : ("start \nSorcha process is completed. \n".toList).length = 37 := by decide
  have hm : ("Sorcha process is completed. ".toList).length = 29 := by decide
  rw [List.length_append, List.length_append, hl, hm] at hlen
  have hd : ("start \nSorcha process is completed. \n".toList).drop (a.length + 29) = b := by
    rw [h, ← hm, ← List.length_append, List.drop_left]
  have ht : (("start \nSorcha process is completed. \n".toList).drop a.length).take 29 = "Sorcha process is completed. ".toList := by
    rw [h, List.append_assoc, List.drop_left, ← hm, List.take_left]
  have ha : a.length ≤ 8 := by omega
  rw [← hd]
  generalize a.length = n at ha ht hd ⊢
  revert ht
  have : ∀ m : Fin 9, (("start \nSorcha process is completed. \n".toList).drop m.1).take 29 = "Sorcha process is completed. ".toList →
    ("start \nSorcha process is completed. \n".toList).drop (m.1 + 29) = ['\n'] := by decide
  exact this ⟨n, by omega⟩

/-- C43 (all logs): the report has one entry per log, in order. -/
theorem C43_all (br : Char → Bool) (logs : List (List Char)) (out : List (Bool × List Char)) (h : checkAllLogs br logs = .ok out) :
    List.Forall₂ (fun log r => checkLog br log = .ok r) logs out := by
  unfold checkAllLogs at h
  induction logs generalizing out with
  | nil =>
    rw [List.mapM_nil] at h
    rw [← Except.ok.inj h]
    exact List.Forall₂.nil
  | cons l logs ih =>
    rw [List.mapM_cons] at h
    simp only [bind, Except.bind, pure, Except.pure] at h
    cases hl : checkLog br l with
    | error e => rw [hl] at h; simp at h
    | ok r =>
      rw [hl] at h
      simp only at h
      cases hr : List.mapM (checkLog br) logs with
      | error e => rw [hr] at h; simp at h
      | ok rs =>
        rw [hr] at h
        rw [← Except.ok.inj h]
        exact List.Forall₂.cons hl (ih rs hr)

/-- C43 fails for an empty log, as a run leaves it that is killed at once: the whole check stops with an uncaught error, whatever the other logs
are. -/
theorem C43_empty_fails (br : Char → Bool) (before after : List (List Char)) (hb : ∀ l ∈ before, l ≠ []) :
    checkAllLogs br (before ++ [] :: after) = .error .emptyLog := by
  unfold checkAllLogs
  induction before with
  | nil => rw [List.nil_append, List.mapM_cons]; rfl
  | cons l before ih =>
    rw [List.cons_append, List.mapM_cons]
    simp only [bind, Except.bind]
    obtain ⟨m, hm⟩ := splitlines_ne br l (hb l List.mem_cons_self)
    have : ∃ r, checkLog br l = .ok r := by
      unfold checkLog
      rw [hm]
      simp only
      split_ifs
      · exact ⟨_, rfl⟩
      · exact ⟨_, rfl⟩
    obtain ⟨r, hr⟩ := this
    rw [hr]
    simp only
    rw [ih (fun l' hl' => hb l' (List.mem_cons_of_mem _ hl'))]

/-! ## C44: the meta-kernel -/

theorem continued_snoc (ps : List (List Char)) (x y : List Char) :
    Spec.continued (ps ++ [x ++ continuation ++ y]) = Spec.continued (ps ++ [x, y]) := by
  induction ps with
  | nil => simp [Spec.continued, continuation]
  | cons p ps ih =>
    cases ps with
    | nil => simp [Spec.continued, continuation]
    | cons q qs =>
      simp only [List.cons_append, Spec.continued] at ih ⊢
      rw [ih]

/-- The first `n` pieces of length `k`. -/
def chunks (k n : ℕ) (s : List Char) : List (List Char) := (List.range n).map fun i => (s.drop (k * i)).take k

theorem splitLoop_eq (k n : ℕ) (s : List Char) (h : k * n ≤ s.length) :
    splitLoop k n s = Spec.continued (chunks k n s ++ [s.drop (k * n)]) := by
  induction n generalizing s with
  | zero => simp [splitLoop, chunks, Spec.continued]
  | succ n ih =>
    unfold splitLoop
    have hk : k * n ≤ k * (n + 1) := Nat.mul_le_mul_left k (Nat.le_succ n)
    have htl : (s.take (k * (n + 1))).length = k * (n + 1) := by rw [List.length_take]; omega
    rw [ih _ (by rw [List.append_assoc, List.length_append, htl]; omega)]
    have h1 : chunks k n (s.take (k * (n + 1)) ++ continuation ++ s.drop (k * (n + 1))) = chunks k n s := by
      unfold chunks
      apply List.map_congr_left
      intro i hi
      rw [List.mem_range] at hi
      have hki : k * i + k ≤ k * (n + 1) := by
        have : k * (i + 1) ≤ k * (n + 1) := Nat.mul_le_mul_left k (by omega)
        rw [Nat.mul_succ] at this
        omega
      rw [List.append_assoc, List.drop_append_of_le_length (by rw [htl]; omega),
        List.take_append_of_le_length (by rw [List.length_drop, htl]; omega), List.drop_take, List.take_take]
      congr 1
      omega
    have h2 : (s.take (k * (n + 1)) ++ continuation ++ s.drop (k * (n + 1))).drop (k * n) =
        (s.drop (k * n)).take k ++ continuation ++ s.drop (k * (n + 1)) := by
      rw [List.append_assoc, List.drop_append_of_le_length (by rw [htl]; omega), List.drop_take]
      have : k * (n + 1) - k * n = k := by rw [Nat.mul_succ]; omega
      rw [this, List.append_assoc]
    rw [h1, h2, continued_snoc]
    congr 1
    unfold chunks
    rw [List.range_succ, List.map_append, List.append_assoc]
    rfl

theorem chunks_flatten (k n : ℕ) (s : List Char) : (chunks k n s).flatten = s.take (k * n) := by
  induction n with
  | zero => simp [chunks]
  | succ n ih =>
    unfold chunks at *
    rw [List.range_succ, List.map_append, List.flatten_append, ih]
    simp only [List.map_cons, List.map_nil, List.flatten_cons, List.flatten_nil, List.append_nil]
    rw [Nat.mul_succ, List.take_add]

/-- C44: the text written is the path cut into pieces of at most the allowed length, joined by the continuation sign; nothing is lost. -/
theorem C44_pieces (split : ℕ) (hs : 0 < split) (path : List Char) : ∃ pieces : List (List Char),
    splitPath split path = Spec.continued pieces ∧ pieces.flatten = path ∧ ∀ p ∈ pieces, p.length ≤ split := by
  have hle : split * (path.length / split) ≤ path.length := Nat.mul_div_le _ _
  refine ⟨chunks split (path.length / split) path ++ [path.drop (split * (path.length / split))], splitLoop_eq _ _ _ hle, ?_, ?_⟩
  · rw [List.flatten_append, chunks_flatten]
    simp
  · intro p hp
    rw [List.mem_append] at hp
    rcases hp with hp | hp
    · unfold chunks at hp
      rw [List.mem_map] at hp
      obtain ⟨i, -, rfl⟩ := hp
      rw [List.length_take]; omega
    · rw [List.mem_singleton] at hp
      rw [hp, List.length_drop]
      have := Nat.mod_lt path.length hs
      have h2 := Nat.div_add_mod path.length split
      omega

theorem readBack_append (p r : List Char) (hp : '\'' ∉ p) : Spec.readBack (p ++ ['+', '\'', ' ', '\''] ++ r) = p ++ Spec.readBack r := by
  induction p with
  | nil => simp [Spec.readBack]
  | cons c p ih =>
    have hp' : '\'' ∉ p := fun h => hp (List.mem_cons_of_mem _ h)
    rw [List.cons_append, List.cons_append, List.cons_append]
    have : Spec.readBack (c :: (p ++ ['+', '\'', ' ', '\''] ++ r)) = c :: Spec.readBack (p ++ ['+', '\'', ' ', '\''] ++ r) := by
      cases p with
      | nil =>
        simp [Spec.readBack]
      | cons d p =>
        simp only [List.cons_append]
        rw [Spec.readBack]
        intro r' h1 h2
        have hd : d = '\'' := by
          have := congrArg List.head? h2
          simpa using this
        exact hp (by rw [hd]; simp)
    rw [this, ih hp']

theorem readBack_plain (p : List Char) (hp : '\'' ∉ p) : Spec.readBack p = p := by
  induction p with
  | nil => rfl
  | cons c p ih =>
    have hp' : '\'' ∉ p := fun h => hp (List.mem_cons_of_mem _ h)
    have : Spec.readBack (c :: p) = c :: Spec.readBack p := by
      rw [Spec.readBack]
      intro r' h1 h2
      exact hp' (by rw [h2]; simp)
    rw [this, ih hp']

theorem readBack_continued (ps : List (List Char)) (h : '\'' ∉ ps.flatten) : Spec.readBack (Spec.continued ps) = ps.flatten := by
  induction ps with
  | nil => rfl
  | cons p ps ih =>
    rw [List.flatten_cons, List.mem_append] at h
    push Not at h
    cases ps with
    | nil => simp only [Spec.continued, List.flatten_cons, List.flatten_nil, List.append_nil]; exact readBack_plain p h.1
    | cons q qs =>
      rw [Spec.continued, readBack_append p _ h.1, ih h.2]
      · simp
      · simp

/-- C44: SPICE reads the directory back as it was, for every directory name without a quote. -/
theorem C44_lossless (split : ℕ) (hs : 0 < split) (path : List Char) (hq : '\'' ∉ path) : Spec.readBack (splitPath split path) = path := by
  obtain ⟨ps, h1, h2, -⟩ := C44_pieces split hs path
  rw [h1, readBack_continued ps (by rw [h2]; exact hq), h2]

theorem replaceAll_none (old new : List Char) (fuel : ℕ) (s : List Char) (h : ¬ Spec.Occurs old s) : replaceAll old new fuel s = s := by
  induction fuel generalizing s with
  | zero => rfl
  | succ fuel ih =>
    cases s with
    | nil => rfl
    | cons c cs =>
      unfold replaceAll
      rw [if_neg, ih cs]
      · rintro ⟨a, b, hab⟩
        exact h ⟨c :: a, b, by rw [hab]; simp⟩
      · intro hp
        rw [List.isPrefixOf_iff_prefix] at hp
        obtain ⟨t, ht⟩ := hp
        exact h ⟨[], t, by rw [← ht]; simp⟩

/-- C44 (file names): a file of the cache directory is listed as `$A/` and its name, provided the directory's name does not occur again in what
follows it. -/
theorem C44_file_name (dir name : List Char) (hd : dir ≠ []) (h : ¬ Spec.Occurs dir ('/' :: name)) :
    buildFileName dir (dir ++ '/' :: name) = "$A/".toList ++ name := by
  unfold buildFileName
  cases hdn : dir with
  | nil => exact absurd hdn hd
  | cons c cs =>
    rw [List.cons_append]
    unfold replaceAll
    rw [if_pos, ← List.cons_append, List.drop_left, ← hdn, replaceAll_none dir _ _ _ h]
    · rfl
    · rw [List.isPrefixOf_iff_prefix]
      exact ⟨'/' :: name, by simp⟩

example : ¬ Spec.Occurs "/data".toList ("/naif0012.tls".toList) := by
  rintro ⟨a, b, h⟩
  have hmem : 'd' ∈ "/naif0012.tls".toList := by rw [h]; simp
  exact absurd hmem (by decide)

/-- C44 (the file): the directory is read back, every piece fits SPICE's line, and the kernels are listed in order, each as `$A/` and its name. -/
theorem C44_meta_kernel (dir : List Char) (fetch : String → List Char) (name : String → List Char) (files : List String) (hq : '\'' ∉ dir)
    (hd : dir ≠ []) (hf : ∀ f ∈ files, fetch f = dir ++ '/' :: name f) (ho : ∀ f ∈ files, ¬ Spec.Occurs dir ('/' :: name f)) :
    Spec.readBack (metaKernel dir fetch files).1 = dir ∧
    (∃ pieces : List (List Char), (metaKernel dir fetch files).1 = Spec.continued pieces ∧ ∀ p ∈ pieces, p.length ≤ 79) ∧
    (metaKernel dir fetch files).2 = files.map fun f => "$A/".toList ++ name f := by
  refine ⟨C44_lossless 79 (by decide) dir hq, ?_, ?_⟩
  · obtain ⟨ps, h1, -, h3⟩ := C44_pieces 79 (by decide) dir
    exact ⟨ps, h1, h3⟩
  · apply List.map_congr_left
    intro f hf'
    rw [hf f hf', C44_file_name dir (name f) hd (ho f hf')]

/-- C44 (file names) fails for a directory whose name occurs again: with the cache directory `/e` the kernel `earth_latest.bpc` is listed under a
name that SPICE expands to another path. -/
theorem C44_file_name_fails : ∃ dir name : List Char, dir ≠ [] ∧ buildFileName dir (dir ++ '/' :: name) ≠ "$A/".toList ++ name :=
  ⟨"/e".toList, "earth_latest.bpc".toList, by decide, by decide⟩

end Sorcha.Cli.Props
