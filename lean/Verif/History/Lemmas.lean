import Verif.History.Spec
import Verif.Cli.Props

/-!
# Lemmas about the files of an output directory
-/

namespace Sorcha.History

open Sorcha.Cli (FS Args CmdArgs Glob)
open Sorcha.Output (Frame Cell CsvLine)

/-! ## Files -/

theorem get_put_self (d : Disk) (p : String) (c : Content) : (d.put p c).get p = some c := by
  unfold Disk.put Disk.get
  rw [List.find?_append]
  have : (d.filter fun e => decide (e.1 ≠ p)).find? (fun e => e.1 == p) = none := by
    rw [List.find?_eq_none]
    intro e he
    have := (List.mem_filter.1 he).2
    simpa using this
  rw [this]
  simp

theorem get_put_ne (d : Disk) {p q : String} (c : Content) (h : q ≠ p) : (d.put p c).get q = d.get q := by
  unfold Disk.put Disk.get
  rw [List.find?_append]
  have h2 : [(p, c)].find? (fun e => e.1 == q) = none := by
    rw [List.find?_eq_none]
    intro e he
    rw [List.mem_singleton] at he
    subst he
    simpa using fun h' => h h'.symm
  rw [h2, Option.or_none, List.find?_filter]
  congr 2
  funext e
  by_cases he : e.1 = q
  · subst he; simp [h]
  · simp [he]

theorem get_keep (d : Disk) (fs : FS) (p : String) : (d.keep fs).get p = if p ∈ fs then d.get p else none := by
  unfold Disk.keep Disk.get
  rw [List.find?_filter]
  split_ifs with h
  · congr 2
    funext e
    by_cases he : e.1 = p
    · subst he; simp [h]
    · simp [he]
  · rw [Option.map_eq_none_iff, List.find?_eq_none]
    intro e he
    simp only [Bool.and_eq_true, decide_eq_true_eq, beq_iff_eq, not_and]
    rintro h1 rfl
    exact h (by simpa using h1)

theorem mem_paths (d : Disk) (p : String) : p ∈ d.paths ↔ d.get p ≠ none := by
  unfold Disk.paths Disk.get
  rw [List.mem_map]
  constructor
  · rintro ⟨e, he, rfl⟩ h
    rw [Option.map_eq_none_iff, List.find?_eq_none] at h
    exact h e he (by simp)
  · intro h
    cases hf : d.find? (fun e => e.1 == p) with
    | none => rw [hf] at h; exact absurd rfl h
    | some e => exact ⟨e, List.mem_of_find?_eq_some hf, by simpa using List.find?_some hf⟩

/-! ## The checks of the command line -/

theorem warn_clean {gl : FS → List String} {name : String} {f : Bool} {fs : FS} {P : String → Prop}
    (hgl : ∀ fs p, p ∈ gl fs ↔ p ∈ fs ∧ P p) (hone : ∀ p ∈ fs, ∀ q ∈ fs, P p → P q → p = q)
    (h : (Cli.warnOrRemove gl name f fs).1 = .ok ()) : ∀ p ∈ (Cli.warnOrRemove gl name f fs).2, ¬ P p := by
  intro p hp hP
  unfold Cli.warnOrRemove at h hp
  have hm := hgl fs
  cases hl : gl fs with
  | nil =>
    rw [hl] at hp hm
    exact absurd ((hm p).2 ⟨hp, hP⟩) List.not_mem_nil
  | cons q qs =>
    rw [hl] at hp h hm
    cases f with
    | false => simp at h
    | true =>
      simp only [if_true] at hp
      rw [List.mem_filter] at hp
      have hq := (hm q).1 List.mem_cons_self
      have : p = q := hone p hp.1 q hq.1 hP hq.2
      simp [this] at hp

/-- What an accepted command line leaves: no file of the outputs. -/
theorem commandLine_clean {exist isDir : String → Bool} {g : Glob} {a : Args} {fs : FS} {c : CmdArgs} (hg : Cli.Spec.GlobSound g)
    (h : (Cli.commandLine exist isDir g a fs).1 = .ok c)
    (hr : ∀ p ∈ fs, ∀ q ∈ fs, Spec.IsResults a p → Spec.IsResults a q → p = q)
    (he : ∀ p ∈ fs, ∀ q ∈ fs, Spec.IsEphemeris a p → Spec.IsEphemeris a q → p = q) :
    ∀ p ∈ (Cli.commandLine exist isDir g a fs).2, ¬ Spec.IsResults a p ∧ ¬ Spec.IsEphemeris a p ∧ ¬ Spec.IsStats a p := by
  unfold Cli.commandLine at h ⊢
  cases hi : Cli.findInputs exist a with
  | error e => rw [hi] at h; simp at h
  | ok cv =>
    obtain ⟨cp, vd⟩ := cv
    rw [hi] at h
    simp only at h ⊢
    unfold Cli.checkOutputs at h ⊢
    have e1 := @Cli.Props.warnOpt_sub true a.ew (g.anyExt a.o) a.f fs
    unfold Cli.andThen at h ⊢
    cases h1 : (Cli.warnOptional true a.ew (g.anyExt a.o) a.f fs).1 with
    | error e => rw [h1] at h; simp [Except.map] at h
    | ok u =>
      rw [h1] at h
      simp only at h ⊢
      have c1 : ∀ p ∈ (Cli.warnOptional true a.ew (g.anyExt a.o) a.f fs).2, ¬ Spec.IsEphemeris a p := by
        rintro p hp ⟨n, hn, hne, hb⟩
        rw [hn] at h1 hp
        unfold Cli.warnOptional at h1 hp
        have hemp : (true && n.isEmpty) = false := by
          have h0 : n.isEmpty = false := by
            rw [Bool.eq_false_iff]
            intro h'
            exact hne (String.isEmpty_iff.1 h')
          simp [h0]
        simp only [hemp, Bool.false_eq_true, if_false] at h1 hp
        exact warn_clean (P := fun p => Cli.Spec.BelongsTo a.o n p) (fun fs p => hg.anyExt a.o n fs p)
          (fun p hp q hq b1 b2 => he p hp q hq ⟨n, hn, hne, b1⟩ ⟨n, hn, hne, b2⟩) h1 p hp hb
      set fs1 := (Cli.warnOptional true a.ew (g.anyExt a.o) a.f fs).2 with hfs1
      have e2 := @Cli.Props.warnOpt_sub false a.st (g.csv a.o) a.f fs1
      cases h2 : (Cli.warnOptional false a.st (g.csv a.o) a.f fs1).1 with
      | error e => rw [h2] at h; simp [Except.map] at h
      | ok u =>
        rw [h2] at h
        simp only at h ⊢
        have c2 : ∀ p ∈ (Cli.warnOptional false a.st (g.csv a.o) a.f fs1).2, ¬ Spec.IsStats a p := by
          rintro p hp ⟨n, hn, hb⟩
          rw [hn] at h2 hp
          unfold Cli.warnOptional at h2 hp
          simp only [Bool.false_and, Bool.false_eq_true, if_false] at h2 hp
          exact warn_clean (P := fun p => p = a.o ++ "/" ++ n ++ ".csv") (fun fs p => hg.csv a.o n fs p)
            (fun p _ q _ b1 b2 => b1.trans b2.symm) h2 p hp hb
        set fs2 := (Cli.warnOptional false a.st (g.csv a.o) a.f fs1).2 with hfs2
        have hsub : fs2.Sublist fs := e2.1.trans e1.1
        cases h3 : (Cli.findOptional isDir true a.ar "-ar, --ar_data_path") with
        | error e => rw [h3] at h; simp [Except.map] at h
        | ok u =>
          rw [h3] at h
          simp only [Except.map] at h ⊢
          have e3 := @Cli.Props.warn_sub (g.anyExt a.o a.t) a.t a.f fs2
          cases h4 : (Cli.warnOrRemove (g.anyExt a.o a.t) a.t a.f fs2).1 with
          | error e => rw [h4] at h; simp at h
          | ok u =>
            have c3 := warn_clean (P := fun p => Spec.IsResults a p) (fun fs p => hg.anyExt a.o a.t fs p)
              (fun p hp q hq b1 b2 => hr p (hsub.subset hp) q (hsub.subset hq) b1 b2) h4
            intro p hp
            have hp2 := e3.1.subset hp
            exact ⟨c3 p hp, c1 p (e2.1.subset hp2), c2 p hp2⟩

theorem commandLine_names {exist isDir : String → Bool} {g : Glob} {a : Args} {fs : FS} {c : CmdArgs}
    (h : (Cli.commandLine exist isDir g a fs).1 = .ok c) :
    c.outpath = a.o ∧ c.outfilestem = a.t ∧ c.outputEphemerisFile = a.ew ∧ c.stats = a.st := by
  unfold Cli.commandLine at h
  cases hi : Cli.findInputs exist a with
  | error e => rw [hi] at h; simp at h
  | ok cv =>
    obtain ⟨cp, vd⟩ := cv
    rw [hi] at h
    simp only at h
    cases hc : (Cli.checkOutputs isDir g a fs).1 with
    | error e => rw [hc] at h; simp [Except.map] at h
    | ok u =>
      rw [hc] at h
      simp only [Except.map, Except.ok.injEq] at h
      subst h
      exact ⟨rfl, rfl, rfl, rfl⟩

/-! ## Sequences of effects -/

theorem ends_append {journal : Bool} {es1 es2 : List Effect} {s s' : State} {done : Bool} (h : Ends journal (es1 ++ es2) s s' done) :
    (∃ s1, Ends journal es1 s s1 true ∧ Ends journal es2 s1 s' done) ∨ (done = false ∧ Ends journal es1 s s' false) := by
  induction es1 generalizing s with
  | nil => exact Or.inl ⟨s, .finished, h⟩
  | cons e es1 ih =>
    rw [List.cons_append] at h
    cases h with
    | step h1 ht =>
      rcases ih ht with ⟨s1, h2, h3⟩ | ⟨h2, h3⟩
      · exact Or.inl ⟨s1, .step h1 h2, h3⟩
      · exact Or.inr ⟨h2, .step h1 h3⟩
    | stopped => exact Or.inr ⟨rfl, .stopped⟩
    | during h1 => exact Or.inr ⟨rfl, .during h1⟩

theorem ends_join {journal : Bool} {es1 es2 : List Effect} {s s1 s' : State} {done : Bool} (h1 : Ends journal es1 s s1 true)
    (h2 : Ends journal es2 s1 s' done) : Ends journal (es1 ++ es2) s s' done := by
  generalize hd : true = b at h1
  induction h1 with
  | finished => exact h2
  | step h _ ih => exact .step h (ih h2 hd)
  | stopped => simp at hd
  | during _ => simp at hd

/-- The effect does not concern the file `p`. -/
def Untouched (p : String) : Effect → Prop
  | .csv q _ _ => q ≠ p
  | .sqlite q _ => q ≠ p
  | .index q => q ≠ p
  | .log _ => True

theorem perform_untouched {p : String} {e : Effect} {s s' : State} (hu : Untouched p e) (h : perform e s = .ok s') :
    s'.disk.get p = s.disk.get p := by
  cases e with
  | csv q line f =>
    simp only [perform] at h
    have hq : p ≠ q := fun h' => hu h'.symm
    cases hg : s.disk.get q with
    | none => rw [hg] at h; simp only [Except.ok.injEq] at h; subst h; exact get_put_ne _ _ hq
    | some c =>
      rw [hg] at h
      cases c with
      | text old => simp only [Except.ok.injEq] at h; subst h; exact get_put_ne _ _ hq
      | db t ix => simp at h
  | sqlite q f =>
    simp only [perform] at h
    have hq : p ≠ q := fun h' => hu h'.symm
    cases ha : appendTable (s.disk.get q) f with
    | error e => rw [ha] at h; simp at h
    | ok c => rw [ha] at h; simp only [Except.ok.injEq] at h; subst h; exact get_put_ne _ _ hq
  | index q =>
    simp only [perform] at h
    have hq : p ≠ q := fun h' => hu h'.symm
    cases hg : s.disk.get q with
    | none => rw [hg] at h; simp only [Except.ok.injEq] at h; subst h; rfl
    | some c =>
      rw [hg] at h
      cases c with
      | text old => simp at h
      | db t ix =>
        cases t with
        | none => simp at h
        | some t =>
          simp only at h
          cases hi : addIndices t.1 ix indexColumns with
          | error e => rw [hi] at h; simp at h
          | ok ix' => rw [hi] at h; simp only [Except.ok.injEq] at h; subst h; exact get_put_ne _ _ hq
  | log line =>
    simp only [perform] at h
    simp only [Except.ok.injEq] at h
    subst h
    rfl

theorem interrupted_untouched {p : String} {e : Effect} {s s' : State} (hu : Untouched p e) (h : Interrupted false e s s') :
    s'.disk.get p = s.disk.get p := by
  cases h with
  | newCsv part h hp => exact get_put_ne _ _ (fun h' => hu h'.symm)
  | oldCsv old part h hp => exact get_put_ne _ _ (fun h' => hu h'.symm)
  | newDb h => exact get_put_ne _ _ (fun h' => hu h'.symm)
  | newJournal j h hj => simp at hj
  | oldJournal j h hj => simp at hj
  | index part h hp => exact get_put_ne _ _ (fun h' => hu h'.symm)
  | indexJournal j h hj => simp at hj
  | log part hp => rfl

theorem ends_untouched {p : String} {es : List Effect} {s s' : State} {done : Bool} (hu : ∀ e ∈ es, Untouched p e)
    (h : Ends false es s s' done) : s'.disk.get p = s.disk.get p := by
  induction h with
  | finished => rfl
  | step h _ ih => rw [ih fun e he => hu e (List.mem_cons_of_mem _ he), perform_untouched (hu _ List.mem_cons_self) h]
  | stopped => rfl
  | during h => exact interrupted_untouched (hu _ List.mem_cons_self) h

/-! ## A CSV file -/

/-- The tables the effects write to the CSV file `p`. -/
def framesOf (p : String) (es : List Effect) : List Frame :=
  es.filterMap fun e => match e with
    | .csv q _ f => if q = p then some f else none
    | _ => none

/-- The effect writes to `p` in CSV with the given lines, or does not concern `p`. -/
def CsvOnly (p : String) (line : CsvLine → List Char) : Effect → Prop
  | .csv q l _ => q = p → l = line
  | .sqlite q _ => q ≠ p
  | .index q => q ≠ p
  | .log _ => True

theorem csvOf_snoc (line : CsvLine → List Char) (fs : List Frame) (f : Frame) :
    Spec.csvOf line (fs ++ [f]) = match Spec.csvOf line fs with
      | none => some (.text (csvText line true f))
      | some (.text old) => some (.text (old ++ csvText line false f))
      | some (.db t ix) => some (.db t ix) := by
  cases fs with
  | nil => simp [Spec.csvOf, csvText]
  | cons f0 fs => simp [Spec.csvOf, csvText, List.flatMap_append]

theorem csvOf_text (line : CsvLine → List Char) (fs : List Frame) : Spec.csvOf line fs = none ∨ ∃ s, Spec.csvOf line fs = some (.text s) := by
  cases fs with
  | nil => exact Or.inl rfl
  | cons f fs => exact Or.inr ⟨_, rfl⟩

theorem csvOf_append (line : CsvLine → List Char) (fs gs : List Frame) :
    Spec.TextStage (Spec.csvOf line fs) (Spec.csvOf line (fs ++ gs)) := by
  cases fs with
  | nil => exact Or.inl rfl
  | cons f fs =>
    refine Or.inr ⟨_, _, rfl, rfl, ?_⟩
    rw [List.prefix_append_right_inj, show f :: fs.append gs = (f :: fs) ++ gs from rfl, List.flatMap_append]
    exact List.prefix_append _ _

theorem textStage_trans {a b c : Option Content} (h1 : Spec.TextStage a b) (h2 : Spec.TextStage b c) : Spec.TextStage a c := by
  rcases h1 with h | ⟨s, t, ha, hb, hp⟩
  · exact Or.inl h
  · rcases h2 with h | ⟨s', t', hb', hc, hp'⟩
    · rw [hb] at h; simp at h
    · rw [hb] at hb'
      simp only [Option.some.injEq, Content.text.injEq] at hb'
      subst hb'
      exact Or.inr ⟨s, t', ha, hc, hp.trans hp'⟩

theorem framesOf_cons (p : String) (e : Effect) (es : List Effect) : framesOf p (e :: es) = framesOf p [e] ++ framesOf p es := by
  unfold framesOf
  rw [← List.filterMap_append]
  rfl

theorem csvOnly_untouched {p : String} {line : CsvLine → List Char} {e : Effect} (h : CsvOnly p line e) :
    (∃ f, e = .csv p line f) ∨ (Untouched p e ∧ framesOf p [e] = []) := by
  cases e with
  | csv q l f =>
    by_cases hq : q = p
    · exact Or.inl ⟨f, by rw [hq, h hq]⟩
    · exact Or.inr ⟨hq, by simp [framesOf, hq]⟩
  | sqlite q f => exact Or.inr ⟨h, rfl⟩
  | index q => exact Or.inr ⟨h, rfl⟩
  | log l => exact Or.inr ⟨trivial, rfl⟩

theorem ends_csv {p : String} {line : CsvLine → List Char} {es : List Effect} {s s' : State} {done : Bool} {before : List Frame}
    (hc : ∀ e ∈ es, CsvOnly p line e) (hs : s.disk.get p = Spec.csvOf line before) (h : Ends false es s s' done) :
    (done = true → s'.disk.get p = Spec.csvOf line (before ++ framesOf p es)) ∧
      Spec.TextStage (s'.disk.get p) (Spec.csvOf line (before ++ framesOf p es)) := by
  induction h generalizing before with
  | finished =>
    have : framesOf p [] = [] := rfl
    rw [this, List.append_nil]
    refine ⟨fun _ => hs, ?_⟩
    rw [hs]
    have := csvOf_append line before []
    rwa [List.append_nil] at this
  | @step e es s s1 s' done h _ ih =>
    rw [framesOf_cons, ← List.append_assoc]
    apply ih fun e he => hc e (List.mem_cons_of_mem _ he)
    rcases csvOnly_untouched (hc e List.mem_cons_self) with ⟨f, rfl⟩ | ⟨hu, hf⟩
    · have hf : framesOf p [.csv p line f] = [f] := by simp [framesOf]
      rw [hf, csvOf_snoc]
      simp only [perform] at h
      rw [hs] at h
      rcases csvOf_text line before with hb | ⟨t, hb⟩
      · rw [hb] at h ⊢
        simp only [Except.ok.injEq] at h ⊢
        subst h
        exact get_put_self _ _ _
      · rw [hb] at h ⊢
        simp only [Except.ok.injEq] at h ⊢
        subst h
        exact get_put_self _ _ _
    · rw [hf, List.append_nil, perform_untouched hu h, hs]
  | @stopped e es s =>
    refine ⟨fun h => by simp at h, ?_⟩
    rw [hs]
    exact csvOf_append _ _ _
  | @during e es s s' h =>
    refine ⟨fun h => by simp at h, ?_⟩
    rw [framesOf_cons, ← List.append_assoc]
    refine textStage_trans ?_ (csvOf_append line (before ++ framesOf p [e]) _)
    rcases csvOnly_untouched (hc e List.mem_cons_self) with ⟨f, rfl⟩ | ⟨hu, hf⟩
    · have hf : framesOf p [.csv p line f] = [f] := by simp [framesOf]
      rw [hf, csvOf_snoc]
      cases h with
      | newCsv part h hp =>
        rw [hs] at h
        rw [h, get_put_self]
        exact Or.inr ⟨_, _, rfl, rfl, hp⟩
      | oldCsv old part h hp =>
        rw [hs] at h
        rw [h, get_put_self]
        exact Or.inr ⟨_, _, rfl, rfl, (List.prefix_append_right_inj old).2 hp⟩
    · rw [hf, List.append_nil, interrupted_untouched hu h, hs]
      have := csvOf_append line before []
      rwa [List.append_nil] at this

end Sorcha.History
