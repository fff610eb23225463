import Verif.History.Run

/-!
# C65: interrupted runs and reruns
-/

namespace Sorcha.History.Props

open Sorcha.Cli (FS Args CmdArgs Glob)
open Sorcha.Output (Frame Cell CsvLine)
open Sorcha.History

variable {exist isDir : String → Bool} {g : Glob} {ls : Lines}

theorem same_results {a b : Args} (h : Spec.SameNames a b) (p : String) : Spec.IsResults a p ↔ Spec.IsResults b p := by
  unfold Spec.IsResults; rw [h.1, h.2.1]

theorem same_ephemeris {a b : Args} (h : Spec.SameNames a b) (p : String) : Spec.IsEphemeris a p ↔ Spec.IsEphemeris b p := by
  unfold Spec.IsEphemeris; rw [h.1, h.2.2.1]

theorem same_stats {a b : Args} (h : Spec.SameNames a b) (p : String) : Spec.IsStats a p ↔ Spec.IsStats b p := by
  unfold Spec.IsStats; rw [h.1, h.2.2.2]

theorem same_differ {a b : Args} (h : Spec.SameNames a b) (hd : Spec.NamesDiffer a) : Spec.NamesDiffer b :=
  ⟨fun p hp => hd.1 p ⟨(same_results h p).2 hp.1, (same_ephemeris h p).2 hp.2⟩,
   fun p hp => hd.2.1 p ⟨(same_results h p).2 hp.1, (same_stats h p).2 hp.2⟩,
   fun p hp => hd.2.2 p ⟨(same_ephemeris h p).2 hp.1, (same_stats h p).2 hp.2⟩⟩

theorem same_one {a b : Args} (h : Spec.SameNames a b) {d : Disk} (hd : Spec.AtMostOne a d) : Spec.AtMostOne b d :=
  ⟨fun p q hp hq h1 h2 => hd.1 p q hp hq ((same_results h p).2 h1) ((same_results h q).2 h2),
   fun p q hp hq h1 h2 => hd.2 p q hp hq ((same_ephemeris h p).2 h1) ((same_ephemeris h q).2 h2)⟩

/-- The files an accepted command line leaves: none of the outputs, everything else. -/
theorem start_files (hg : Cli.Spec.GlobSound g) {a : Args} {d : Disk} {c : CmdArgs} (hone : Spec.AtMostOne a d)
    (h : (Cli.commandLine exist isDir g a d.paths).1 = .ok c) :
    (∀ p, Spec.IsResults a p ∨ Spec.IsEphemeris a p ∨ Spec.IsStats a p → (d.keep (Cli.commandLine exist isDir g a d.paths).2).get p = none) ∧
    ∀ p, ¬ Spec.IsResults a p → ¬ Spec.IsEphemeris a p → ¬ Spec.IsStats a p →
      (d.keep (Cli.commandLine exist isDir g a d.paths).2).get p = d.get p := by
  constructor
  · intro p hp
    rw [get_keep]
    split_ifs with hm
    · have := commandLine_clean hg h (fun p hp q hq => hone.1 p q ((mem_paths d p).1 hp) ((mem_paths d q).1 hq))
        (fun p hp q hq => hone.2 p q ((mem_paths d p).1 hp) ((mem_paths d q).1 hq)) p hm
      rcases hp with hp | hp | hp
      · exact absurd hp this.1
      · exact absurd hp this.2.1
      · exact absurd hp this.2.2
    · rfl
  · intro p h1 h2 h3
    rw [get_keep]
    split_ifs with hm
    · rfl
    · by_cases hp : p ∈ d.paths
      · rcases (Cli.Props.C22_only_own hg).2 p hp hm with h' | ⟨n, h', hne, h''⟩ | ⟨n, h', h''⟩
        · exact absurd h' h1
        · exact absurd ⟨n, h', hne, h''⟩ h2
        · exact absurd ⟨n, h', h''⟩ h3
      · rw [mem_paths, not_not] at hp
        exact hp.symm

theorem refused_files (hg : Cli.Spec.GlobSound g) {a : Args} {d : Disk} :
    (∀ p, ¬ Spec.IsResults a p → ¬ Spec.IsEphemeris a p → ¬ Spec.IsStats a p →
      (d.keep (Cli.commandLine exist isDir g a d.paths).2).get p = d.get p) ∧
    ∀ p, (d.keep (Cli.commandLine exist isDir g a d.paths).2).get p ≠ none → d.get p ≠ none := by
  constructor
  · intro p h1 h2 h3
    rw [get_keep]
    split_ifs with hm
    · rfl
    · by_cases hp : p ∈ d.paths
      · rcases (Cli.Props.C22_only_own hg).2 p hp hm with h' | ⟨n, h', hne, h''⟩ | ⟨n, h', h''⟩
        · exact absurd h' h1
        · exact absurd ⟨n, h', hne, h''⟩ h2
        · exact absurd ⟨n, h', h''⟩ h3
      · rw [mem_paths, not_not] at hp
        exact hp.symm
  · intro p hp
    rw [get_keep] at hp
    split_ifs at hp
    · exact hp
    · exact absurd rfl hp

theorem names_of {a : Args} {fs : FS} {c : CmdArgs} (h : (Cli.commandLine exist isDir g a fs).1 = .ok c) : Names a c :=
  ⟨(commandLine_names h).1, (commandLine_names h).2.1, (commandLine_names h).2.2.1, (commandLine_names h).2.2.2⟩

theorem ne_path_of_not_results {a : Args} {fmt : Format} {p : String} (h : ¬ Spec.IsResults a p) : p ≠ pathOf a fmt := by
  rintro rfl; exact h (pathOf_results a fmt)

theorem ne_path_of_not_ephemeris {a : Args} {p : String} (h : ¬ Spec.IsEphemeris a p) (n : String) (hn : a.ew = some n) (hne : n ≠ "") :
    p ≠ a.o ++ "/" ++ n ++ ".csv" := by
  rintro rfl; exact h ⟨n, hn, hne, belongs_csv _ _⟩

/-- One run, whatever it does: other files are as before, and there is still at most one file of each kind. -/
theorem runs_step (hg : Cli.Spec.GlobSound g) {j : Job} (hd : Spec.NamesDiffer j.args) {d d' : Disk} {log : List Char} {out : Outcome}
    (hone : Spec.AtMostOne j.args d) (h : Runs false exist isDir g ls j d d' log out) :
    Spec.AtMostOne j.args d' ∧
      ∀ p, ¬ Spec.IsResults j.args p → ¬ Spec.IsEphemeris j.args p → ¬ Spec.IsStats j.args p → d'.get p = d.get p := by
  cases h with
  | refused h =>
    have hr := refused_files (exist := exist) (isDir := isDir) hg (a := j.args) (d := d)
    exact ⟨⟨fun p q hp hq => hone.1 p q (hr.2 p hp) (hr.2 q hq), fun p q hp hq => hone.2 p q (hr.2 p hp) (hr.2 q hq)⟩, hr.1⟩
  | @ran c s done h he =>
    have hs := start_files hg hone h
    have hN := names_of h
    have hR : ∀ p, s.disk.get p ≠ none → Spec.IsResults j.args p → p = pathOf j.args j.format := by
      intro p hp hr
      by_contra hne
      apply hp
      rw [run_other hN j.format hne ?_ (fun h' => hd.2.1 p ⟨hr, h'⟩) he]
      · exact hs.1 p (Or.inl hr)
      · rintro n hn hne' rfl
        exact hd.1 _ ⟨hr, n, hn, hne', belongs_csv _ _⟩
    have hE : ∀ p, s.disk.get p ≠ none → Spec.IsEphemeris j.args p → ∃ n, j.args.ew = some n ∧ p = j.args.o ++ "/" ++ n ++ ".csv" := by
      intro p hp hr
      by_contra hno
      apply hp
      rw [run_other hN j.format (ne_path_of_not_results fun h' => hd.1 p ⟨h', hr⟩) ?_ (fun h' => hd.2.2 p ⟨hr, h'⟩) he]
      · exact hs.1 p (Or.inr (Or.inl hr))
      · intro n hn _ h'
        exact hno ⟨n, hn, h'⟩
    refine ⟨⟨fun p q hp hq h1 h2 => (hR p hp h1).trans (hR q hq h2).symm, fun p q hp hq h1 h2 => ?_⟩, fun p h1 h2 h3 => ?_⟩
    · obtain ⟨n, hn, rfl⟩ := hE p hp h1
      obtain ⟨m, hm, rfl⟩ := hE q hq h2
      rw [hn] at hm
      rw [Option.some.inj hm]
    · rw [run_other hN j.format (ne_path_of_not_results h1) (ne_path_of_not_ephemeris h2) h3 he]
      exact hs.2 p h1 h2 h3

/-- Any number of runs. -/
theorem series_step (hg : Cli.Spec.GlobSound g) {a : Args} (hd : Spec.NamesDiffer a) {js : List Job} (hj : ∀ j ∈ js, Spec.SameNames a j.args)
    {d d' : Disk} (hone : Spec.AtMostOne a d) (h : Series false exist isDir g ls js d d') :
    Spec.AtMostOne a d' ∧ ∀ p, ¬ Spec.IsResults a p → ¬ Spec.IsEphemeris a p → ¬ Spec.IsStats a p → d'.get p = d.get p := by
  induction h with
  | nil => exact ⟨hone, fun _ _ _ _ => rfl⟩
  | @cons j js d d1 d2 log out h _ ih =>
    have hsn := hj j List.mem_cons_self
    have hsn' : Spec.SameNames j.args a := ⟨hsn.1.symm, hsn.2.1.symm, hsn.2.2.1.symm, hsn.2.2.2.symm⟩
    have h1 := runs_step hg (same_differ hsn hd) (same_one hsn hone) h
    have h2 := ih (fun j hj' => hj j (List.mem_cons_of_mem _ hj')) (same_one hsn' h1.1)
    refine ⟨h2.1, fun p r e s => ?_⟩
    rw [h2.2 p r e s]
    exact h1.2 p (fun h' => r ((same_results hsn p).2 h')) (fun h' => e ((same_ephemeris hsn p).2 h')) (fun h' => s ((same_stats hsn p).2 h'))

/-- The files after all effects of an accepted run: complete. -/
theorem complete_of_done (hg : Cli.Spec.GlobSound g) {j : Job} (hd : Spec.NamesDiffer j.args) {d d0 : Disk} (hone : Spec.AtMostOne j.args d)
    (hrest : ∀ p, ¬ Spec.IsResults j.args p → ¬ Spec.IsEphemeris j.args p → ¬ Spec.IsStats j.args p → d.get p = d0.get p)
    {c : CmdArgs} {s : State} (h : (Cli.commandLine exist isDir g j.args d.paths).1 = .ok c)
    (he : Ends false (runEffects ls c j.format j.chunks j.stamp) ⟨d.keep (Cli.commandLine exist isDir g j.args d.paths).2, startLog j⟩ s true) :
    Spec.Complete ls j d0 s.disk := by
  have hs := start_files hg hone h
  have hN := names_of h
  intro p c' hw
  cases hw with
  | results hf =>
    rw [pathOf_eq, hf]
    exact (run_results hN hd j.format hf (hs.1 _ (Or.inl (pathOf_results _ _))) he).1 rfl
  | database hf =>
    rw [pathOf_eq, hf]
    exact (run_database hN hd j.format hf (hs.1 _ (Or.inl (pathOf_results _ _))) he).1 rfl
  | ephemeris n hn hne =>
    exact (run_ephemeris hN hd j.format hn hne (hs.1 _ (Or.inr (Or.inl ⟨n, hn, hne, belongs_csv _ _⟩))) he).1 rfl
  | stats n hn => exact (run_stats hN hd j.format hn (hs.1 _ (Or.inr (Or.inr ⟨n, hn, rfl⟩))) he).1 rfl
  | otherResults _ hr hp =>
    rw [pathOf_eq] at hp
    rw [run_other hN j.format hp ?_ (fun h' => hd.2.1 p ⟨hr, h'⟩) he]
    · exact hs.1 p (Or.inl hr)
    · rintro n hn hne' rfl
      exact hd.1 _ ⟨hr, n, hn, hne', belongs_csv _ _⟩
  | otherEphemeris _ n hn hne hb hp =>
    have hE : Spec.IsEphemeris j.args p := ⟨n, hn, hne, hb⟩
    rw [run_other hN j.format (ne_path_of_not_results fun h' => hd.1 p ⟨h', hE⟩) ?_ (fun h' => hd.2.2 p ⟨hE, h'⟩) he]
    · exact hs.1 p (Or.inr (Or.inl hE))
    · intro m hm _ h'
      rw [hn] at hm
      rw [← Option.some.inj hm] at h'
      exact hp h'
  | rest _ h1 h2 h3 =>
    rw [run_other hN j.format (ne_path_of_not_results h1) (ne_path_of_not_ephemeris h2) h3 he, hs.2 p h1 h2 h3]
    exact hrest p h1 h2 h3

/-- C65 (after any history): take any number of runs with the same output names — of whatever inputs and formats, with or without `-f`, each refused,
finished or interrupted at any point — in a directory that had at most one file of results and one ephemeris file. A run that finishes after them
leaves exactly its own results, ephemerides and statistics, and all other files as they were before the whole history. (No sqlite transaction was
interrupted; see below.) -/
theorem C65_history (hg : Cli.Spec.GlobSound g) {j : Job} (hd : Spec.NamesDiffer j.args) {js : List Job}
    (hj : ∀ i ∈ js, Spec.SameNames j.args i.args) {d0 d1 d2 : Disk} (hone : Spec.AtMostOne j.args d0)
    (hist : Series false exist isDir g ls js d0 d1) {log : List Char} (h : Runs false exist isDir g ls j d1 d2 log .finished) :
    Spec.Complete ls j d0 d2 := by
  have h1 := series_step hg hd hj hone hist
  generalize ho : Outcome.finished = out at h
  cases h with
  | refused h => simp at ho
  | @ran c s done h he =>
    cases done with
    | false => simp at ho
    | true => exact complete_of_done hg hd h1.1 h1.2 h he

/-- C65 (every crash point): if that run does not finish but stops somewhere, the CSV files are initial parts of the complete ones, the database holds
the results of the first few chunks, and all other files are as they were. -/
theorem C65_interrupted (hg : Cli.Spec.GlobSound g) {j : Job} (hd : Spec.NamesDiffer j.args) {js : List Job}
    (hj : ∀ i ∈ js, Spec.SameNames j.args i.args) {d0 d1 d2 : Disk} (hone : Spec.AtMostOne j.args d0)
    (hist : Series false exist isDir g ls js d0 d1) {log : List Char} {out : Outcome} (h : Runs false exist isDir g ls j d1 d2 log out)
    (hout : out ≠ .refused) :
    (j.format = .csv → Spec.TextStage (d2.get (Spec.resultsPath j)) (Spec.csvOf ls.output (Spec.results j))) ∧
    (j.format = .sqlite → Spec.TableStage (Spec.results j) (d2.get (Spec.resultsPath j))) ∧
    (∀ n, j.args.ew = some n → n ≠ "" →
      Spec.TextStage (d2.get (j.args.o ++ "/" ++ n ++ ".csv")) (Spec.csvOf ls.ephemeris (Spec.ephemerides j))) ∧
    (∀ n, j.args.st = some n → Spec.TextStage (d2.get (j.args.o ++ "/" ++ n ++ ".csv")) (Spec.csvOf ls.stats (Spec.statistics j))) ∧
    ∀ p, ¬ Spec.IsResults j.args p → ¬ Spec.IsEphemeris j.args p → ¬ Spec.IsStats j.args p → d2.get p = d0.get p := by
  have h1 := series_step hg hd hj hone hist
  have h2 := runs_step hg hd h1.1 h
  cases h with
  | refused h => exact absurd rfl hout
  | @ran c s done h he =>
    have hs := start_files hg h1.1 h
    have hN := names_of h
    refine ⟨fun hf => ?_, fun hf => ?_, fun n hn hne => ?_, fun n hn => ?_, fun p r e st => ?_⟩
    · rw [pathOf_eq, hf]
      exact (run_results hN hd j.format hf (hs.1 _ (Or.inl (pathOf_results _ _))) he).2
    · rw [pathOf_eq, hf]
      exact (run_database hN hd j.format hf (hs.1 _ (Or.inl (pathOf_results _ _))) he).2
    · exact (run_ephemeris hN hd j.format hn hne (hs.1 _ (Or.inr (Or.inl ⟨n, hn, hne, belongs_csv _ _⟩))) he).2
    · exact (run_stats hN hd j.format hn (hs.1 _ (Or.inr (Or.inr ⟨n, hn, rfl⟩))) he).2
    · rw [h2.2 p r e st, h1.2 p r e st]

/-- C65 (without `-f`): if any output of the command exists, however the run that wrote it ended, the command is refused and changes nothing. -/
theorem C65_refused (hg : Cli.Spec.GlobSound g) {j : Job} (hf : j.args.f = false) {d d' : Disk} {p : String}
    (hp : Spec.IsResults j.args p ∨ Spec.IsEphemeris j.args p ∨ Spec.IsStats j.args p) (hex : d.get p ≠ none) {journal : Bool}
    {log : List Char} {out : Outcome} (h : Runs journal exist isDir g ls j d d' log out) : out = .refused ∧ ∀ q, d'.get q = d.get q := by
  have hmem := (mem_paths d p).2 hex
  cases h with
  | refused h =>
    refine ⟨rfl, fun q => ?_⟩
    have h0 := (Cli.Props.C22_no_force (c := ⟨"", "", "", "", "", none, none, none, none, "", "", none, none⟩) (exist := exist) (isDir := isDir)
      (a := j.args) (fs := d.paths) hg hf).1
    rw [h0, get_keep]
    split_ifs with hm
    · rfl
    · rw [mem_paths, not_not] at hm
      exact hm.symm
  | @ran c s done h he =>
    exfalso
    have h0 := (Cli.Props.C22_no_force (c := c) (exist := exist) (isDir := isDir) (a := j.args) (fs := d.paths) hg hf).2 h
    rcases hp with hp | ⟨n, hn, hne, hp⟩ | ⟨n, hn, hp⟩
    · exact h0.1 p hmem hp
    · exact h0.2.1 n hn hne p hmem hp
    · exact h0.2.2 n hn (hp ▸ hmem)

/-! ## The log -/

theorem linesOf_append (es1 es2 : List Effect) : linesOf (es1 ++ es2) = linesOf es1 ++ linesOf es2 := by
  unfold linesOf; rw [List.filterMap_append]

theorem linesOf_mem {c : CmdArgs} {fmt : Format} {chs : List Chunk} {l : List Char}
    (h : l ∈ linesOf (chs.flatMap (chunkEffects ls c fmt) ++ makeIndex c fmt)) : ∃ ch ∈ chs, l ∈ ch.messages := by
  rw [linesOf_append] at h
  have h2 : linesOf (makeIndex c fmt) = [] := by cases fmt <;> rfl
  rw [h2, List.append_nil] at h
  unfold linesOf at h
  obtain ⟨e, he, hl⟩ := List.mem_filterMap.1 h
  obtain ⟨ch, hch, he⟩ := List.mem_flatMap.1 he
  refine ⟨ch, hch, ?_⟩
  unfold chunkEffects at he
  rw [List.mem_append, List.mem_append] at he
  rcases he with (he | he) | he
  · obtain ⟨m, hm, rfl⟩ := List.mem_map.1 he
    simp only [Option.some.injEq] at hl
    exact hl ▸ hm
  · obtain ⟨f, -, he⟩ := List.mem_flatMap.1 he
    unfold writeEphemeris at he
    cases hc : c.outputEphemerisFile with
    | none => rw [hc] at he; simp at he
    | some n =>
      rw [hc] at he
      simp only at he
      split_ifs at he
      · simp at he
      · rw [List.mem_singleton] at he; subst he; simp at hl
  · obtain ⟨r, -, he⟩ := List.mem_flatMap.1 he
    unfold writeResults at he
    rw [List.mem_cons] at he
    rcases he with rfl | he
    · unfold writeOutput at hl
      cases fmt <;> simp at hl
    · unfold writeStats at he
      cases hc : c.stats with
      | none => rw [hc] at he; simp at he
      | some n => rw [hc] at he; rw [List.mem_singleton] at he; subst he; simp at hl

theorem completed_plain : Spec.completed ≠ [] ∧ '\n' ∉ Spec.completed := by decide

/-- C65 (the log tells): if `check-logs` reports the run as successful, its outputs are complete — even if the very end of the log is missing; and a
run that finishes is reported as successful. -/
theorem C65_log (hg : Cli.Spec.GlobSound g) {j : Job} (hd : Spec.NamesDiffer j.args) {js : List Job}
    (hj : ∀ i ∈ js, Spec.SameNames j.args i.args) {d0 d1 d2 : Disk} (hone : Spec.AtMostOne j.args d0)
    (hist : Series false exist isDir g ls js d0 d1) {log : List Char} {out : Outcome} (h : Runs false exist isDir g ls j d1 d2 log out)
    (hq : Spec.QuietLog j) {br : Char → Bool} (hn : br '\n' = true) (hbr : ∀ c ∈ Spec.completed, br c = false) :
    ((∃ x, Cli.checkLog br log = .ok (true, x)) → Spec.Complete ls j d0 d2) ∧
    (out = .finished → Cli.checkLog br log = .ok (true, " ".toList)) := by
  have h1 := series_step hg hd hj hone hist
  have hquiet : ∀ lines : List (List Char), (∀ l ∈ lines, ¬ Cli.Spec.Occurs Spec.completed l) →
      ¬ Cli.Spec.Occurs Spec.completed (lines.flatMap fun l => l ++ ['\n']) := by
    intro lines hl ho
    obtain ⟨l, hm, ho⟩ := occurs_lines completed_plain.1 completed_plain.2 ho
    exact hl l hm ho
  cases h with
  | refused h =>
    refine ⟨?_, fun h' => by simp at h'⟩
    rintro ⟨x, hx⟩
    exact absurd (good_occurs hx) (hquiet _ hq.1)
  | @ran c s done h he =>
    have hN := names_of h
    rcases ends_append (show Ends false ((j.chunks.flatMap (chunkEffects ls c j.format) ++ makeIndex c j.format) ++
        [.log (j.stamp ++ Spec.completed)]) _ _ _ from he) with ⟨s1, h3, h4⟩ | ⟨hdone, h3⟩
    · have hdisk : s.disk = s1.disk := by
        cases h4 with
        | step hp ht =>
          cases ht
          simp only [perform, Except.ok.injEq] at hp
          subst hp
          rfl
        | stopped => rfl
        | during hi => cases hi; rfl
      refine ⟨fun _ => ?_, fun hfin => ?_⟩
      · have hfull : Ends false (runEffects ls c j.format j.chunks j.stamp)
            ⟨d1.keep (Cli.commandLine exist isDir g j.args d1.paths).2, startLog j⟩ { s1 with log := s1.log ++ (j.stamp ++ Spec.completed) ++ ['\n'] }
            true := ends_join h3 (.step (show perform (.log (j.stamp ++ Spec.completed)) s1 = _ from rfl) .finished)
        have := complete_of_done hg hd h1.1 h1.2 h hfull
        rw [hdisk]
        exact this
      · cases done with
        | false => simp at hfin
        | true =>
          have hl := (ends_log h4).1 rfl
          have : linesOf [.log (j.stamp ++ Spec.completed)] = [j.stamp ++ Spec.completed] := rfl
          rw [this, List.flatMap_singleton] at hl
          rw [hl, ← List.append_assoc, ← List.append_assoc]
          exact good_of_end hn hbr _
    · refine ⟨?_, fun hfin => by rw [hdone] at hfin; simp at hfin⟩
      rintro ⟨x, hx⟩
      exfalso
      obtain ⟨rest, hrest⟩ := (ends_log h3).2
      obtain ⟨a, b, ho⟩ := good_occurs hx
      have hall := hquiet (j.start ++ linesOf (j.chunks.flatMap (chunkEffects ls c j.format) ++ makeIndex c j.format)) (by
        intro l hl
        rcases List.mem_append.1 hl with hl | hl
        · exact hq.1 l hl
        · obtain ⟨ch, hch, hl⟩ := linesOf_mem hl
          exact hq.2 ch hch l hl)
      apply hall
      refine ⟨a, b ++ rest, ?_⟩
      rw [List.flatMap_append]
      change startLog j ++ _ = _
      rw [← hrest, ho]
      simp only [List.append_assoc]

end Sorcha.History.Props
