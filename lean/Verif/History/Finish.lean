import Verif.History.Props
import Mathlib.Data.List.Induction

/-!
# C65: a run can be repeated after any history
-/

namespace Sorcha.History.Props

open Sorcha.Cli (FS Args CmdArgs Glob)
open Sorcha.Output (Frame Cell CsvLine)
open Sorcha.History

variable {exist isDir : String → Bool} {g : Glob} {ls : Lines}

theorem warn_force {gl : FS → List String} {name : String} {fs : FS} : (Cli.warnOrRemove gl name true fs).1 = .ok () := by
  unfold Cli.warnOrRemove
  cases gl fs <;> rfl

theorem warnOpt_force {sk : Bool} {name : Option String} {gl : String → FS → List String} {fs : FS} :
    (Cli.warnOptional sk name gl true fs).1 = .ok () := by
  unfold Cli.warnOptional
  cases name with
  | none => rfl
  | some n =>
    simp only
    split_ifs
    · rfl
    · exact warn_force

/-- With `-f` it does not depend on the files whether a command line is accepted. -/
theorem accepted_force {a : Args} (hf : a.f = true) {fs fs' : FS} {c : CmdArgs} (h : (Cli.commandLine exist isDir g a fs).1 = .ok c) :
    (Cli.commandLine exist isDir g a fs').1 = .ok c := by
  unfold Cli.commandLine at h ⊢
  cases hi : Cli.findInputs exist a with
  | error e => rw [hi] at h; simp at h
  | ok cv =>
    obtain ⟨cp, vd⟩ := cv
    rw [hi] at h
    simp only at h ⊢
    unfold Cli.checkOutputs Cli.andThen at h ⊢
    simp only [hf, warnOpt_force] at h ⊢
    cases h3 : (Cli.findOptional isDir true a.ar "-ar, --ar_data_path") with
    | error e => rw [h3] at h; simp [Except.map] at h
    | ok u =>
      rw [h3] at h
      simp only [Except.map, warn_force] at h ⊢
      exact h

/-- Effects that succeed one after the other. -/
theorem ends_of_each {es : List Effect} {s : State}
    (h : ∀ es1 e es2, es = es1 ++ e :: es2 → ∀ s1, Ends false es1 s s1 true → ∃ s2, perform e s1 = .ok s2) : ∃ s', Ends false es s s' true := by
  have key : ∀ es1 es2, es = es1 ++ es2 → ∃ s', Ends false es1 s s' true := by
    intro es1
    induction es1 using List.reverseRecOn with
    | nil => intro _ _; exact ⟨s, .finished⟩
    | append_singleton es1 e ih =>
      intro es2 he
      obtain ⟨s1, h1⟩ := ih (e :: es2) (by rw [he]; simp)
      obtain ⟨s2, h2⟩ := h es1 e es2 (by rw [he]; simp) s1 h1
      exact ⟨s2, ends_join h1 (.step h2 .finished)⟩
  exact key es [] (by simp)

theorem perform_csv_ok {p : String} {line : CsvLine → List Char} {f : Frame} {s : State} {fs : List Frame} {line' : CsvLine → List Char}
    (h : s.disk.get p = Spec.csvOf line' fs) : ∃ s2, perform (.csv p line f) s = .ok s2 := by
  simp only [perform]
  rw [h]
  rcases csvOf_text line' fs with h' | ⟨t, h'⟩
  · rw [h']; exact ⟨_, rfl⟩
  · rw [h']; exact ⟨_, rfl⟩

theorem append_ok {before : List Frame} {f : Frame} {rest : List Frame} (h : Spec.Indexable (before ++ f :: rest)) :
    ∃ c, appendTable (rawDb before) f = .ok c := by
  cases before with
  | nil => exact ⟨_, rfl⟩
  | cons f0 fs =>
    simp only [rawDb, appendTable, Spec.tableOf, appendTo, Output.writeSqlite]
    rw [if_pos]
    · exact ⟨_, rfl⟩
    · rw [List.all_eq_true]
      intro c hc
      rw [List.contains_iff_mem]
      exact (h f0 (fs ++ f :: rest) rfl).1 f (by simp) c hc

/-- A run whose command line is accepted can finish, if no old file of its outputs is left over. -/
theorem accepted_finish (hg : Cli.Spec.GlobSound g) {j : Job} (hd : Spec.NamesDiffer j.args) {d1 : Disk} (hone : Spec.AtMostOne j.args d1) {c : CmdArgs}
    (h : (Cli.commandLine exist isDir g j.args d1.paths).1 = .ok c) (hcols : j.format = .sqlite → Spec.Indexable (Spec.results j)) :
    ∃ d2 log, Runs false exist isDir g ls j d1 d2 log .finished := by
  have hs := start_files hg hone h
  have hN := names_of h
  set s : State := ⟨d1.keep (Cli.commandLine exist isDir g j.args d1.paths).2, startLog j⟩ with hsdef
  -- the chunks
  have hA : ∃ s1, Ends false (j.chunks.flatMap (chunkEffects ls c j.format)) s s1 true := by
    apply ends_of_each
    intro es1 e es2 he s1 hends
    have hk := chunks_kinds (ls := ls) hN j.format j.chunks
    have hk1 : ∀ e' ∈ es1, Kind ls j.args j.format e' := fun e' h' => hk e' (by rw [he]; simp [h'])
    have hke : Kind ls j.args j.format e := hk e (by rw [he]; simp)
    cases hke with
    | log l => exact ⟨_, rfl⟩
    | ephemeris n f hn hne =>
      exact perform_csv_ok ((ends_csv (before := []) (fun e' h' => kind_csvOnly_ephemeris hd j.format hn hne (Or.inl (hk1 e' h')))
        (hs.1 _ (Or.inr (Or.inl ⟨n, hn, hne, belongs_csv _ _⟩))) hends).1 rfl)
    | stats n f hn =>
      exact perform_csv_ok ((ends_csv (before := []) (fun e' h' => kind_csvOnly_stats hd j.format hn (Or.inl (hk1 e' h')))
        (hs.1 _ (Or.inr (Or.inr ⟨n, hn, rfl⟩))) hends).1 rfl)
    | results f hfm =>
      exact perform_csv_ok ((ends_csv (before := []) (fun e' h' => kind_csvOnly_results hd j.format hfm (Or.inl (hk1 e' h')))
        (hs.1 _ (Or.inl (pathOf_results _ _))) hends).1 rfl)
    | database f hfm =>
      have hget := (ends_db (before := []) (fun e' h' => kind_sqlOnly hd j.format (hk1 e' h') hfm) (hs.1 _ (Or.inl (pathOf_results _ _))) hends).1 rfl
      rw [List.nil_append] at hget
      have hres : Spec.results j = framesDb (pathOf j.args .sqlite) es1 ++ f :: framesDb (pathOf j.args .sqlite) es2 := by
        have e1 : framesDb (pathOf j.args .sqlite) (j.chunks.flatMap (chunkEffects ls c j.format)) = Spec.results j := by
          unfold Spec.results
          rw [framesDb_flatMap, filterMap_flatMap]
          congr 1
          funext ch
          exact frames_database hN j.format ch hfm
        rw [← e1, he, framesDb_append, framesDb_cons]
        have e2 : framesDb (pathOf j.args .sqlite) [.sqlite (pathOf j.args .sqlite) f] = [f] := by simp [framesDb]
        rw [e2]
        rfl
      obtain ⟨c', hc'⟩ := append_ok (hres ▸ hcols hfm)
      simp only [perform]
      rw [hget, hc']
      exact ⟨_, rfl⟩
  obtain ⟨s1, hA⟩ := hA
  -- the indices
  have hB : ∃ s2, Ends false (makeIndex c j.format) s1 s2 true := by
    cases hfm : j.format with
    | csv => exact ⟨s1, .finished⟩
    | sqlite =>
      rw [hfm] at hA
      have hget := (ends_db (before := []) (fun e' h' => kind_sqlOnly hd .sqlite (chunks_kinds hN .sqlite j.chunks e' h') rfl)
        (hs.1 _ (Or.inl (pathOf_results _ _))) hA).1 rfl
      rw [List.nil_append, framesDb_flatMap] at hget
      have e1 : (j.chunks.flatMap fun ch => framesDb (pathOf j.args .sqlite) (chunkEffects ls c .sqlite ch)) = Spec.results j := by
        unfold Spec.results
        rw [filterMap_flatMap]
        congr 1
        funext ch
        exact frames_database hN .sqlite ch rfl
      rw [e1] at hget
      have hp : ∃ s2, perform (.index (outputPath c .sqlite)) s1 = .ok s2 := by
        rw [outputPath_eq hN]
        simp only [perform]
        rw [hget]
        have hx := hcols hfm
        cases hr : Spec.results j with
        | nil => exact ⟨_, rfl⟩
        | cons f0 fs =>
          have hc0 := (hx f0 fs hr).2
          simp only [rawDb, Spec.tableOf]
          have hi : addIndices (Spec.dbColumns f0) [] indexColumns = .ok ["ObjID", "fieldMJD_TAI", "optFilter"] := by
            have a1 := hc0 "ObjID" (by simp)
            have a2 := hc0 "fieldMJD_TAI" (by simp)
            have a3 := hc0 "optFilter" (by simp)
            simp [addIndices, indexColumns, a1, a2, a3]
          rw [hi]
          exact ⟨_, rfl⟩
      obtain ⟨s2, hp⟩ := hp
      exact ⟨s2, .step hp .finished⟩
  obtain ⟨s2, hB⟩ := hB
  have hC : Ends false [.log (j.stamp ++ "Sorcha process is completed. ".toList)] s2 _ true :=
    .step (show perform _ s2 = .ok { s2 with log := s2.log ++ (j.stamp ++ "Sorcha process is completed. ".toList) ++ ['\n'] } from rfl) .finished
  have hall : Ends false (runEffects ls c j.format j.chunks j.stamp) s _ true := ends_join (ends_join hA hB) hC
  exact ⟨_, _, .ran h hall⟩

/-- C65 (reruns): after any such history a command with `-f` is accepted if it would be in an empty directory, and the run can finish: nothing the
earlier runs have left makes it fail. (For sqlite: provided that the tables of the chunks have the same columns, among them the indexed ones.) -/
theorem C65_rerun (hg : Cli.Spec.GlobSound g) {j : Job} (hd : Spec.NamesDiffer j.args) {js : List Job}
    (hj : ∀ i ∈ js, Spec.SameNames j.args i.args) {d0 d1 : Disk} (hone : Spec.AtMostOne j.args d0)
    (hist : Series false exist isDir g ls js d0 d1) (hf : j.args.f = true) {c : CmdArgs}
    (hacc : (Cli.commandLine exist isDir g j.args []).1 = .ok c) (hcols : j.format = .sqlite → Spec.Indexable (Spec.results j)) :
    ∃ d2 log, Runs false exist isDir g ls j d1 d2 log .finished := by
  exact accepted_finish hg hd (series_step hg hd hj hone hist).1 (accepted_force hf hacc) hcols

end Sorcha.History.Props
