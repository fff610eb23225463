import Verif.History.Lemmas2

/-!
# What one run does to each file
-/

namespace Sorcha.History

open Sorcha.Cli (FS Args CmdArgs Glob)
open Sorcha.Output (Frame Cell CsvLine)

/-- The command and the dictionary made of it agree on the names of the outputs. -/
structure Names (a : Args) (c : CmdArgs) : Prop where
  o : c.outpath = a.o
  t : c.outfilestem = a.t
  ew : c.outputEphemerisFile = a.ew
  st : c.stats = a.st

theorem belongs_ext {o n ext : String} (h : '/' ∉ ext.toList) : Cli.Spec.BelongsTo o n (o ++ "/" ++ n ++ "." ++ ext) := ⟨ext, h, rfl⟩

theorem belongs_csv (o n : String) : Cli.Spec.BelongsTo o n (o ++ "/" ++ n ++ ".csv") :=
  ⟨"csv", by decide, by rw [String.append_assoc (s₁ := o ++ "/" ++ n)]; rfl⟩

theorem belongs_db (o n : String) : Cli.Spec.BelongsTo o n (o ++ "/" ++ n ++ ".db") :=
  ⟨"db", by decide, by rw [String.append_assoc (s₁ := o ++ "/" ++ n)]; rfl⟩

/-- The path of the results for a format. -/
def pathOf (a : Args) : Format → String
  | .csv => a.o ++ "/" ++ a.t ++ ".csv"
  | .sqlite => a.o ++ "/" ++ a.t ++ ".db"

theorem pathOf_results (a : Args) (fmt : Format) : Spec.IsResults a (pathOf a fmt) := by
  cases fmt
  · exact belongs_csv _ _
  · exact belongs_db _ _

theorem pathOf_eq (j : Job) : Spec.resultsPath j = pathOf j.args j.format := by
  unfold Spec.resultsPath pathOf
  cases j.format <;> rfl

theorem outputPath_eq {a : Args} {c : CmdArgs} (h : Names a c) (fmt : Format) : outputPath c fmt = pathOf a fmt := by
  unfold outputPath pathOf
  cases fmt <;> rw [h.o, h.t]

/-- The kinds of effects of a chunk. -/
inductive Kind (ls : Lines) (a : Args) (fmt : Format) : Effect → Prop
  | log (l) : Kind ls a fmt (.log l)
  | ephemeris (n f) (hn : a.ew = some n) (hne : n ≠ "") : Kind ls a fmt (.csv (a.o ++ "/" ++ n ++ ".csv") ls.ephemeris f)
  | stats (n f) (hn : a.st = some n) : Kind ls a fmt (.csv (a.o ++ "/" ++ n ++ ".csv") ls.stats f)
  | results (f) (h : fmt = .csv) : Kind ls a fmt (.csv (pathOf a .csv) ls.output f)
  | database (f) (h : fmt = .sqlite) : Kind ls a fmt (.sqlite (pathOf a .sqlite) f)

theorem chunk_kinds {ls : Lines} {a : Args} {c : CmdArgs} (h : Names a c) (fmt : Format) (ch : Chunk) :
    ∀ e ∈ chunkEffects ls c fmt ch, Kind ls a fmt e := by
  intro e he
  unfold chunkEffects at he
  rw [List.mem_append, List.mem_append] at he
  rcases he with (he | he) | he
  · obtain ⟨l, -, rfl⟩ := List.mem_map.1 he
    exact .log l
  · obtain ⟨f, -, he⟩ := List.mem_flatMap.1 he
    unfold writeEphemeris at he
    rw [h.ew] at he
    cases hew : a.ew with
    | none => rw [hew] at he; simp at he
    | some n =>
      rw [hew] at he
      simp only at he
      split_ifs at he with hemp
      · simp at he
      · rw [List.mem_singleton] at he
        subst he
        rw [h.o]
        exact .ephemeris n f hew (fun h' => hemp (String.isEmpty_iff.2 h'))
  · obtain ⟨r, -, he⟩ := List.mem_flatMap.1 he
    unfold writeResults at he
    rw [List.mem_cons] at he
    rcases he with rfl | he
    · unfold writeOutput
      cases fmt
      · simp only [outputPath_eq h]; exact .results _ rfl
      · simp only [outputPath_eq h]; exact .database _ rfl
    · unfold writeStats at he
      rw [h.st] at he
      cases hst : a.st with
      | none => rw [hst] at he; simp at he
      | some n =>
        rw [hst] at he
        simp only [List.mem_singleton] at he
        subst he
        rw [h.o]
        exact .stats n _ hst

theorem chunks_kinds {ls : Lines} {a : Args} {c : CmdArgs} (h : Names a c) (fmt : Format) (chs : List Chunk) :
    ∀ e ∈ chs.flatMap (chunkEffects ls c fmt), Kind ls a fmt e := by
  intro e he
  obtain ⟨ch, -, he⟩ := List.mem_flatMap.1 he
  exact chunk_kinds h fmt ch e he

/-! ## The tables written to each file -/

theorem framesOf_append (p : String) (es1 es2 : List Effect) : framesOf p (es1 ++ es2) = framesOf p es1 ++ framesOf p es2 := by
  unfold framesOf; rw [List.filterMap_append]

theorem framesOf_flatMap (p : String) (g : Chunk → List Effect) (chs : List Chunk) :
    framesOf p (chs.flatMap g) = chs.flatMap fun ch => framesOf p (g ch) := by
  induction chs with
  | nil => rfl
  | cons ch chs ih => rw [List.flatMap_cons, framesOf_append, ih, List.flatMap_cons]

theorem framesDb_append (p : String) (es1 es2 : List Effect) : framesDb p (es1 ++ es2) = framesDb p es1 ++ framesDb p es2 := by
  unfold framesDb; rw [List.filterMap_append]

theorem framesDb_flatMap (p : String) (g : Chunk → List Effect) (chs : List Chunk) :
    framesDb p (chs.flatMap g) = chs.flatMap fun ch => framesDb p (g ch) := by
  induction chs with
  | nil => rfl
  | cons ch chs ih => rw [List.flatMap_cons, framesDb_append, ih, List.flatMap_cons]

theorem filterMap_flatMap {α β : Type} (f : α → Option β) (l : List α) : l.filterMap f = l.flatMap fun x => (f x).toList := by
  induction l with
  | nil => rfl
  | cons x l ih =>
    rw [List.flatMap_cons, ← ih]
    cases h : f x with
    | none => rw [List.filterMap_cons_none h]; rfl
    | some y => rw [List.filterMap_cons_some h]; rfl

theorem framesOf_logs (p : String) (ms : List (List Char)) : framesOf p (ms.map .log) = [] := by
  induction ms with
  | nil => rfl
  | cons m ms ih => rw [List.map_cons, framesOf_cons, ih]; rfl

theorem framesDb_logs (p : String) (ms : List (List Char)) : framesDb p (ms.map .log) = [] := by
  induction ms with
  | nil => rfl
  | cons m ms ih => rw [List.map_cons, framesDb_cons, ih]; rfl

theorem framesOf_one (p q : String) (l : CsvLine → List Char) (f : Frame) : framesOf p [.csv q l f] = if q = p then [f] else [] := by
  unfold framesOf
  by_cases h : q = p <;> simp [h]

section
variable {ls : Lines} {a : Args} {c : CmdArgs} (h : Names a c) (hd : Spec.NamesDiffer a) (fmt : Format)
include h hd

theorem frames_ephemeris {n : String} (hn : a.ew = some n) (hne : n ≠ "") (ch : Chunk) :
    framesOf (a.o ++ "/" ++ n ++ ".csv") (chunkEffects ls c fmt ch) = ch.ephemeris.toList := by
  have hE : Spec.IsEphemeris a (a.o ++ "/" ++ n ++ ".csv") := ⟨n, hn, hne, belongs_csv _ _⟩
  have hemp : n.isEmpty = false := by
    rw [Bool.eq_false_iff]; intro h'; exact hne (String.isEmpty_iff.1 h')
  have h2 : ∀ f, framesOf (a.o ++ "/" ++ n ++ ".csv") (writeEphemeris ls c f) = [f] := by
    intro f
    simp only [writeEphemeris, h.ew, hn, hemp, Bool.false_eq_true, if_false, h.o]
    rw [framesOf_one, if_pos rfl]
  have h3 : ∀ r, framesOf (a.o ++ "/" ++ n ++ ".csv") (writeResults ls c fmt r) = [] := by
    intro r
    unfold writeResults
    rw [framesOf_cons]
    have h1 : framesOf (a.o ++ "/" ++ n ++ ".csv") [writeOutput ls c fmt r.1] = [] := by
      unfold writeOutput
      cases fmt
      · simp only [outputPath_eq h]
        rw [framesOf_one, if_neg]
        intro h'
        exact hd.1 _ ⟨pathOf_results a .csv, h' ▸ hE⟩
      · rfl
    rw [h1, List.nil_append]
    unfold writeStats
    rw [h.st, h.o]
    cases hst : a.st with
    | none => rfl
    | some m =>
      simp only
      rw [framesOf_one, if_neg]
      intro h'
      exact hd.2.2 _ ⟨hE, m, hst, h'.symm⟩
  unfold chunkEffects
  rw [framesOf_append, framesOf_append, framesOf_logs, List.nil_append]
  cases ch.ephemeris <;> cases ch.results <;>
    simp only [Option.toList_none, Option.toList_some, List.flatMap_nil, List.flatMap_singleton, h2, h3, List.append_nil] <;> rfl

theorem frames_stats {n : String} (hn : a.st = some n) (ch : Chunk) :
    framesOf (a.o ++ "/" ++ n ++ ".csv") (chunkEffects ls c fmt ch) = (ch.results.map (·.2)).toList := by
  have hS : Spec.IsStats a (a.o ++ "/" ++ n ++ ".csv") := ⟨n, hn, rfl⟩
  have h2 : ∀ f, framesOf (a.o ++ "/" ++ n ++ ".csv") (writeEphemeris ls c f) = [] := by
    intro f
    simp only [writeEphemeris, h.ew, h.o]
    cases hew : a.ew with
    | none => rfl
    | some m =>
      simp only
      split_ifs with hemp
      · rfl
      · rw [framesOf_one, if_neg]
        intro h'
        exact hd.2.2 _ ⟨⟨m, hew, fun h0 => hemp (String.isEmpty_iff.2 h0), belongs_csv _ _⟩, h' ▸ hS⟩
  have h3 : ∀ r, framesOf (a.o ++ "/" ++ n ++ ".csv") (writeResults ls c fmt r) = [r.2] := by
    intro r
    unfold writeResults
    rw [framesOf_cons]
    have h1 : framesOf (a.o ++ "/" ++ n ++ ".csv") [writeOutput ls c fmt r.1] = [] := by
      unfold writeOutput
      cases fmt
      · simp only [outputPath_eq h]
        rw [framesOf_one, if_neg]
        intro h'
        exact hd.2.1 _ ⟨pathOf_results a .csv, h' ▸ hS⟩
      · rfl
    rw [h1, List.nil_append]
    simp only [writeStats, h.st, h.o, hn]
    rw [framesOf_one, if_pos rfl]
  unfold chunkEffects
  rw [framesOf_append, framesOf_append, framesOf_logs, List.nil_append]
  cases ch.ephemeris <;> cases ch.results <;>
    simp only [Option.toList_none, Option.toList_some, List.flatMap_nil, List.flatMap_singleton, h2, h3, List.append_nil, List.nil_append] <;> rfl

theorem frames_results (ch : Chunk) (hf : fmt = .csv) :
    framesOf (pathOf a .csv) (chunkEffects ls c fmt ch) = (ch.results.map (·.1)).toList := by
  have hR := pathOf_results a .csv
  subst hf
  have h2 : ∀ f, framesOf (pathOf a .csv) (writeEphemeris ls c f) = [] := by
    intro f
    simp only [writeEphemeris, h.ew, h.o]
    cases hew : a.ew with
    | none => rfl
    | some m =>
      simp only
      split_ifs with hemp
      · rfl
      · rw [framesOf_one, if_neg]
        intro h'
        exact hd.1 _ ⟨hR, m, hew, fun h0 => hemp (String.isEmpty_iff.2 h0), h' ▸ belongs_csv _ _⟩
  have h3 : ∀ r, framesOf (pathOf a .csv) (writeResults ls c .csv r) = [r.1] := by
    intro r
    unfold writeResults
    rw [framesOf_cons]
    simp only [writeOutput, outputPath_eq h]
    rw [framesOf_one, if_pos rfl]
    have h1 : framesOf (pathOf a .csv) (writeStats ls c r.2) = [] := by
      unfold writeStats
      rw [h.st, h.o]
      cases hst : a.st with
      | none => rfl
      | some m =>
        simp only
        rw [framesOf_one, if_neg]
        intro h'
        exact hd.2.1 _ ⟨hR, m, hst, h'.symm⟩
    rw [h1, List.append_nil]
  unfold chunkEffects
  rw [framesOf_append, framesOf_append, framesOf_logs, List.nil_append]
  cases ch.ephemeris <;> cases ch.results <;>
    simp only [Option.toList_none, Option.toList_some, List.flatMap_nil, List.flatMap_singleton, h2, h3, List.append_nil, List.nil_append] <;> rfl

omit hd in
theorem frames_database (ch : Chunk) (hf : fmt = .sqlite) :
    framesDb (pathOf a .sqlite) (chunkEffects ls c fmt ch) = (ch.results.map (·.1)).toList := by
  subst hf
  have h2 : ∀ f, framesDb (pathOf a .sqlite) (writeEphemeris ls c f) = [] := by
    intro f
    unfold writeEphemeris
    cases c.outputEphemerisFile with
    | none => rfl
    | some m =>
      simp only
      split_ifs with hemp <;> rfl
  have h3 : ∀ r, framesDb (pathOf a .sqlite) (writeResults ls c .sqlite r) = [r.1] := by
    intro r
    unfold writeResults
    rw [framesDb_cons]
    simp only [writeOutput, outputPath_eq h]
    have h1 : framesDb (pathOf a .sqlite) [.sqlite (pathOf a .sqlite) r.1] = [r.1] := by simp [framesDb]
    rw [h1]
    unfold writeStats
    cases c.stats <;> rfl
  unfold chunkEffects
  rw [framesDb_append, framesDb_append, framesDb_logs, List.nil_append]
  cases ch.ephemeris <;> cases ch.results <;>
    simp only [Option.toList_none, Option.toList_some, List.flatMap_nil, List.flatMap_singleton, h2, h3, List.append_nil, List.nil_append] <;> rfl

/-! ## One run -/

/-- The files before the run: none of the outputs exists. -/
def Clean (a : Args) (d : Disk) : Prop := ∀ p, Spec.IsResults a p ∨ Spec.IsEphemeris a p ∨ Spec.IsStats a p → d.get p = none

omit hd in
/-- All effects of a run are of the kinds above, the index or a line of the log. -/
theorem run_kinds (chs : List Chunk) (stamp : List Char) :
    ∀ e ∈ runEffects ls c fmt chs stamp, Kind ls a fmt e ∨ (fmt = .sqlite ∧ e = .index (pathOf a .sqlite)) := by
  intro e he
  unfold runEffects at he
  rw [List.mem_append, List.mem_append] at he
  rcases he with (he | he) | he
  · exact Or.inl (chunks_kinds h fmt chs e he)
  · cases fmt
    · simp [makeIndex] at he
    · simp only [makeIndex, List.mem_singleton] at he
      exact Or.inr ⟨rfl, by rw [he, outputPath_eq h]⟩
  · rw [List.mem_singleton] at he
    rw [he]
    exact Or.inl (.log _)

omit h in
theorem kind_csvOnly_ephemeris {n : String} (hn : a.ew = some n) (hne : n ≠ "") {e : Effect}
    (he : Kind ls a fmt e ∨ (fmt = .sqlite ∧ e = .index (pathOf a .sqlite))) : CsvOnly (a.o ++ "/" ++ n ++ ".csv") ls.ephemeris e := by
  have hE : Spec.IsEphemeris a (a.o ++ "/" ++ n ++ ".csv") := ⟨n, hn, hne, belongs_csv _ _⟩
  rcases he with he | ⟨-, rfl⟩
  · cases he with
    | log l => trivial
    | ephemeris m f hm hme => intro _; rfl
    | stats m f hm => intro h'; exact absurd ⟨hE, m, hm, h'.symm⟩ (hd.2.2 _)
    | results f _ => intro h'; exact absurd ⟨pathOf_results a .csv, h' ▸ hE⟩ (hd.1 _)
    | database f _ => intro h'; exact absurd ⟨pathOf_results a .sqlite, h' ▸ hE⟩ (hd.1 _)
  · intro h'; exact absurd ⟨pathOf_results a .sqlite, h' ▸ hE⟩ (hd.1 _)

omit h in
theorem kind_csvOnly_stats {n : String} (hn : a.st = some n) {e : Effect}
    (he : Kind ls a fmt e ∨ (fmt = .sqlite ∧ e = .index (pathOf a .sqlite))) : CsvOnly (a.o ++ "/" ++ n ++ ".csv") ls.stats e := by
  have hS : Spec.IsStats a (a.o ++ "/" ++ n ++ ".csv") := ⟨n, hn, rfl⟩
  rcases he with he | ⟨-, rfl⟩
  · cases he with
    | log l => trivial
    | ephemeris m f hm hme => intro h'; exact absurd ⟨⟨m, hm, hme, belongs_csv _ _⟩, h' ▸ hS⟩ (hd.2.2 _)
    | stats m f hm => intro _; rfl
    | results f _ => intro h'; exact absurd ⟨pathOf_results a .csv, h' ▸ hS⟩ (hd.2.1 _)
    | database f _ => intro h'; exact absurd ⟨pathOf_results a .sqlite, h' ▸ hS⟩ (hd.2.1 _)
  · intro h'; exact absurd ⟨pathOf_results a .sqlite, h' ▸ hS⟩ (hd.2.1 _)

omit h in
theorem kind_csvOnly_results (hf : fmt = .csv) {e : Effect}
    (he : Kind ls a fmt e ∨ (fmt = .sqlite ∧ e = .index (pathOf a .sqlite))) : CsvOnly (pathOf a .csv) ls.output e := by
  have hR := pathOf_results a .csv
  rcases he with he | ⟨h', -⟩
  · cases he with
    | log l => trivial
    | ephemeris m f hm hme => intro h'; exact absurd ⟨hR, m, hm, hme, h' ▸ belongs_csv _ _⟩ (hd.1 _)
    | stats m f hm => intro h'; exact absurd ⟨hR, m, hm, h'.symm⟩ (hd.2.1 _)
    | results f _ => intro _; rfl
    | database f h' => rw [hf] at h'; simp at h'
  · rw [hf] at h'; simp at h'

omit h in
theorem kind_sqlOnly {e : Effect} (he : Kind ls a fmt e) (hf : fmt = .sqlite) : SqlOnly (pathOf a .sqlite) e := by
  have hR := pathOf_results a .sqlite
  cases he with
  | log l => trivial
  | ephemeris m f hm hme =>
    intro h'
    exact absurd ⟨hR, m, hm, hme, h' ▸ belongs_csv _ _⟩ (hd.1 _)
  | stats m f hm => intro h'; exact absurd ⟨hR, m, hm, h'.symm⟩ (hd.2.1 _)
  | results f h' => rw [hf] at h'; simp at h'
  | database f _ => trivial

omit h hd in
theorem kind_untouched {p : String} (hr : p ≠ pathOf a fmt) (he' : ∀ n, a.ew = some n → n ≠ "" → p ≠ a.o ++ "/" ++ n ++ ".csv")
    (hs : ¬ Spec.IsStats a p) {e : Effect} (he : Kind ls a fmt e ∨ (fmt = .sqlite ∧ e = .index (pathOf a .sqlite))) : Untouched p e := by
  rcases he with he | ⟨hf, rfl⟩
  · cases he with
    | log l => trivial
    | ephemeris m f hm hme => intro h'; exact he' m hm hme h'.symm
    | stats m f hm => intro h'; exact hs ⟨m, hm, h'.symm⟩
    | results f hf => intro h'; subst hf; exact hr h'.symm
    | database f hf => intro h'; subst hf; exact hr h'.symm
  · intro h'; subst hf; exact hr h'.symm

/-- The ephemeris file after a run. -/
theorem run_ephemeris {n : String} (hn : a.ew = some n) (hne : n ≠ "") {chs : List Chunk} {stamp : List Char} {s s' : State} {done : Bool}
    (hs : s.disk.get (a.o ++ "/" ++ n ++ ".csv") = none) (he : Ends false (runEffects ls c fmt chs stamp) s s' done) :
    (done = true → s'.disk.get (a.o ++ "/" ++ n ++ ".csv") = Spec.csvOf ls.ephemeris (chs.filterMap (·.ephemeris))) ∧
      Spec.TextStage (s'.disk.get (a.o ++ "/" ++ n ++ ".csv")) (Spec.csvOf ls.ephemeris (chs.filterMap (·.ephemeris))) := by
  have key := ends_csv (before := []) (fun e hm => kind_csvOnly_ephemeris hd fmt hn hne (run_kinds h fmt chs stamp e hm)) hs he
  have hf : framesOf (a.o ++ "/" ++ n ++ ".csv") (runEffects ls c fmt chs stamp) = chs.filterMap (·.ephemeris) := by
    unfold runEffects
    rw [framesOf_append, framesOf_append, framesOf_flatMap, filterMap_flatMap]
    have h2 : framesOf (a.o ++ "/" ++ n ++ ".csv") (makeIndex c fmt) = [] := by cases fmt <;> rfl
    rw [h2, List.append_nil, show framesOf (a.o ++ "/" ++ n ++ ".csv") [.log (stamp ++ "Sorcha process is completed. ".toList)] = [] from rfl,
      List.append_nil]
    congr 1
    funext ch
    exact frames_ephemeris h hd fmt hn hne ch
  rw [hf, List.nil_append] at key
  exact key

/-- The statistics after a run. -/
theorem run_stats {n : String} (hn : a.st = some n) {chs : List Chunk} {stamp : List Char} {s s' : State} {done : Bool}
    (hs : s.disk.get (a.o ++ "/" ++ n ++ ".csv") = none) (he : Ends false (runEffects ls c fmt chs stamp) s s' done) :
    (done = true → s'.disk.get (a.o ++ "/" ++ n ++ ".csv") = Spec.csvOf ls.stats (chs.filterMap fun ch => ch.results.map (·.2))) ∧
      Spec.TextStage (s'.disk.get (a.o ++ "/" ++ n ++ ".csv")) (Spec.csvOf ls.stats (chs.filterMap fun ch => ch.results.map (·.2))) := by
  have key := ends_csv (before := []) (fun e hm => kind_csvOnly_stats hd fmt hn (run_kinds h fmt chs stamp e hm)) hs he
  have hf : framesOf (a.o ++ "/" ++ n ++ ".csv") (runEffects ls c fmt chs stamp) = chs.filterMap fun ch => ch.results.map (·.2) := by
    unfold runEffects
    rw [framesOf_append, framesOf_append, framesOf_flatMap, filterMap_flatMap]
    have h2 : framesOf (a.o ++ "/" ++ n ++ ".csv") (makeIndex c fmt) = [] := by cases fmt <;> rfl
    rw [h2, List.append_nil, show framesOf (a.o ++ "/" ++ n ++ ".csv") [.log (stamp ++ "Sorcha process is completed. ".toList)] = [] from rfl,
      List.append_nil]
    congr 1
    funext ch
    exact frames_stats h hd fmt hn ch
  rw [hf, List.nil_append] at key
  exact key

/-- The CSV results after a run. -/
theorem run_results (hfmt : fmt = .csv) {chs : List Chunk} {stamp : List Char} {s s' : State} {done : Bool}
    (hs : s.disk.get (pathOf a .csv) = none) (he : Ends false (runEffects ls c fmt chs stamp) s s' done) :
    (done = true → s'.disk.get (pathOf a .csv) = Spec.csvOf ls.output (chs.filterMap fun ch => ch.results.map (·.1))) ∧
      Spec.TextStage (s'.disk.get (pathOf a .csv)) (Spec.csvOf ls.output (chs.filterMap fun ch => ch.results.map (·.1))) := by
  have key := ends_csv (before := []) (fun e hm => kind_csvOnly_results hd fmt hfmt (run_kinds h fmt chs stamp e hm)) hs he
  have hf : framesOf (pathOf a .csv) (runEffects ls c fmt chs stamp) = chs.filterMap fun ch => ch.results.map (·.1) := by
    unfold runEffects
    rw [framesOf_append, framesOf_append, framesOf_flatMap, filterMap_flatMap]
    have h2 : framesOf (pathOf a .csv) (makeIndex c fmt) = [] := by cases fmt <;> rfl
    rw [h2, List.append_nil, show framesOf (pathOf a .csv) [.log (stamp ++ "Sorcha process is completed. ".toList)] = [] from rfl,
      List.append_nil]
    congr 1
    funext ch
    exact frames_results h hd fmt ch hfmt
  rw [hf, List.nil_append] at key
  exact key

/-- The database of results after a run. -/
theorem run_database (hfmt : fmt = .sqlite) {chs : List Chunk} {stamp : List Char} {s s' : State} {done : Bool}
    (hs : s.disk.get (pathOf a .sqlite) = none) (he : Ends false (runEffects ls c fmt chs stamp) s s' done) :
    (done = true → s'.disk.get (pathOf a .sqlite) = Spec.dbOf (chs.filterMap fun ch => ch.results.map (·.1))) ∧
      Spec.TableStage (chs.filterMap fun ch => ch.results.map (·.1)) (s'.disk.get (pathOf a .sqlite)) := by
  subst hfmt
  have hf : framesDb (pathOf a .sqlite) (chs.flatMap (chunkEffects ls c .sqlite)) = chs.filterMap fun ch => ch.results.map (·.1) := by
    rw [framesDb_flatMap, filterMap_flatMap]
    congr 1
    funext ch
    exact frames_database h .sqlite ch rfl
  unfold runEffects at he
  simp only [makeIndex, outputPath_eq h] at he
  have hlog : ∀ {s1 s2 : State} {b : Bool} {l : List Char}, Ends false [.log l] s1 s2 b → s2.disk.get (pathOf a .sqlite) = s1.disk.get (pathOf a .sqlite) :=
    fun hx => ends_untouched (by intro e he; rw [List.mem_singleton] at he; rw [he]; trivial) hx
  have hchunks : ∀ {s1 s2 : State} {b : Bool}, s1.disk.get (pathOf a .sqlite) = none → Ends false (chs.flatMap (chunkEffects ls c .sqlite)) s1 s2 b → _ :=
    fun {s1 s2 b} h1 hx => ends_db (before := []) (fun e hm => kind_sqlOnly hd .sqlite (chunks_kinds h .sqlite chs e hm) rfl) h1 hx
  rcases ends_append he with ⟨s1, h1, h2⟩ | ⟨hdone, h1⟩
  · rw [hlog h2]
    rcases ends_append h1 with ⟨s0, h3, h4⟩ | ⟨h3, -⟩
    · have k := (hchunks hs h3).1 rfl
      rw [hf, List.nil_append] at k
      have k2 := ends_index k h4
      exact ⟨fun _ => k2.1 rfl, k2.2⟩
    · simp at h3
  · refine ⟨fun h' => by rw [hdone] at h'; simp at h', ?_⟩
    rcases ends_append h1 with ⟨s0, h3, h4⟩ | ⟨-, h3⟩
    · have k := (hchunks hs h3).1 rfl
      rw [hf, List.nil_append] at k
      exact (ends_index k h4).2
    · have k := (hchunks hs h3).2
      rw [hf, List.nil_append] at k
      rcases k with k | ⟨i, k⟩
      · exact Or.inl k
      · exact Or.inr ⟨i, [], k, List.nil_prefix, fun h' => absurd rfl h'⟩

omit hd in
/-- Every other file is as before the run. -/
theorem run_other {p : String} (hr : p ≠ pathOf a fmt) (he' : ∀ n, a.ew = some n → n ≠ "" → p ≠ a.o ++ "/" ++ n ++ ".csv")
    (hs : ¬ Spec.IsStats a p) {chs : List Chunk} {stamp : List Char} {s s' : State} {done : Bool}
    (he : Ends false (runEffects ls c fmt chs stamp) s s' done) : s'.disk.get p = s.disk.get p :=
  ends_untouched (fun e hm => kind_untouched fmt hr he' hs (run_kinds h fmt chs stamp e hm)) he

end

end Sorcha.History
