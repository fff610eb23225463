import Verif.History.Lemmas

/-!
# Lemmas about databases, logs and the effects of a whole run
-/

namespace Sorcha.History

open Sorcha.Cli (FS Args CmdArgs Glob)
open Sorcha.Output (Frame Cell CsvLine)

/-! ## A database -/

/-- The tables the effects append to the database `p`. -/
def framesDb (p : String) (es : List Effect) : List Frame :=
  es.filterMap fun e => match e with
    | .sqlite q f => if q = p then some f else none
    | _ => none

/-- The effect appends to the database `p` or does not concern it. -/
def SqlOnly (p : String) : Effect → Prop
  | .csv q _ _ => q ≠ p
  | .sqlite _ _ => True
  | .index q => q ≠ p
  | .log _ => True

/-- A database without indices. -/
def rawDb : List Frame → Option Content
  | [] => none
  | fs => some (.db (Spec.tableOf fs) [])

theorem rawDb_snoc {before : List Frame} {f : Frame} {c : Content} (h : appendTable (rawDb before) f = .ok c) :
    c = .db (Spec.tableOf (before ++ [f])) [] := by
  cases before with
  | nil =>
    simp only [rawDb, appendTable, appendTo, Output.writeSqlite, Except.ok.injEq] at h
    subst h
    simp only [List.nil_append, Spec.tableOf, Spec.dbColumns, List.flatMap_cons, List.flatMap_nil, List.append_nil, Output.Frame.cells]
    congr 3
    apply List.map_congr_left
    intro r _
    apply List.map_congr_left
    intro c hc
    exact (if_pos hc).symm
  | cons f0 fs =>
    simp only [rawDb, appendTable, Spec.tableOf, appendTo, Output.writeSqlite] at h
    split_ifs at h with hall
    · simp only [Except.ok.injEq] at h
      subst h
      simp only [List.cons_append, Spec.tableOf]
      congr 3
      rw [← List.cons_append, List.flatMap_append, List.flatMap_singleton]
      congr 1
      apply List.map_congr_left
      intro r _
      apply List.map_congr_left
      intro c _
      simp [Spec.dbColumns]

theorem framesDb_cons (p : String) (e : Effect) (es : List Effect) : framesDb p (e :: es) = framesDb p [e] ++ framesDb p es := by
  unfold framesDb
  rw [← List.filterMap_append]
  rfl

theorem sqlOnly_untouched {p : String} {e : Effect} (h : SqlOnly p e) : (∃ f, e = .sqlite p f) ∨ (Untouched p e ∧ framesDb p [e] = []) := by
  cases e with
  | csv q l f => exact Or.inr ⟨h, rfl⟩
  | sqlite q f =>
    by_cases hq : q = p
    · exact Or.inl ⟨f, by rw [hq]⟩
    · exact Or.inr ⟨hq, by simp [framesDb, hq]⟩
  | index q => exact Or.inr ⟨h, rfl⟩
  | log l => exact Or.inr ⟨trivial, rfl⟩

/-- The database holds the first few tables, without indices. -/
def RawStage (tables : List Frame) (part : Option Content) : Prop :=
  part = none ∨ ∃ k, part = some (.db (Spec.tableOf (tables.take k)) [])

theorem rawDb_stage (before after : List Frame) : RawStage (before ++ after) (rawDb before) := by
  cases before with
  | nil => exact Or.inl rfl
  | cons f fs => exact Or.inr ⟨(f :: fs).length, by rw [List.take_left]; rfl⟩

theorem ends_db {p : String} {es : List Effect} {s s' : State} {done : Bool} {before : List Frame} (hc : ∀ e ∈ es, SqlOnly p e)
    (hs : s.disk.get p = rawDb before) (h : Ends false es s s' done) :
    (done = true → s'.disk.get p = rawDb (before ++ framesDb p es)) ∧ RawStage (before ++ framesDb p es) (s'.disk.get p) := by
  induction h generalizing before with
  | finished =>
    have : framesDb p [] = [] := rfl
    rw [this, List.append_nil]
    refine ⟨fun _ => hs, ?_⟩
    rw [hs]
    have := rawDb_stage before []
    rwa [List.append_nil] at this
  | @step e es s s1 s' done h _ ih =>
    rw [framesDb_cons, ← List.append_assoc]
    apply ih fun e he => hc e (List.mem_cons_of_mem _ he)
    rcases sqlOnly_untouched (hc e List.mem_cons_self) with ⟨f, rfl⟩ | ⟨hu, hf⟩
    · have hf : framesDb p [.sqlite p f] = [f] := by simp [framesDb]
      rw [hf]
      simp only [perform] at h
      cases ha : appendTable (s.disk.get p) f with
      | error e => rw [ha] at h; simp at h
      | ok c =>
        rw [ha] at h
        simp only [Except.ok.injEq] at h
        subst h
        rw [hs] at ha
        rw [rawDb_snoc ha, get_put_self]
        cases before <;> rfl
    · rw [hf, List.append_nil, perform_untouched hu h, hs]
  | @stopped e es s =>
    refine ⟨fun h => by simp at h, ?_⟩
    rw [hs]
    exact rawDb_stage _ _
  | @during e es s s' h =>
    refine ⟨fun h => by simp at h, ?_⟩
    rcases sqlOnly_untouched (hc e List.mem_cons_self) with ⟨f, rfl⟩ | ⟨hu, hf⟩
    · cases h with
      | newDb h => exact Or.inr ⟨0, by rw [get_put_self]; rfl⟩
      | newJournal j h hj => simp at hj
      | oldJournal j h hj => simp at hj
    · rw [framesDb_cons, hf, List.nil_append, interrupted_untouched hu h, hs]
      exact rawDb_stage _ _

theorem addIndices_ok {cols done cs ix : List String} (h : addIndices cols done cs = .ok ix) : ix = done ++ cs := by
  induction cs generalizing done with
  | nil => simp only [addIndices, Except.ok.injEq] at h; simp [h]
  | cons c cs ih =>
    simp only [addIndices] at h
    split_ifs at h
    rw [ih h]; simp

theorem tableOf_cons (f : Frame) (fs : List Frame) : ∃ t, Spec.tableOf (f :: fs) = some t := ⟨_, rfl⟩

/-- The indices at the end. -/
theorem ends_index {p : String} {s s' : State} {done : Bool} {tables : List Frame} (hs : s.disk.get p = rawDb tables)
    (h : Ends false [.index p] s s' done) : (done = true → s'.disk.get p = Spec.dbOf tables) ∧ Spec.TableStage tables (s'.disk.get p) := by
  have hfull : Spec.TableStage tables (Spec.dbOf tables) := by
    cases tables with
    | nil => exact Or.inl rfl
    | cons f fs => exact Or.inr ⟨(f :: fs).length, _, by rw [List.take_length]; rfl, List.prefix_rfl, fun _ => le_refl _⟩
  have hraw : Spec.TableStage tables (rawDb tables) := by
    cases tables with
    | nil => exact Or.inl rfl
    | cons f fs => exact Or.inr ⟨(f :: fs).length, _, by rw [List.take_length]; rfl, List.nil_prefix, fun h => absurd rfl h⟩
  cases h with
  | step h ht =>
    cases ht
    simp only [perform] at h
    rw [hs] at h
    cases tables with
    | nil =>
      simp only [rawDb, Except.ok.injEq] at h
      subst h
      rw [hs]
      exact ⟨fun _ => rfl, hfull⟩
    | cons f fs =>
      obtain ⟨t, ht⟩ := tableOf_cons f fs
      simp only [rawDb, ht] at h
      cases hi : addIndices t.1 [] indexColumns with
      | error e => rw [hi] at h; simp at h
      | ok ix =>
        rw [hi] at h
        simp only [Except.ok.injEq] at h
        subst h
        rw [get_put_self, addIndices_ok hi, ← ht]
        exact ⟨fun _ => rfl, hfull⟩
  | stopped => rw [hs]; exact ⟨fun h => by simp at h, hraw⟩
  | during h =>
    refine ⟨fun h => by simp at h, ?_⟩
    cases h with
    | index part h hp =>
      rw [hs] at h
      cases tables with
      | nil => simp [rawDb] at h
      | cons f fs =>
        simp only [rawDb, Option.some.injEq, Content.db.injEq] at h
        rw [get_put_self, ← h.1, ← h.2, List.nil_append]
        exact Or.inr ⟨(f :: fs).length, part, by rw [List.take_length], hp, fun _ => le_refl _⟩
    | indexJournal j h hj => simp at hj

/-! ## Logs -/

/-- The lines logged. -/
def linesOf (es : List Effect) : List (List Char) :=
  es.filterMap fun e => match e with
    | .log l => some l
    | _ => none

theorem perform_log {e : Effect} {s s' : State} (h : perform e s = .ok s') :
    s'.log = s.log ++ (linesOf [e]).flatMap fun l => l ++ ['\n'] := by
  cases e with
  | csv q line f =>
    simp only [perform] at h
    cases hg : s.disk.get q with
    | none => rw [hg] at h; simp only [Except.ok.injEq] at h; subst h; simp [linesOf]
    | some c =>
      rw [hg] at h
      cases c with
      | text old => simp only [Except.ok.injEq] at h; subst h; simp [linesOf]
      | db t ix => simp at h
  | sqlite q f =>
    simp only [perform] at h
    cases ha : appendTable (s.disk.get q) f with
    | error e => rw [ha] at h; simp at h
    | ok c => rw [ha] at h; simp only [Except.ok.injEq] at h; subst h; simp [linesOf]
  | index q =>
    simp only [perform] at h
    cases hg : s.disk.get q with
    | none => rw [hg] at h; simp only [Except.ok.injEq] at h; subst h; simp [linesOf]
    | some c =>
      rw [hg] at h
      cases c with
      | text old => simp at h
      | db t ix =>
        cases t with
        | none => simp at h
        | some t =>
          simp only at h
          cases hi : addIndices t.1 ix indexColumns with
          | error e => rw [hi] at h; simp at h
          | ok ix' => rw [hi] at h; simp only [Except.ok.injEq] at h; subst h; simp [linesOf]
  | log line =>
    simp only [perform, Except.ok.injEq] at h
    subst h
    simp [linesOf]

theorem ends_log {journal : Bool} {es : List Effect} {s s' : State} {done : Bool} (h : Ends journal es s s' done) :
    (done = true → s'.log = s.log ++ (linesOf es).flatMap fun l => l ++ ['\n']) ∧
      ∃ rest, s'.log ++ rest = s.log ++ (linesOf es).flatMap fun l => l ++ ['\n'] := by
  induction h with
  | finished => exact ⟨fun _ => by simp [linesOf], [], by simp [linesOf]⟩
  | @step e es s s1 s' done h _ ih =>
    have hl : linesOf (e :: es) = linesOf [e] ++ linesOf es := by
      unfold linesOf; rw [← List.filterMap_append]; rfl
    rw [hl, List.flatMap_append, ← List.append_assoc, ← perform_log h]
    exact ih
  | stopped => exact ⟨fun h => by simp at h, _, rfl⟩
  | @during e es s s' h =>
    refine ⟨fun h => by simp at h, ?_⟩
    cases h with
    | log part hp =>
      obtain ⟨r, hr⟩ := hp
      refine ⟨r ++ (linesOf es).flatMap fun l => l ++ ['\n'], ?_⟩
      rename_i line
      have hl : linesOf (.log line :: es) = line :: linesOf es := rfl
      rw [hl, List.flatMap_cons, ← hr]
      simp
    | newCsv | oldCsv | newDb | newJournal | oldJournal | index | indexJournal => exact ⟨_, rfl⟩

/-- A text without line feeds that occurs among lines occurs in one of them. -/
theorem occurs_lines {w : List Char} (hw : w ≠ []) (hn : '\n' ∉ w) {lines : List (List Char)}
    (h : Cli.Spec.Occurs w (lines.flatMap fun l => l ++ ['\n'])) : ∃ l ∈ lines, Cli.Spec.Occurs w l := by
  induction lines with
  | nil =>
    obtain ⟨a, b, h⟩ := h
    have := congrArg List.length h
    simp only [List.flatMap_nil, List.length_nil, List.length_append] at this
    exact absurd (List.length_eq_zero_iff.1 (by omega)) hw
  | cons l lines ih =>
    obtain ⟨a, b, h⟩ := h
    have h' : l ++ ('\n' :: lines.flatMap fun l => l ++ ['\n']) = a ++ (w ++ b) := by
      rw [List.flatMap_cons] at h
      simpa using h
    rcases List.append_eq_append_iff.1 h' with ⟨a', ha, hb⟩ | ⟨a', ha, hb⟩
    · cases a' with
      | nil =>
        cases w with
        | nil => exact absurd rfl hw
        | cons x w =>
          simp only [List.nil_append, List.cons_append, List.cons.injEq] at hb
          exact absurd (by rw [hb.1]; exact List.mem_cons_self) hn
      | cons x a'' =>
        simp only [List.cons_append, List.cons.injEq] at hb
        obtain ⟨m, hm, ho⟩ := ih ⟨a'', b, by rw [hb.2]; simp⟩
        exact ⟨m, List.mem_cons_of_mem _ hm, ho⟩
    · rcases List.append_eq_append_iff.1 hb with ⟨x, hx, hy⟩ | ⟨x, hx, hy⟩
      · exact ⟨l, List.mem_cons_self, a, x, by rw [ha, hx]; simp⟩
      · cases x with
        | nil =>
          rw [List.append_nil] at hx
          exact ⟨l, List.mem_cons_self, a, [], by rw [ha, hx]; simp⟩
        | cons y x =>
          simp only [List.cons_append, List.cons.injEq] at hy
          exact absurd (by rw [hx, hy.1]; simp) hn

theorem good_occurs {br : Char → Bool} {log x : List Char} (h : Cli.checkLog br log = .ok (true, x)) :
    Cli.Spec.Occurs Spec.completed log := by
  unfold Cli.checkLog at h
  cases hl : (Cli.splitlines br log).getLast? with
  | none => rw [hl] at h; simp at h
  | some l =>
    rw [hl] at h
    simp only at h
    split_ifs at h with hd
    · obtain ⟨pre, hpre⟩ := (Cli.Props.drop_iff l).1 hd
      obtain ⟨a, t, h1, -⟩ := Cli.Props.splitGo_last br log [] l hl
      simp only [List.reverse_nil, List.nil_append] at h1
      change pre ++ Spec.completed = l at hpre
      refine ⟨a ++ pre, t, ?_⟩
      rw [h1, ← hpre]
      simp only [List.append_assoc]
    · simp at h

theorem good_of_end {br : Char → Bool} (hn : br '\n' = true) (hc : ∀ c ∈ Spec.completed, br c = false) (s : List Char) :
    Cli.checkLog br (s ++ Spec.completed ++ ['\n']) = .ok (true, " ".toList) := by
  have key : ∀ (s acc : List Char), ∃ l, (Cli.splitGo br acc (s ++ Spec.completed ++ ['\n'])).getLast? = some l ∧ Spec.completed <:+ l := by
    intro s
    induction s with
    | nil =>
      intro acc
      have h1 := Cli.Props.splitGo_line br hn Spec.completed hc acc []
      rw [List.nil_append]
      refine ⟨acc.reverse ++ Spec.completed, ?_, List.suffix_append _ _⟩
      rw [h1]
      simp only [Cli.splitGo, List.isEmpty_nil, if_true, List.getLast?_singleton]
    | cons c s ih =>
      intro acc
      rw [List.cons_append, List.cons_append]
      simp only [Cli.splitGo]
      split_ifs with hb
      · obtain ⟨l, h1, h2⟩ := ih []
        refine ⟨l, ?_, h2⟩
        cases hr : Cli.splitGo br [] (s ++ Spec.completed ++ ['\n']) with
        | nil => rw [hr] at h1; simp at h1
        | cons x xs => rw [hr] at h1; rw [List.getLast?_cons_cons]; exact h1
      · exact ih _
  obtain ⟨l, h1, h2⟩ := key s []
  unfold Cli.checkLog Cli.splitlines
  rw [h1]
  simp only
  rw [if_pos ((Cli.Props.drop_iff l).2 h2)]
  rfl

end Sorcha.History
