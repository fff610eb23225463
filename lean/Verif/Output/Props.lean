import Verif.Output.Lemmas

/-!
# Output properties C19 to C21
-/

namespace Sorcha.Output.Props
open Sorcha.Output Sorcha.Output.Spec

/-! ## C21: columns and rounding -/

/-- The value of column `c` before rounding: the heliocentric distance is computed, everything else is the input. -/
def rawCell (dist : Cell → Cell → Cell → Cell) (r : Row) (c : String) : Cell :=
  if c = "Obj_Sun_LTC_km" then dist (r "Obj_Sun_x_LTC_km") (r "Obj_Sun_y_LTC_km") (r "Obj_Sun_z_LTC_km") else r c

section helpers
theorem mem_withDist (f : Frame) (g : Row → Cell) (c : String) :
    c ∈ (f.setCol "Obj_Sun_LTC_km" g).cols ↔ c ∈ f.cols ∨ c = "Obj_Sun_LTC_km" := by
  unfold Frame.setCol
  simp only
  split_ifs with h
  · constructor
    · exact .inl
    · rintro (h1 | rfl)
      · exact h1
      · exact h
  · simp

def selectedCols (cs : Columns) (k : Bool) (cols : List String) : List String :=
  match cs with
  | .basic => basicColumns ++ (if k then ["object_linked"] else [])
  | .all => cols
  | .list l => l

theorem selectColumns_ok (cs : Columns) (k : Bool) (f g : Frame) (h : selectColumns cs k f = .ok g) :
    g.cols = selectedCols cs k f.cols ∧ g.rows = f.rows := by
  unfold selectColumns at h
  match cs with
  | .all => cases h; exact ⟨rfl, rfl⟩
  | .list l =>
    simp only at h
    split_ifs at h with hl
    rw [select_ok] at h
    obtain ⟨-, rfl⟩ := h; exact ⟨rfl, rfl⟩
  | .basic =>
    simp only [bind, Except.bind] at h
    cases hs : f.select basicColumns .keyError with
    | error e => rw [hs] at h; simp at h
    | ok g0 =>
      rw [hs] at h
      simp only at h
      rw [select_ok] at hs
      obtain ⟨-, rfl⟩ := hs
      cases k with
      | false => simp at h; subst h; exact ⟨by simp [selectedCols], rfl⟩
      | true =>
        simp only [if_true] at h
        split_ifs at h with h2
        cases h
        refine ⟨?_, ?_⟩
        · simp only [Frame.setCol, if_true, selectedCols]
          rw [if_neg (by decide)]
        · simp only [Frame.setCol]
          conv_rhs => rw [← List.map_id f.rows]
          apply List.map_congr_left
          intro r _
          funext c
          by_cases hc : c = "object_linked" <;> simp [hc]
end helpers

/-- C21 (columns and cells): whatever is written has exactly the wanted columns in the wanted order, one line per input row
in input order, and every cell is the input value (or the computed heliocentric distance), rounded to the configured number
of decimals if the column is a position or magnitude column and the number is not zero, untouched otherwise. -/
theorem C21_output (dist : Cell → Cell → Cell → Cell) (cfg : Config) (f g : Frame) (h : outputFrame dist cfg f = .ok g) :
    g.cols = wantedColumns cfg.columns cfg.keepUnlinked f.cols ∧
    List.Forall₂ (fun (r : Row) (line : List Cell) =>
      List.Forall₂ (fun c out => match decimalsOf cfg c with
        | none => out = rawCell dist r c
        | some d => CellRounded d (rawCell dist r c) out) g.cols line) f.rows g.cells := by
  unfold outputFrame at h
  simp only [bind, Except.bind] at h
  generalize hf : f.setCol "Obj_Sun_LTC_km" _ = f1 at h
  cases hs : selectColumns cfg.columns cfg.keepUnlinked f1 with
  | error e => rw [hs] at h; simp at h
  | ok g0 =>
    rw [hs] at h
    simp only [Except.ok.injEq] at h
    obtain ⟨hc, hr⟩ := selectColumns_ok _ _ _ _ hs
    obtain ⟨h1, h2⟩ := round_both cfg g0
    rw [h] at h1 h2
    constructor
    · rw [h1, hc]
      unfold wantedColumns selectedCols
      cases cfg.columns with
      | basic => rfl
      | list l => rfl
      | all => simp only; rw [← hf]; rfl
    · rw [h2, h1, hr, ← hf]
      simp only [Frame.setCol, List.map_map]
      rw [List.forall₂_map_right_iff, List.forall₂_same]
      intro r _
      simp only [Function.comp_apply]
      rw [List.forall₂_map_right_iff, List.forall₂_same]
      intro c _
      unfold finalCell
      cases decimalsOf cfg c with
      | none => rfl
      | some d => exact cell_round_spec d _

/-- C21 (abort): a list of two or more columns is refused exactly when one of them does not exist. (A list of columns always
has at least two entries: without a comma the configuration accepts only `basic` and `all`.) -/
theorem C21_list_abort (dist : Cell → Cell → Cell → Cell) (cfg : Config) (f : Frame) (l : List String)
    (hl : cfg.columns = .list l) (h2 : 2 ≤ l.length) :
    (outputFrame dist cfg f = .error .badColumns ↔ ∃ c ∈ l, c ∉ f.cols ∧ c ≠ "Obj_Sun_LTC_km") ∧
    ((∃ g, outputFrame dist cfg f = .ok g) ↔ ∀ c ∈ l, c ∈ f.cols ∨ c = "Obj_Sun_LTC_km") := by
  unfold outputFrame
  simp only [bind, Except.bind]
  generalize hg : (fun r : Row => dist (r "Obj_Sun_x_LTC_km") (r "Obj_Sun_y_LTC_km") (r "Obj_Sun_z_LTC_km")) = gg
  simp only [hl, selectColumns]
  rw [if_pos (by omega)]
  cases hs : (f.setCol "Obj_Sun_LTC_km" gg).select l .badColumns with
  | error e =>
    have := (select_error _ _ _ _).1 hs
    obtain ⟨⟨c, hc, hn⟩, rfl⟩ := this
    rw [mem_withDist, not_or] at hn
    simp only [reduceCtorEq, exists_false, false_iff, true_iff]
    exact ⟨⟨c, hc, hn⟩, fun hall => (hall c hc).elim hn.1 hn.2⟩
  | ok g =>
    have := ((select_ok _ _ _ _).1 hs).1
    simp only [reduceCtorEq, false_iff, Except.ok.injEq, exists_eq', true_iff]
    refine ⟨?_, fun c hc => (mem_withDist f gg c).1 (this c hc)⟩
    rintro ⟨c, hc, h1, h2⟩
    exact ((mem_withDist f gg c).1 (this c hc)).elim h1 h2

/-- C21 (basic): refused exactly when one of the fixed columns, or `object_linked` if it is needed, is absent. -/
theorem C21_basic_abort (dist : Cell → Cell → Cell → Cell) (cfg : Config) (f : Frame) (hb : cfg.columns = .basic) :
    (∃ g, outputFrame dist cfg f = .ok g) ↔
      ∀ c ∈ basic ++ (if cfg.keepUnlinked then ["object_linked"] else []), c ∈ f.cols ∨ c = "Obj_Sun_LTC_km" := by
  unfold outputFrame
  simp only [bind, Except.bind]
  generalize hg : (fun r : Row => dist (r "Obj_Sun_x_LTC_km") (r "Obj_Sun_y_LTC_km") (r "Obj_Sun_z_LTC_km")) = gg
  simp only [hb, selectColumns, bind, Except.bind]
  cases hs : (f.setCol "Obj_Sun_LTC_km" gg).select basicColumns .keyError with
  | error e =>
    obtain ⟨⟨c, hc, hn⟩, rfl⟩ := (select_error _ _ _ _).1 hs
    rw [mem_withDist, not_or] at hn
    simp only [reduceCtorEq, exists_false, false_iff]
    exact fun hall => (hall c (List.mem_append_left _ hc)).elim hn.1 hn.2
  | ok g =>
    have hin := ((select_ok _ _ _ _).1 hs).1
    simp only
    cases hk : cfg.keepUnlinked with
    | false =>
      simp only [Bool.false_eq_true, if_false, Except.ok.injEq, exists_eq', true_iff, List.append_nil]
      exact fun c hc => (mem_withDist f gg c).1 (hin c hc)
    | true =>
      simp only [if_true]
      by_cases ho : "object_linked" ∈ f.cols
      · have : (f.setCol "Obj_Sun_LTC_km" gg).cols.contains "object_linked" = true := by
          simpa using (mem_withDist f gg _).2 (.inl ho)
        simp only [this, if_true, Except.ok.injEq, exists_eq', true_iff, List.mem_append, List.mem_singleton]
        rintro c (hc | rfl)
        · exact (mem_withDist f gg c).1 (hin c hc)
        · exact .inl ho
      · have : (f.setCol "Obj_Sun_LTC_km" gg).cols.contains "object_linked" = false := by
          rw [Bool.eq_false_iff]; intro h
          rcases (mem_withDist f gg _).1 (by simpa using h) with h | h
          · exact ho h
          · exact absurd h (by decide)
        simp only [this, Bool.false_eq_true, if_false, reduceCtorEq, exists_false, false_iff]
        intro hall
        rcases hall "object_linked" (by simp) with h | h
        · exact ho h
        · exact absurd h (by decide)

/-- C21 (rounding): rounding to `d` decimals gives a nearest multiple of `10^-d`, moves a value by at most half a unit in
the last place, is monotone, leaves values with `d` decimals alone, and sends exact ties to an even last digit. -/
theorem C21_rounding (d : ℕ) :
    (∀ x, RoundedTo d x (roundTo d x)) ∧ (∀ x y, x ≤ y → roundTo d x ≤ roundTo d y) ∧
    (∀ k : ℤ, roundTo d ((k : ℚ) / 10 ^ d) = (k : ℚ) / 10 ^ d) ∧
    (∀ k : ℤ, ∃ j : ℤ, j % 2 = 0 ∧ roundTo d (((k : ℚ) + 1 / 2) / 10 ^ d) = j / 10 ^ d) := by
  have hp : (0 : ℚ) < 10 ^ d := by positivity
  refine ⟨roundTo_spec d, ?_, ?_, ?_⟩
  · intro x y hxy
    unfold roundTo
    apply div_le_div_of_nonneg_right _ hp.le
    exact_mod_cast rint_mono (mul_le_mul_of_nonneg_right hxy hp.le)
  · intro k
    unfold roundTo
    rw [div_mul_cancel₀ _ hp.ne', rint_int]
  · intro k
    refine ⟨_, rint_tie_even k, ?_⟩
    unfold roundTo
    rw [div_mul_cancel₀ _ hp.ne']

/-! ## C19: the output file over all chunks -/

/-- The chunks that get written. -/
def nonEmpty (fs : List Frame) : List Frame := fs.filter fun f => f.rows.length > 0

section helpers
theorem writeChunks_ok {S : Type} (dist : Cell → Cell → Cell → Cell) (cfg : Config) (write : S → Frame → Except Err S)
    (fs : List Frame) (s s' : S) (h : writeChunks dist cfg write s fs = .ok s') :
    ∃ gs, List.Forall₂ (fun f g => outputFrame dist cfg f = .ok g) (nonEmpty fs) gs ∧
      gs.foldlM write s = .ok s' := by
  induction fs generalizing s with
  | nil => cases h; exact ⟨[], .nil, rfl⟩
  | cons f fs ih =>
    unfold writeChunks at h
    split_ifs at h with hlen
    · simp only [bind, Except.bind] at h
      cases hg : outputFrame dist cfg f with
      | error e => rw [hg] at h; simp at h
      | ok g =>
        rw [hg] at h
        simp only at h
        cases hw : write s g with
        | error e => rw [hw] at h; simp at h
        | ok s1 =>
          rw [hw] at h
          obtain ⟨gs, h1, h2⟩ := ih s1 h
          refine ⟨g :: gs, ?_, ?_⟩
          · unfold nonEmpty
            rw [List.filter_cons_of_pos (by simpa using hlen)]
            exact .cons hg h1
          · rw [List.foldlM_cons, hw]; exact h2
    · obtain ⟨gs, h1, h2⟩ := ih s h
      refine ⟨gs, ?_, h2⟩
      unfold nonEmpty
      rw [List.filter_cons_of_neg (by simpa using hlen)]
      exact h1

theorem foldlM_csv (gs : List Frame) (file : Option (List CsvLine)) :
    gs.foldlM (fun s g => (Except.ok (writeCSV s g) : Except Err _)) file = .ok (csvAfter file gs) := by
  have key : ∀ (gs : List Frame) (old : List CsvLine),
      gs.foldlM (fun s g => (Except.ok (writeCSV s g) : Except Err _)) (some old) =
        .ok (some (old ++ gs.flatMap fun g => g.cells.map .row)) := by
    intro gs
    induction gs with
    | nil => intro old; simp; rfl
    | cons g gs ih =>
      intro old
      rw [List.foldlM_cons]
      refine (ih _).trans ?_
      simp
  cases file with
  | some old => rw [key]; rfl
  | none =>
    cases gs with
    | nil => rfl
    | cons g gs =>
      rw [List.foldlM_cons]
      refine (key gs _).trans ?_
      simp [csvAfter]
end helpers

/-- The CSV writer as a step that cannot fail. -/
def csvStep (s : Option (List CsvLine)) (g : Frame) : Except Err (Option (List CsvLine)) := .ok (writeCSV s g)

/-- C19 (CSV): after any sequence of chunks the file consists of one header line (the columns of the first chunk written)
followed by the rows of all chunks in order; an existing file is extended by the rows only, without a second header; if no
chunk has rows nothing is created. -/
theorem C19_csv (dist : Cell → Cell → Cell → Cell) (cfg : Config) (fs : List Frame) (file file' : Option (List CsvLine))
    (h : writeChunks dist cfg csvStep file fs = .ok file') :
    ∃ gs, List.Forall₂ (fun f g => outputFrame dist cfg f = .ok g) (nonEmpty fs) gs ∧
      file' = csvAfter file gs := by
  obtain ⟨gs, h1, h2⟩ := writeChunks_ok dist cfg csvStep fs file file' h
  refine ⟨gs, h1, ?_⟩
  have := foldlM_csv gs file
  unfold csvStep at h2
  rw [this] at h2
  cases h2; rfl

/-- C19 (alignment): chunks with the same input columns are written with the same columns, so every row has exactly the
cells announced by the header. -/
theorem C19_aligned (dist : Cell → Cell → Cell → Cell) (cfg : Config) (cols : List String) (fs gs : List Frame)
    (hc : ∀ f ∈ fs, f.cols = cols) (h : List.Forall₂ (fun f g => outputFrame dist cfg f = .ok g) fs gs) :
    ∀ g ∈ gs, g.cols = wantedColumns cfg.columns cfg.keepUnlinked cols ∧ ∀ line ∈ g.cells, line.length = g.cols.length := by
  induction h with
  | nil => simp
  | cons ha _ ih =>
    rename_i f _ _ _ _
    intro g' hg'
    rcases List.mem_cons.1 hg' with rfl | hg'
    · refine ⟨?_, ?_⟩
      · rw [(C21_output dist cfg _ g' ha).1, hc _ (by simp)]
      · intro line hl
        obtain ⟨r, -, rfl⟩ := List.mem_map.1 hl
        simp
    · exact ih (fun f hf => hc f (List.mem_cons_of_mem _ hf)) g' hg'

/-- C19 (interruption): if the run is stopped between two chunks, what is on disk is a prefix of what the whole run writes. -/
theorem C19_prefix (dist : Cell → Cell → Cell → Cell) (cfg : Config) (done rest : List Frame) (part whole : Option (List CsvLine))
    (hp : writeChunks dist cfg csvStep none done = .ok part)
    (hw : writeChunks dist cfg csvStep none (done ++ rest) = .ok whole) :
    ∃ tail, whole.getD [] = part.getD [] ++ tail := by
  have key : ∀ (done : List Frame) (s p w : Option (List CsvLine)), writeChunks dist cfg csvStep s done = .ok p →
      writeChunks dist cfg csvStep s (done ++ rest) = .ok w → writeChunks dist cfg csvStep p rest = .ok w := by
    intro done
    induction done with
    | nil => intro s p w h1 h2; cases h1; exact h2
    | cons f fs ih =>
      intro s p w h1 h2
      rw [List.cons_append] at h2
      unfold writeChunks at h1 h2
      split_ifs at h1 h2 with hl
      · simp only [bind, Except.bind] at h1 h2
        cases hg : outputFrame dist cfg f with
        | error e => rw [hg] at h1; simp at h1
        | ok g =>
          rw [hg] at h1 h2
          exact ih _ p w h1 h2
      · exact ih _ p w h1 h2
  have h2 := key done none part whole hp hw
  obtain ⟨gs, -, he⟩ := C19_csv dist cfg rest part whole h2
  cases part with
  | none => exact ⟨whole.getD [], by simp⟩
  | some old => exact ⟨gs.flatMap fun g => g.cells.map .row, by rw [he]; rfl⟩

/-- C19 fails for an output file that exists but is empty (for instance created by `touch`, or left by a full disk): rows
are appended and the file never gets a header. -/
theorem C19_empty_file_fails (f : Frame) : writeCSV (some []) f = some (f.cells.map .row) := rfl

/-- C19 (sqlite): writing chunks with the same columns to a new database gives one table holding the rows of all chunks in
order. -/
theorem C19_sqlite (g : Frame) (gs : List Frame) (hc : ∀ g' ∈ gs, g'.cols = g.cols) (hl : "level_0" ∉ g.cols) :
    (g :: gs).foldlM writeSqlite none = .ok (some (g.cols, (g :: gs).flatMap Frame.cells)) := by
  have hfil : g.cols.filter (· ≠ "level_0") = g.cols := by
    rw [List.filter_eq_self]; intro c hc'; simp; rintro rfl; exact hl hc'
  have key : ∀ (gs : List Frame), (∀ g' ∈ gs, g'.cols = g.cols) → ∀ rows,
      gs.foldlM writeSqlite (some (g.cols, rows)) = .ok (some (g.cols, rows ++ gs.flatMap Frame.cells)) := by
    intro gs
    induction gs with
    | nil => intro _ rows; simp; rfl
    | cons a gs ih =>
      intro ha rows
      have hac := ha a (by simp)
      rw [List.foldlM_cons]
      have : writeSqlite (some (g.cols, rows)) a = .ok (some (g.cols, rows ++ a.cells)) := by
        unfold writeSqlite
        simp only [hac, hfil]
        rw [if_pos (by simp)]
        simp only [Except.ok.injEq, Option.some.injEq, Prod.mk.injEq, true_and, Frame.cells, hac]
        congr 1
        apply List.map_congr_left
        intro r _
        apply List.map_congr_left
        intro c hc'
        simp [hc']
      rw [this]
      simp only [bind, Except.bind]
      rw [ih fun g' hg' => ha g' (List.mem_cons_of_mem _ hg')]
      simp
  rw [List.foldlM_cons]
  have : writeSqlite none g = .ok (some (g.cols, g.cells)) := by
    unfold writeSqlite; simp only [hfil]
  rw [this]
  simp only [bind, Except.bind]
  rw [key gs hc]
  simp

/-- C19 fails for HDF5: a chunk with an object ID longer than those of the first chunk cannot be appended, so the run aborts
half-way with part of the output written. -/
theorem C19_hdf5_fails :
    let chunk (id : String) : Frame := ⟨["ObjID"], [fun _ => .text id]⟩
    ((do
      let t ← writeHDF5 none (chunk "A1")
      writeHDF5 t (chunk "A10")) : Except Err (Option H5)).map (fun _ => ()) = .error .stringTooLong := by
  decide +kernel

/-- C19 fails for HDF5 with listed columns without the object ID: nothing can be written, also not the first chunk. -/
theorem C19_hdf5_columns_fails (t : Option H5) (g : Frame) (h : "ObjID" ∉ g.cols) : writeHDF5 t g = .error .keyError := by
  unfold writeHDF5
  rw [if_pos]
  simpa using h

/-- C19 (HDF5), the cases that work: the object ID among the columns, same columns and no text longer than the longest of the first chunk in its column. -/
theorem C19_hdf5 (g : Frame) (gs : List Frame) (hid : "ObjID" ∈ g.cols) (hc : ∀ g' ∈ gs, g'.cols = g.cols)
    (hw : ∀ g' ∈ gs, ∀ r ∈ g'.rows, ∀ c ∈ g.cols, ∃ r0 ∈ g.rows, (r c).width ≤ (r0 c).width) :
    ∃ t, (g :: gs).foldlM writeHDF5 none = .ok (some t) ∧ t.cols = g.cols ∧ t.rows = (g :: gs).flatMap Frame.cells := by
  have hmax : ∀ (l : List ℕ) (n a : ℕ), (a ∈ l ∨ a ≤ n) → a ≤ l.foldl max n := by
    intro l
    induction l with
    | nil => intro n a h; simpa using h
    | cons b l ih =>
      intro n a h
      rw [List.foldl_cons]
      apply ih
      rcases h with h | h
      · rcases List.mem_cons.1 h with rfl | h
        · exact .inr (le_max_right _ _)
        · exact .inl h
      · exact .inr (le_trans h (le_max_left _ _))
  let w : String → ℕ := fun c => (g.rows.map fun r => (r c).width).foldl max 0
  have key : ∀ (gs : List Frame), (∀ g' ∈ gs, g'.cols = g.cols) →
      (∀ g' ∈ gs, ∀ r ∈ g'.rows, ∀ c ∈ g.cols, ∃ r0 ∈ g.rows, (r c).width ≤ (r0 c).width) → ∀ rows,
      gs.foldlM writeHDF5 (some ⟨g.cols, w, rows⟩) = .ok (some ⟨g.cols, w, rows ++ gs.flatMap Frame.cells⟩) := by
    intro gs
    induction gs with
    | nil => intro _ _ rows; simp; rfl
    | cons a gs ih =>
      intro ha hb rows
      rw [List.foldlM_cons]
      have hac := ha a (by simp)
      have : writeHDF5 (some ⟨g.cols, w, rows⟩) a = .ok (some ⟨g.cols, w, rows ++ a.cells⟩) := by
        unfold writeHDF5
        rw [if_neg (by rw [hac]; simpa using hid)]
        simp only
        rw [if_neg (by rw [hac]; simp), if_pos]
        rw [List.all_eq_true]
        intro r hr
        rw [List.all_eq_true]
        intro c hc'
        rw [hac] at hc'
        obtain ⟨r0, h0, hle⟩ := hb a (by simp) r hr c hc'
        rw [decide_eq_true_eq]
        exact le_trans hle (hmax _ _ _ (.inl (List.mem_map.2 ⟨r0, h0, rfl⟩)))
      rw [this]
      simp only [bind, Except.bind]
      rw [ih (fun g' hg' => ha g' (List.mem_cons_of_mem _ hg')) (fun g' hg' => hb g' (List.mem_cons_of_mem _ hg'))]
      simp
  refine ⟨⟨g.cols, w, g.cells ++ gs.flatMap Frame.cells⟩, ?_, rfl, by simp⟩
  rw [List.foldlM_cons]
  have : writeHDF5 none g = .ok (some ⟨g.cols, w, g.cells⟩) := by
    unfold writeHDF5
    rw [if_neg (by simpa using hid)]
  rw [this]
  simp only [bind, Except.bind]
  exact key gs hc hw g.cells

/-! ## C20: statistics -/

/-- C20 (accounting): the numbers of observations in the table add up to the number of observations. -/
theorem C20_total (cats : List String) (hc : cats.Nodup) (obs : List Obs) (hf : ∀ o ∈ obs, o.optFilter ∈ cats) :
    ((stats cats obs).map (·.number)).sum = obs.length := by
  rw [stats_eq, List.map_map]
  have e : ((fun x : StatRow => x.number) ∘ fun p : String × String => statRow obs p.1 p.2) =
      fun k => (obs.filter fun o => (o.objId, o.optFilter) = k).length := by
    funext k
    simp only [Function.comp_apply, statRow]
    congr 1
    apply List.filter_congr
    intro o _
    rw [decide_eq_decide, Prod.ext_iff]
  rw [e]
  exact sum_filter_all obs (fun o => (o.objId, o.optFilter)) _ (keys_nodup cats hc obs)
    fun o ho => (mem_keys cats obs _ _).2 ⟨⟨o, ho, rfl⟩, hf o ho⟩

/-- C20 (one row per pair): a pair (object, filter) has exactly one row if the object has observations and the filter is a
category, none otherwise. -/
theorem C20_one_row (cats : List String) (hc : cats.Nodup) (obs : List Obs) (id f : String) :
    ((stats cats obs).filter fun s => s.objId = id ∧ s.optFilter = f).length =
      if (∃ o ∈ obs, o.objId = id) ∧ f ∈ cats then 1 else 0 := by
  rw [stats_eq, List.filter_map, List.length_map]
  have e : ((fun s : StatRow => decide (s.objId = id ∧ s.optFilter = f)) ∘ fun p : String × String => statRow obs p.1 p.2) =
      fun p => p == (id, f) := by
    funext p
    rw [Bool.eq_iff_iff]
    simp [statRow, Prod.ext_iff]
  rw [e, ← List.countP_eq_length_filter]
  have hn := keys_nodup cats hc obs
  by_cases h : (∃ o ∈ obs, o.objId = id) ∧ f ∈ cats
  · rw [if_pos h]
    exact List.count_eq_one_of_mem hn ((mem_keys cats obs id f).2 h)
  · rw [if_neg h]
    exact List.count_eq_zero.2 fun hm => h ((mem_keys cats obs id f).1 hm)

theorem linked_true (g : List Obs) : (if g = [] then none else some (g.all (·.linked))) = some true ↔ g ≠ [] ∧ ∀ o ∈ g, o.linked = true := by
  by_cases h : g = [] <;> simp [h]

theorem linked_false (g : List Obs) : (if g = [] then none else some (g.all (·.linked))) = some false ↔ ∃ o ∈ g, o.linked = false := by
  by_cases h : g = [] <;> simp [h]

/-- The observations of an object in a filter. -/
def obsOf (obs : List Obs) (id f : String) : List Obs := obs.filter fun o => o.objId = id ∧ o.optFilter = f

/-- C20 (values): in every row, `number_obs` counts the observations of that object and filter; the three magnitudes are the
minimum, maximum and median of the known magnitudes of these observations, the two phase angles the minimum and maximum of
their known phase angles; the object counts as linked iff there are some and all of them do, as unlinked iff one of them does, and the date is the first one known.
Where nothing is known the entry is missing. -/
theorem C20_values (cats : List String) (obs : List Obs) (s : StatRow) (hs : s ∈ stats cats obs) :
    s.number = (obsOf obs s.objId s.optFilter).length ∧
    IsMin ((obsOf obs s.objId s.optFilter).filterMap (·.mag)) s.minMag ∧
    IsMax ((obsOf obs s.objId s.optFilter).filterMap (·.mag)) s.maxMag ∧
    IsMedian ((obsOf obs s.objId s.optFilter).filterMap (·.mag)) s.medianMag ∧
    IsMin ((obsOf obs s.objId s.optFilter).filterMap (·.phase)) s.minPhase ∧
    IsMax ((obsOf obs s.objId s.optFilter).filterMap (·.phase)) s.maxPhase ∧
    (s.linked = some true ↔ obsOf obs s.objId s.optFilter ≠ [] ∧ ∀ o ∈ obsOf obs s.objId s.optFilter, o.linked = true) ∧
    (s.linked = some false ↔ ∃ o ∈ obsOf obs s.objId s.optFilter, o.linked = false) ∧
    IsFirst ((obsOf obs s.objId s.optFilter).map (·.date)) s.date := by
  rw [stats_eq] at hs
  obtain ⟨p, -, rfl⟩ := List.mem_map.1 hs
  refine ⟨rfl, isMin_minOf _, isMax_maxOf _, isMedian_medianOf _, isMin_minOf _, isMax_maxOf _, linked_true _, linked_false _, ?_⟩
  have := isFirst_head ((obsOf obs p.1 p.2).map (·.date))
  rw [List.filterMap_map] at this
  exact this

/-- C20 (median): with known magnitudes present the median lies between the extremes and at most half of the values lie
strictly on either side of it. -/
theorem C20_median (cats : List String) (obs : List Obs) (s : StatRow) (hs : s ∈ stats cats obs) (l : List ℚ)
    (hl : l = (obsOf obs s.objId s.optFilter).filterMap (·.mag)) (h : l ≠ []) :
    ∃ lo med hi, s.minMag = some lo ∧ s.maxMag = some hi ∧ s.medianMag = some med ∧ lo ≤ med ∧ med ≤ hi ∧
      2 * (l.filter fun x => x < med).length ≤ l.length ∧ 2 * (l.filter fun x => med < x).length ≤ l.length := by
  rw [stats_eq] at hs
  obtain ⟨p, -, rfl⟩ := List.mem_map.1 hs
  change l = (obsOf obs p.1 p.2).filterMap (·.mag) at hl
  change ∃ lo med hi, minOf ((obsOf obs p.1 p.2).filterMap (·.mag)) = some lo ∧
    maxOf ((obsOf obs p.1 p.2).filterMap (·.mag)) = some hi ∧
    medianOf ((obsOf obs p.1 p.2).filterMap (·.mag)) = some med ∧ _
  rw [← hl]
  obtain ⟨lo, hlo⟩ : ∃ lo, minOf l = some lo := by
    unfold minOf
    cases hm : l.min? with
    | none => exact absurd (List.min?_eq_none_iff.1 hm) h
    | some x => exact ⟨x, rfl⟩
  obtain ⟨hi, hhi⟩ : ∃ hi, maxOf l = some hi := by
    unfold maxOf
    cases hm : l.max? with
    | none => exact absurd (List.max?_eq_none_iff.1 hm) h
    | some x => exact ⟨x, rfl⟩
  obtain ⟨med, hmed⟩ := median_some l h
  obtain ⟨m1, m2, ⟨a, ha, ham⟩, ⟨b, hb, hbm⟩⟩ := median_spec l med hmed
  have l1 := (min_spec l lo).1 hlo
  have l2 := (max_spec l hi).1 hhi
  exact ⟨lo, med, hi, hlo, hhi, hmed, le_trans (l1.2 a ha) ham, le_trans hbm (l2.2 b hb), m1, m2⟩

/-! ## Concrete cases -/

def demoObs : List Obs :=
  [⟨"b", "r", some 20, some 3, true, none⟩, ⟨"a", "g", some 21, some 1, false, none⟩,
   ⟨"b", "r", some 22, some 2, true, some 60000⟩, ⟨"b", "r", none, some 5, true, some 60000⟩,
   ⟨"b", "g", some 19, none, true, some 60000⟩]

example : stats ["g", "r"] demoObs =
    [⟨"a", "g", 1, some 21, some 21, some 21, some 1, some 1, some false, none⟩,
     ⟨"a", "r", 0, none, none, none, none, none, none, none⟩,
     ⟨"b", "g", 1, some 19, some 19, some 19, none, none, some true, some 60000⟩,
     ⟨"b", "r", 3, some 20, some 22, some 21, some 2, some 5, some true, some 60000⟩] := by decide +kernel

example : roundTo 2 (123455 / 1000) = 12346 / 100 ∧ roundTo 2 (123445 / 1000) = 12344 / 100 := by decide +kernel

/-- A frame with positions; two of its columns are written with one decimal for positions. -/
def demoFrame : Frame := ⟨["ObjID", "RA_deg"], [fun c => if c = "ObjID" then .text "a" else .num (.fin (1234 / 100))]⟩
def demoCfg : Config := ⟨.list ["RA_deg", "ObjID"], false, some 1, some 0⟩

example : (writeChunks (fun a _ _ => a) demoCfg csvStep none [demoFrame, ⟨["ObjID", "RA_deg"], []⟩, demoFrame]).toOption =
    some (some [.header ["RA_deg", "ObjID"], .row [.num (.fin (123 / 10)), .text "a"], .row [.num (.fin (123 / 10)), .text "a"]]) := by
  decide +kernel

end Sorcha.Output.Props
