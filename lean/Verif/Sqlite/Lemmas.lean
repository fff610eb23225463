import Verif.Sqlite.Spec

namespace Sorcha.Sqlite
open Spec
variable {V : Type}

theorem blank_iff (c : Char) : blank c = true ↔ c = ' ' ∨ c = '\t' := by simp [blank]

theorem words_cons {c : Char} (h : blank c = true) (l : Line) : words (c :: l) = words l := by
  unfold words
  rw [List.splitOnP_cons_eq_if_modifyHead, h]
  simp

theorem words_gap {g : Line} (h : Gap g) (l : Line) : words (g ++ l) = words l := by
  induction g with
  | nil => rfl
  | cons c g ih =>
    rw [List.cons_append, words_cons ((blank_iff c).2 (h c (by simp))), ih fun d hd => h d (by simp [hd])]

theorem words_nil : words [] = [] := by simp [words]

theorem words_blank {g : Line} (h : Gap g) : words g = [] := by
  have := words_gap h []
  rwa [List.append_nil, words_nil] at this

theorem piece_not {w : Line} (h : Piece w) : ∀ x ∈ w, blank x = false := by
  intro x hx
  rw [← Bool.not_eq_true]
  intro hb
  rcases (blank_iff x).1 hb with rfl | rfl
  · exact (h.2 _ hx).1 rfl
  · exact (h.2 _ hx).2 rfl

theorem words_piece {w : Line} (h : Piece w) {c : Char} (hc : blank c = true) (rest : Line) : words (w ++ c :: rest) = w :: words rest := by
  unfold words
  rw [List.splitOnP_append_cons_of_forall_mem (piece_not h) c hc]
  simp [h.1]

theorem words_written {ws : List Line} {l : Line} (h : Written ws l) : words l = ws := by
  induction h with
  | done g hg => exact words_blank hg
  | last g w g' hg hw hg' =>
    rw [List.append_assoc, words_gap hg]
    cases g' with
    | nil =>
      unfold words
      rw [List.append_nil, List.splitOnP_eq_singleton (piece_not hw)]
      simp [hw.1]
    | cons c g' =>
      rw [words_piece hw ((blank_iff c).2 (hg' c (by simp))), words_blank fun d hd => hg' d (by simp [hd])]
  | more g w c ws rest hg hw hc _ _ ih =>
    rw [List.append_assoc, words_gap hg, words_piece hw ((blank_iff c).2 hc), ih]

/-- A line without pieces is blank. -/
theorem blank_of_words {l : Line} (h : words l = []) : Gap l := by
  induction l with
  | nil => intro c hc; simp at hc
  | cons c l ih =>
    by_cases hb : blank c = true
    · rw [words_cons hb] at h
      intro d hd
      rcases List.mem_cons.1 hd with rfl | hd
      · exact (blank_iff _).1 hb
      · exact ih h d hd
    · exfalso
      unfold words at h
      rw [List.splitOnP_cons_eq_if_modifyHead, if_neg hb] at h
      cases hs : l.splitOnP blank with
      | nil => exact List.splitOnP_ne_nil _ _ hs
      | cons a as => rw [hs] at h; simp at h

theorem pieces_of_lines {f : File} {lines : List Line} (h : Lines f lines) :
    (lines.map words).filter (· ≠ []) = f.header :: f.rows := by
  have h1 : (lines.map words).filter (· ≠ []) = (lines.filter fun l => ¬ l.all fun c => c = ' ' ∨ c = '\t').map words := by
    rw [List.filter_map]
    congr 1
    apply List.filter_congr
    intro l _
    simp only [Function.comp]
    rw [decide_eq_decide, not_iff_not]
    constructor
    · intro hw
      rw [List.all_eq_true]
      exact fun c hc => decide_eq_true (blank_of_words hw c hc)
    · intro ha
      rw [List.all_eq_true] at ha
      exact words_blank fun c hc => of_decide_eq_true (ha c hc)
  rw [h1]
  unfold Lines at h
  generalize lines.filter (fun l => ¬ l.all fun c => c = ' ' ∨ c = '\t') = ls at h
  generalize f.header :: f.rows = ws at h
  induction h with
  | nil => rfl
  | cons hw _ ih => rw [List.map_cons, words_written hw, ih]

/-- The frame that is written for a file. -/
def frame (L : Lib V) (f : File) : Frame V :=
  ⟨(rowNumber f, (List.range f.rows.length).map L.num) :: f.header.zipIdx.map fun w => (called w.1, L.conv (f.column w.2)), f.rows.length⟩

theorem read_eq (L : Lib V) {f : File} (hr : Regular f) {lines : List Line} (h : Lines f lines) :
    read L lines = .ok ⟨f.header.zipIdx.map fun w => (String.ofList w.1, L.conv (f.column w.2)), f.rows.length⟩ := by
  unfold read
  rw [pieces_of_lines h]
  simp only
  rw [if_pos ⟨hr.names, List.all_eq_true.2 fun r hrow => decide_eq_true (hr.rows r hrow).2⟩]
  rfl

theorem map_zipIdx {α β : Type} (l : List α) (f : α → β) (k : ℕ) : (l.zipIdx k).map (fun w => f w.1) = l.map f := by
  induction l generalizing k with
  | nil => rfl
  | cons a l ih => simp [List.zipIdx_cons, ih]

theorem written_frame (L : Lib V) (f : File) :
    withIndex L (rename ⟨f.header.zipIdx.map fun w => (String.ofList w.1, L.conv (f.column w.2)), f.rows.length⟩) = frame L f := by
  unfold withIndex rename frame rowNumber
  simp only [List.map_map, Function.comp_def, Frame.mk.injEq, List.cons.injEq, Prod.mk.injEq, and_true]
  refine ⟨?_, rfl⟩
  have : (List.map (fun w => ((if String.ofList w.1 = "INDEX" then "orig_index" else String.ofList w.1), L.conv (f.column w.2))) f.header.zipIdx).any (fun c => decide (c.1 = "index"))
      = decide ("index" ∈ f.names) := by
    rw [Bool.eq_iff_iff, List.any_eq_true, decide_eq_true_eq]
    unfold File.names
    rw [← map_zipIdx f.header called 0]
    simp only [List.mem_map, decide_eq_true_eq]
    constructor
    · rintro ⟨x, ⟨w, hw, rfl⟩, hx⟩
      exact ⟨w, hw, hx⟩
    · rintro ⟨w, hw, hx⟩
      exact ⟨_, ⟨w, hw, rfl⟩, hx⟩
  rw [this]
  by_cases h : "index" ∈ f.names <;> simp [h]

theorem frame_names (L : Lib V) (f : File) : (frame L f).cols.map (·.1) = rowNumber f :: f.names := by
  unfold frame File.names
  simp only [List.map_cons, List.map_map, Function.comp_def, List.cons.injEq, true_and]
  exact map_zipIdx f.header called 0

theorem frame_folds (L : Lib V) (f : File) : (frame L f).cols.map (fun c => L.fold c.1) = (rowNumber f :: f.names).map L.fold := by
  rw [← frame_names L f, List.map_map]
  rfl

theorem cell_of (L : Lib V) (f : Frame V) (hn : (f.cols.map fun c => L.fold c.1).Nodup) (i : ℕ) (c : String) (d : String × List V) (hd : d ∈ f.cols)
    (he : L.fold d.1 = L.fold c) : cell L f i c = d.2[i]?.getD L.null := by
  unfold cell
  have : f.cols.find? (fun d => L.fold d.1 = L.fold c) = some d := by
    generalize f.cols = cols at hn hd
    induction cols with
    | nil => simp at hd
    | cons e cols ih =>
      rw [List.map_cons, List.nodup_cons] at hn
      by_cases hh : L.fold e.1 = L.fold c
      · rcases List.mem_cons.1 hd with rfl | hd
        · simp [he]
        · exact absurd (List.mem_map.2 ⟨d, hd, by rw [he, hh]⟩) hn.1
      · rcases List.mem_cons.1 hd with rfl | hd
        · exact absurd he hh
        · rw [List.find?_cons_of_neg (by simpa using hh)]
          exact ih hn.2 hd
  rw [this]

theorem cell_none (L : Lib V) (f : Frame V) (i : ℕ) (c : String) (h : ∀ d ∈ f.cols, L.fold d.1 ≠ L.fold c) : cell L f i c = L.null := by
  unfold cell
  rw [List.find?_eq_none.2 (by intro d hd; simpa using h d hd)]

/-- The rows of a file, stored in a table with these columns. -/
theorem stored_frame (L : Lib V) (columns : List String) (f : File) (hn : ((rowNumber f :: f.names).map L.fold).Nodup)
    (hc : ∀ a ∈ rowNumber f :: f.names, ∀ b ∈ columns, L.fold a = L.fold b → a = b) (i : ℕ) (hi : i < f.rows.length) :
    Stored L columns f i (columns.map (cell L (frame L f) i)) := by
  have hn' : ((frame L f).cols.map fun c => L.fold c.1).Nodup := by rw [frame_folds]; exact hn
  refine ⟨by simp, ?_, ?_, ?_⟩
  · intro j w hj k hk
    rw [List.getElem?_map, hk, Option.map_some]
    congr 1
    rw [cell_of L (frame L f) hn' i (called w) (called w, L.conv (f.column j)) ?_ rfl]
    refine List.mem_cons_of_mem _ (List.mem_map.2 ⟨(w, j), ?_, rfl⟩)
    exact List.mem_zipIdx_iff_getElem?.2 hj
  · intro k hk
    rw [List.getElem?_map, hk, Option.map_some]
    congr 1
    rw [cell_of L (frame L f) hn' i (rowNumber f) (rowNumber f, (List.range f.rows.length).map L.num) (List.mem_cons_self ..) rfl]
    simp [hi]
  · intro k c hk h1 h2
    rw [List.getElem?_map, hk, Option.map_some]
    congr 1
    refine cell_none L _ i c fun d hd he => ?_
    have hm : d.1 ∈ rowNumber f :: f.names := by rw [← frame_names L f]; exact List.mem_map_of_mem hd
    have := hc d.1 hm c (List.mem_of_getElem? hk) he
    rw [this] at hm
    rcases List.mem_cons.1 hm with h | h
    · exact h2 h
    · exact h1 h

theorem insertFiles_cons (L : Lib V) (t : Option (Cli.Tab V)) {f : File} (hr : Regular f) {l : List Line} (h : Lines f l) (ls : List (List Line)) :
    insertFiles L t (l :: ls) = (toSql L t (frame L f) >>= fun t => insertFiles L (some t) ls) := by
  rw [insertFiles, read_eq L hr h]
  show (toSql L t (withIndex L (rename _)) >>= _) = _
  rw [written_frame]

theorem toSql_some (L : Lib V) (t : Cli.Tab V) (f : File)
    (ha : ∀ a ∈ rowNumber f :: f.names, ∀ b ∈ rowNumber f :: f.names, L.fold a = L.fold b → a = b)
    (hc : ∀ a ∈ rowNumber f :: f.names, ∀ b ∈ t.columns, L.fold a = L.fold b → a = b) :
    toSql L (some t) (frame L f) = if (rowNumber f :: f.names).Nodup ∧ ∀ a ∈ rowNumber f :: f.names, a ∈ t.columns then
      .ok ⟨t.columns, t.rows ++ (List.range f.rows.length).map fun i => t.columns.map (cell L (frame L f) i)⟩ else .error .column := by
  unfold toSql
  rw [frame_folds]
  have h1 : ((rowNumber f :: f.names).map L.fold).Nodup ↔ (rowNumber f :: f.names).Nodup :=
    ⟨List.Nodup.of_map _, fun h => List.Nodup.map_on ha h⟩
  have h2 : ((frame L f).cols.all fun c => (t.columns.map L.fold).contains (L.fold c.1)) = true ↔ ∀ a ∈ rowNumber f :: f.names, a ∈ t.columns := by
    rw [← frame_names L f, List.all_eq_true]
    have hm := frame_names L f
    constructor
    · intro h a haa
      obtain ⟨c, hcc, rfl⟩ := List.mem_map.1 haa
      have := h c hcc
      rw [List.contains_iff_mem] at this
      obtain ⟨b, hb, he⟩ := List.mem_map.1 this
      have hx := hc c.1 (hm ▸ haa) b hb he.symm
      rwa [hx]
    · intro h c hcc
      rw [List.contains_iff_mem]
      exact List.mem_map_of_mem (h _ (List.mem_map_of_mem hcc))
  by_cases hn : (rowNumber f :: f.names).Nodup
  · rw [if_pos (h1.2 hn)]
    by_cases hm : ∀ a ∈ rowNumber f :: f.names, a ∈ t.columns
    · rw [if_pos ⟨hn, hm⟩]
      simp only
      rw [if_pos (h2.2 hm)]
      rfl
    · rw [if_neg fun h => hm h.2]
      simp only
      rw [if_neg fun h => hm (h2.1 h)]
  · rw [if_neg fun h => hn (h1.1 h), if_neg fun h => hn h.1]

/-- The loop when the table exists. -/
theorem insertFiles_some (L : Lib V) {files : List File} {lines : List (List Line)} (hr : Reading files lines) (t : Cli.Tab V)
    (ha : ∀ f ∈ files, ∀ a ∈ rowNumber f :: f.names, ∀ b ∈ rowNumber f :: f.names, L.fold a = L.fold b → a = b)
    (hc : ∀ f ∈ files, ∀ a ∈ rowNumber f :: f.names, ∀ b ∈ t.columns, L.fold a = L.fold b → a = b) :
    if (∀ f ∈ files, (rowNumber f :: f.names).Nodup ∧ ∀ a ∈ rowNumber f :: f.names, a ∈ t.columns) then
      ∃ rows, insertFiles L (some t) lines = .ok (some ⟨t.columns, t.rows ++ rows⟩) ∧
        List.Forall₂ (fun e r => Stored L t.columns e.1 e.2 r) (allRows files) rows
    else insertFiles L (some t) lines = .error .column := by
  induction hr generalizing t with
  | nil =>
    rw [if_pos (by simp)]
    exact ⟨[], by simp [insertFiles], by simp [allRows]⟩
  | @cons f l fs ls hf hfs ih =>
    rw [insertFiles_cons L (some t) hf.1 hf.2, toSql_some L t f (ha f (by simp)) (hc f (by simp))]
    by_cases h1 : (rowNumber f :: f.names).Nodup ∧ ∀ a ∈ rowNumber f :: f.names, a ∈ t.columns
    · rw [if_pos h1]
      have h2 := ih ⟨t.columns, t.rows ++ (List.range f.rows.length).map fun i => t.columns.map (cell L (frame L f) i)⟩
        (fun g hg => ha g (by simp [hg])) (fun g hg => hc g (by simp [hg]))
      by_cases h3 : ∀ g ∈ fs, (rowNumber g :: g.names).Nodup ∧ ∀ a ∈ rowNumber g :: g.names, a ∈ t.columns
      · rw [if_pos h3] at h2
        obtain ⟨rows, h4, h5⟩ := h2
        rw [if_pos (by
          intro g hg
          rcases List.mem_cons.1 hg with rfl | hg
          · exact h1
          · exact h3 g hg)]
        refine ⟨(List.range f.rows.length).map (fun i => t.columns.map (cell L (frame L f) i)) ++ rows, ?_, ?_⟩
        · show insertFiles L (some _) ls = _
          rw [h4, List.append_assoc]
        · unfold allRows
          rw [List.flatMap_cons]
          refine List.rel_append ?_ h5
          rw [List.forall₂_map_left_iff, List.forall₂_map_right_iff, List.forall₂_same]
          intro i hi
          exact stored_frame L t.columns f (List.Nodup.map_on (ha f (by simp)) h1.1) (hc f (by simp)) i (List.mem_range.1 hi)
      · rw [if_neg h3] at h2
        rw [if_neg fun h => h3 fun g hg => h g (by simp [hg])]
        exact h2
    · rw [if_neg h1, if_neg fun h => h1 (h f (by simp))]
      rfl

theorem toSql_none (L : Lib V) (f : File) : toSql L none (frame L f) = toSql L (some ⟨rowNumber f :: f.names, []⟩) (frame L f) := by
  unfold toSql
  split
  · simp only [frame_names]
    rw [if_pos]
    · simp
    · rw [List.all_eq_true]
      intro c hc
      rw [List.contains_iff_mem]
      refine List.mem_map_of_mem ?_
      rw [← frame_names L f]
      exact List.mem_map_of_mem hc
  · rfl

theorem insertFiles_none (L : Lib V) {f : File} (hr : Regular f) {l : List Line} (h : Lines f l) (ls : List (List Line)) :
    insertFiles L none (l :: ls) = insertFiles L (some ⟨rowNumber f :: f.names, []⟩) (l :: ls) := by
  rw [insertFiles_cons L _ hr h, insertFiles_cons L _ hr h, toSql_none]

/-- One table. -/
theorem createInputs_eq (L : Lib V) (db : Db V) (name : String) {files : List File} {lines : List (List Line)} (hr : Reading files lines)
    (ha : CaseApart L files) (hne : files ≠ []) :
    (Fitting files → ∃ t, createInputs L db name lines = .ok (put db name t) ∧ Holds L files t) ∧
      (¬ Fitting files → createInputs L db name lines = .error .column) := by
  cases hr with
  | nil => exact absurd rfl hne
  | @cons f l fs ls hf hfs =>
    have key := insertFiles_some L (List.Forall₂.cons hf hfs) ⟨rowNumber f :: f.names, []⟩ (fun g hg => ha g hg g hg) (fun g hg => ha g hg f (by simp))
    rw [← insertFiles_none L hf.1 hf.2] at key
    have hfit : Fitting (f :: fs) ↔ ∀ g ∈ f :: fs, (rowNumber g :: g.names).Nodup ∧ ∀ a ∈ rowNumber g :: g.names, a ∈ rowNumber f :: f.names := by
      constructor
      · rintro ⟨f', fs', he, h⟩
        obtain ⟨rfl, rfl⟩ := List.cons.inj he
        exact h
      · exact fun h => ⟨f, fs, rfl, h⟩
    unfold createInputs
    rw [if_neg (by simp), hfit]
    constructor
    · intro h
      rw [if_pos h] at key
      obtain ⟨rows, h1, h2⟩ := key
      rw [h1]
      exact ⟨⟨rowNumber f :: f.names, rows⟩, rfl, ⟨f, fs, rfl, rfl⟩, h2⟩
    · intro h
      rw [if_neg h] at key
      rw [key]
      rfl

theorem has_put (db : Db V) (name : String) (t : Cli.Tab V) : Has (put db name t) name t := by
  unfold put
  refine ⟨by simp, ?_⟩
  intro t' h
  simpa using h

theorem has_put_other (db : Db V) {name other : String} (hne : other ≠ name) (t t' : Cli.Tab V) : Has (put db name t) other t' ↔ Has db other t' := by
  unfold put Has
  simp [hne]

end Sorcha.Sqlite
