import Verif.Csv.BlankLemmas
import Verif.Readers.Props

/-!
# Properties: blocks and objects read from the text of a file (C84)
-/

namespace Sorcha.Csv.Props

open Sorcha.Csv.Spec

theorem lineText_comma {fs : List Str} {s : Str} (h : LineText fs s) (h2 : 2 ≤ fs.length) : ',' ∈ s := by
  cases h with
  | one _ => simp at h2
  | more _ _ => simp

theorem lineText_objID {names : List Str} {header : Str} (h : LineText names header) (hh : "ObjID,".toList <+: header) :
    ∃ ns, names = "ObjID".toList :: ns ∧ ns ≠ [] := by
  obtain ⟨u, rfl⟩ := hh
  generalize hv : "ObjID,".toList ++ u = v at h
  cases h with
  | @one f s hw =>
    rcases hw with ⟨rfl, -, hp⟩ | rfl
    · exact absurd rfl (hp ',' (by rw [← hv]; simp)).1
    · simp at hv
  | @more f s fs t hw hr =>
    have hne : fs ≠ [] := by cases hr <;> simp
    refine ⟨fs, ?_, hne⟩
    rcases hw with ⟨rfl, -, hp⟩ | rfl
    · rcases List.append_eq_append_iff.mp (show "ObjID".toList ++ (',' :: u) = s ++ ',' :: t from hv) with ⟨a, h1, h2⟩ | ⟨a, h1, h2⟩
      · cases a with
        | nil => rw [h1]; simp
        | cons x a =>
          rw [List.cons_append, List.cons.injEq] at h2
          exact absurd h2.1.symm (hp x (by rw [h1]; simp)).1
      · cases a with
        | nil => rw [List.append_nil] at h1; rw [h1]
        | cons x a =>
          rw [List.cons_append, List.cons.injEq] at h2
          have : ',' ∈ "ObjID".toList := by rw [h1, ← h2.1]; simp
          exact absurd this (by decide)
    · simp at hv

theorem inferIds_len (P : Readers.IdParse) (ids : List String) : (Readers.inferIds P ids).length = ids.length := by
  unfold Readers.inferIds
  dsimp only
  split_ifs <;> rw [List.length_map]

theorem mem_rel {R : List Str → Str → Prop} {rows : List (List Str)} {lines : List Str} (h : List.Forall₂ R rows lines) {l : Str} (hl : l ∈ lines) :
    ∃ r ∈ rows, R r l := by
  induction h with
  | nil => simp at hl
  | @cons a b as bs hab _ ih =>
    rcases List.mem_cons.mp hl with rfl | hl
    · exact ⟨a, by simp, hab⟩
    · obtain ⟨r, hr, hw⟩ := ih hl
      exact ⟨r, by simp [hr], hw⟩

/-- A line whose first field is not empty does not begin with a comma. -/
theorem fit_of {fs : List Str} {s : Str} (h : LineText fs s) (hne : fs.headD [] ≠ []) : Fit s := by
  intro hs
  exfalso
  have hw : ∀ {f s t : Str}, Written f s → f ≠ [] → (s ++ t).head? ≠ some ',' := by
    intro f s t h hf
    rcases h with ⟨rfl, -, h⟩ | rfl
    · cases s with
      | nil => exact absurd rfl hf
      | cons c s => simpa using (h c (by simp)).1
    · simp
  cases h with
  | one h => exact hw (t := []) h hne (by simpa using hs)
  | more h _ => exact hw h hne hs

/-- All that is used of the text of an input file with commas. -/
theorem parts_comma {sep : String} (hs : sep = "csv" ∨ sep = "comma") {t : Str} {names : List Str} {rows : List (List Str)} (h : CommaText t names rows) :
    ∃ nts, headerRow sep t = .ok nts.length ∧ (∃ ns, names = "ObjID".toList :: ns ∧ ns ≠ []) ∧
      ∀ (skip : ℕ → Option Bool) (k : ℕ → Bool), (∀ i, i < nts.length + 1 + rows.length → skip i = some (k i)) →
        tokens sep skip t = some (keep k 0 (nts ++ names :: rows)) := by
  obtain ⟨notes, header, lines, hg, hn, hnote, hh, hhead, hrows, hlen⟩ := h
  obtain ⟨nts, hnts⟩ := notes_lines notes hnote
  obtain ⟨ns, hns, hns'⟩ := lineText_objID hhead hh
  have h2 : 2 ≤ names.length := by
    rw [hns]
    cases ns with
    | nil => exact absurd rfl hns'
    | cons a b => simp
  refine ⟨nts, ?_, ⟨ns, hns, hns'⟩, ?_⟩
  · unfold headerRow Tables.openFile
    rw [if_pos (by rcases hs with rfl | rfl <;> simp), search_notes notes lines t hg hnote 0 (by omega) (fun t' i' h' => search_comma hs hh lines t' h' i'), hnts.length_eq]
    simp
  · intro skip k hk
    unfold tokens
    rw [if_neg (by rcases hs with rfl | rfl <;> decide)]
    have hfs : List.Forall₂ LineText (nts ++ names :: rows) (notes ++ header :: lines) :=
      List.rel_append hnts (.cons hhead hrows)
    refine tokens_text hg hfs ?_ fun i hi => hk i ?_
    · intro l hl
      rw [List.mem_append, List.mem_cons] at hl
      rcases hl with hl | rfl | hl
      · exact ⟨(hnote l hl).2.1, fun _ => ⟨(hnote l hl).1, (hnote l hl).2.2.2⟩⟩
      · exact ⟨⟨',', lineText_comma hhead h2, by decide⟩, fit_of hhead (by rw [hns]; simp)⟩
      · obtain ⟨r, hr, hw⟩ := mem_rel hrows hl
        exact ⟨⟨',', lineText_comma hw (by rw [(hlen r hr).1]; exact h2), by decide⟩, fit_of hw (hlen r hr).2⟩
    · rw [← hfs.length_eq] at hi
      simpa [Nat.add_comm, Nat.add_left_comm, Nat.add_assoc] using hi

/-- The first name of a header with blanks. -/
theorem spacedLine_objID {names : List Str} {b : Char} {rest : Str} (h : SpacedLine names ("ObjID".toList ++ b :: rest)) (hb : Blank b)
    (hr : ∃ c ∈ rest, c.isAlphanum = true) : ∃ ns, names = "ObjID".toList :: ns ∧ ns ≠ [] := by
  have key : ∀ {f s u : Str} {x : Char}, Spaced f s → Blank x → s ++ x :: u = "ObjID".toList ++ b :: rest → f = "ObjID".toList ∧ u = rest := by
    intro f s u x hw hx e
    rcases hw with ⟨rfl, -, -, hp⟩ | rfl
    · rcases List.append_eq_append_iff.mp e with ⟨a, h1, h2⟩ | ⟨a, h1, h2⟩
      · cases a with
        | nil =>
          rw [List.append_nil] at h1
          rw [List.nil_append, List.cons.injEq] at h2
          exact ⟨h1.symm, h2.2⟩
        | cons y a =>
          rw [List.cons_append, List.cons.injEq] at h2
          rw [← h2.1] at h1
          have hx' : x ∈ "ObjID".toList := by rw [h1]; simp
          rcases hx with rfl | rfl <;> exact absurd hx' (by decide)
      · cases a with
        | nil =>
          rw [List.append_nil] at h1
          rw [List.nil_append, List.cons.injEq] at h2
          exact ⟨h1, h2.2.symm⟩
        | cons y a =>
          rw [List.cons_append, List.cons.injEq] at h2
          exact absurd hb (hp b (by rw [h1, h2.1]; simp)).1
    · simp at e
  generalize hv : "ObjID".toList ++ b :: rest = v at h
  cases h with
  | @one f s g hw hgap =>
    exfalso
    obtain ⟨c, hc, hc'⟩ := hr
    have hnb : ¬ Blank c := by
      rintro (rfl | rfl) <;> exact absurd hc' (by decide)
    cases g with
    | nil =>
      rw [List.append_nil] at hv
      rcases hw with ⟨rfl, -, -, hp⟩ | rfl
      · exact (hp b (by rw [← hv]; simp)).1 hb
      · simp at hv
    | cons y g =>
      have := (key hw (hgap y (by simp)) hv.symm).2
      exact hnb (hgap c (by rw [this]; simp [hc]))
  | @more f s x g fs t hw hx hgap ht =>
    refine ⟨fs, ?_, by cases ht <;> simp⟩
    rw [(key hw hx hv.symm).1]

theorem spacedLine_indented {fs : List Str} {s : Str} (h : SpacedLine fs s) : Indented fs s := ⟨[], s, rfl, by simp, h, Or.inl rfl⟩

/-- All that is used of the text of an input file with blanks. -/
theorem parts_blank {t : Str} {names : List Str} {rows : List (List Str)} (h : BlankText t names rows) :
    ∃ nts, headerRow "whitespace" t = .ok nts.length ∧ (∃ ns, names = "ObjID".toList :: ns ∧ ns ≠ []) ∧
      ∀ (skip : ℕ → Option Bool) (k : ℕ → Bool), (∀ i, i < nts.length + 1 + rows.length → skip i = some (k i)) →
        tokens "whitespace" skip t = some (keep k 0 (nts ++ names :: rows)) := by
  obtain ⟨notes, header, b, rest, lines, hg, hn, hnote, rfl, hb, hr, hnl, hhead, hrows, hlen⟩ := h
  obtain ⟨nts, hnts⟩ := notes_indented notes hnote
  refine ⟨nts, ?_, spacedLine_objID hhead hb hr, ?_⟩
  · unfold headerRow Tables.openFile
    rw [if_pos (by simp), search_notes notes lines t hg hnote 0 (by omega) (fun t' i' h' => search_blank rfl hb hr hnl lines t' h' i'), hnts.length_eq]
    simp
  · intro skip k hk
    unfold tokens
    rw [if_pos rfl]
    have hfs : List.Forall₂ Indented (nts ++ names :: rows) (notes ++ ("ObjID".toList ++ b :: rest) :: lines) :=
      List.rel_append hnts (.cons (spacedLine_indented hhead) hrows)
    refine blankTokens_text hg hfs fun i hi => hk i ?_
    rw [← hfs.length_eq] at hi
    simpa [Nat.add_comm, Nat.add_left_comm, Nat.add_assoc] using hi

/-- All that is used of the text of an input file. -/
theorem parts {sep : String} {t : Str} {names : List Str} {rows : List (List Str)} (h : InputText sep t names rows) :
    ∃ nts, headerRow sep t = .ok nts.length ∧ (∃ ns, names = "ObjID".toList :: ns ∧ ns ≠ []) ∧
      ∀ (skip : ℕ → Option Bool) (k : ℕ → Bool), (∀ i, i < nts.length + 1 + rows.length → skip i = some (k i)) →
        tokens sep skip t = some (keep k 0 (nts ++ names :: rows)) := by
  rcases h with ⟨hs, h⟩ | ⟨rfl, h⟩
  · exact parts_comma hs h
  · exact parts_blank h

/-- C84 (blocks): from the text of an input file, a block that begins at row `start` is read as the rows from there on, field by field, and at most as many as asked for. -/
theorem C84_rows (sep : String) (t : Str) (names : List Str) (rows : List (List Str)) (h : InputText sep t names rows) (start : ℕ) :
    rowsOf sep t start none = .ok (names, rows.drop start) ∧ ∀ n : ℕ, rowsOf sep t start (some n) = .ok (names, (rows.drop start).take n) := by
  obtain ⟨nts, hh, -, hk⟩ := parts h
  have seen : tokens sep (fun i => some (decide (i < nts.length) || (decide (nts.length + 1 ≤ i) && decide (i < nts.length + 1 + start)))) t = some (names :: rows.drop start) := by
    rw [hk _ (fun i => decide (i < nts.length) || (decide (nts.length + 1 ≤ i) && decide (i < nts.length + 1 + start))) (fun i _ => rfl), keep_append,
      keep_none _ 0 nts (fun i hi => by simp [hi])]
    simp only [List.nil_append, Nat.zero_add, keep]
    rw [if_neg (by simp), keep_drop _ _ start]
    · intro i hi
      simp only [Bool.or_eq_true, Bool.and_eq_true, decide_eq_true_eq]
      omega
    · intro i hi
      simp only [Bool.or_eq_false_iff, Bool.and_eq_false_iff, decide_eq_false_iff_not]
      omega
  constructor
  · simp only [rowsOf, hh, seen, toTable]
  · intro n
    simp only [rowsOf, hh, seen, toTable]
    rw [if_neg (by omega)]
    simp

/-- C84 (IDs): the list of IDs has one for every row, in order: what pandas makes of the first fields. -/
theorem C84_ids (P : Readers.IdParse) (sep : String) (t : Str) (names : List Str) (rows : List (List Str)) (h : InputText sep t names rows) :
    idsOf P sep t = .ok (Readers.inferIds P (rows.map fun r => String.ofList (r.headD []))) := by
  obtain ⟨nts, hh, ⟨ns, hns, -⟩, hk⟩ := parts h
  have seen : (tokens sep (fun _ => some false) t).map (List.drop nts.length) = some (names :: rows) := by
    rw [hk _ (fun _ => false) (fun i _ => rfl), keep_all _ _ _ (fun _ _ => rfl)]
    simp
  simp only [idsOf, hh, seen, toTable]
  have : column "ObjID".toList (names, rows) = some (rows.map fun r => r.headD []) := by
    subst hns
    simp [column, List.findIdx?_cons]
    intro r _
    cases r <;> rfl
  simp only [this, List.map_map]
  rfl

/-- C84 (objects): the objects asked for are read as exactly the rows with these IDs, field by field and in the order of the file. -/
theorem C84_objects (P : Readers.IdParse) (sep : String) (t : Str) (names : List Str) (rows : List (List Str)) (h : InputText sep t names rows) (ids : List String) :
    objectsOf P sep t ids =
      .ok (names, ((rows.zip (Readers.inferIds P (rows.map fun r => String.ofList (r.headD [])))).filter fun x => decide (x.2 ∈ ids)).map Prod.fst) := by
  have hi := C84_ids P sep t names rows h
  obtain ⟨nts, hh, -, hk⟩ := parts h
  set table := Readers.inferIds P (rows.map fun r => String.ofList (r.headD [])) with ht
  have hl : table.length = rows.length := by rw [ht, inferIds_len, List.length_map]
  have seen : tokens sep (fun i => (List.replicate nts.length true ++ [false] ++ table.map fun s => !ids.contains s)[i]?) t =
      some (names :: ((rows.zip table).filter fun x => decide (x.2 ∈ ids)).map Prod.fst) := by
    set sk := List.replicate nts.length true ++ [false] ++ table.map fun s => !ids.contains s with hsk
    have hlen : sk.length = nts.length + 1 + rows.length := by rw [hsk]; simp [hl]; omega
    have e1 : ∀ i < nts.length, sk.getD i true = true := by
      intro i hi
      rw [hsk, List.getD_eq_getElem?_getD, List.append_assoc, List.getElem?_append_left (by simpa using hi)]
      simp [hi]
    have e2 : sk.getD nts.length true = false := by
      rw [hsk]
      simp [List.getElem?_append]
    have e3 : ∀ i (hi : i < table.length), sk.getD (nts.length + 1 + i) true = !decide (table[i] ∈ ids) := by
      intro i hi
      rw [hsk, List.getD_eq_getElem?_getD, List.getElem?_append_right (by simp)]
      simp [hi]
    rw [hk _ (fun i => sk.getD i true) (fun i hi => by rw [← hlen] at hi; rw [List.getD_eq_getElem?_getD, List.getElem?_eq_getElem hi]; rfl), keep_append, keep_none _ 0 nts (fun i hi => by simpa using e1 i hi)]
    simp only [List.nil_append, Nat.zero_add, keep]
    rw [if_neg (by rw [e2]; simp), keep_select _ _ rows table (fun s => decide (s ∈ ids)) hl e3]
  simp only [objectsOf, hh, hi, seen, toTable]

/-- A row as the model of blocks (C12, C13) has it: the ID and the other fields. -/
def asRec (r : List Str) : Readers.Rec Str := ⟨String.ofList (r.headD []), r.tail⟩

/-- C84 (C12 and C13 hold for texts): what those properties are proved from, the reading of blocks, IDs and objects of a file given by its lines, is what is read from the
text: `f` is the file that C12 and C13 speak about, with the rows of the text. -/
theorem C84_lines (P : Readers.IdParse) (sep : String) (t : Str) (names : List Str) (rows : List (List Str)) (h : InputText sep t names rows) (f : List (Readers.Line Str))
    (hf : Readers.Spec.Holds f (rows.map asRec)) :
    (∀ start n : ℕ, ∃ rs, rowsOf sep t start (some n) = .ok (names, rs) ∧ Readers.readRowsInternal f start (some n) = .ok (rs.map asRec)) ∧
      (Readers.Spec.StableIds P (rows.map asRec) →
        (∃ ids, idsOf P sep t = .ok ids ∧ Readers.buildIdMap P f = .ok ids) ∧
        ∀ ids, ∃ rs, objectsOf P sep t ids = .ok (names, rs) ∧ Readers.readObjectsInternal P f ids = .ok (rs.map asRec)) := by
  constructor
  · intro start n
    refine ⟨_, (C84_rows sep t names rows h start).2 n, ?_⟩
    rw [Readers.readRowsInternal_loose f _ (Readers.Holds.loosely hf) start (some n) (fun m hm => by cases hm; exact Int.natCast_nonneg n)]
    simp [List.map_take, List.map_drop]
  · intro hst
    have e : Readers.inferIds P (rows.map fun r => String.ofList (r.headD [])) = rows.map fun r => String.ofList (r.headD []) := by
      have := Readers.inferIds_stable_table P (rows.map asRec) hst
      rw [List.map_map] at this
      exact this
    constructor
    · refine ⟨_, C84_ids P sep t names rows h, ?_⟩
      rw [Readers.buildIdMap_holds P f _ hf hst, e, List.map_map]
      rfl
    · intro ids
      refine ⟨_, C84_objects P sep t names rows h ids, ?_⟩
      rw [Readers.readObjectsInternal_holds P f _ hf hst, e, List.zip_map_right]
      congr 1
      clear h hf hst e
      induction rows with
      | nil => rfl
      | cons r rs ih =>
        simp only [List.map_cons, List.zip_cons_cons, List.filter_cons, Prod.map, List.contains_iff_mem, decide_eq_true_eq]
        have hid : (asRec r).id = String.ofList (r.headD []) := rfl
        simp only [hid, id_eq]
        by_cases hm : String.ofList (r.headD []) ∈ ids
        · simp only [hm, if_true, List.map_cons]
          rw [← ih]
        · simp only [hm, if_false]
          rw [← ih]

theorem field_written (f : Str) : Written f (field f) := by
  unfold field
  by_cases h : special f = true
  · rw [if_pos h]
    refine Or.inr ?_
    unfold inQuotes
    congr 2
    clear h
    induction f with
    | nil => rfl
    | cons c f ih =>
      rw [List.flatMap_cons, ih, doubled]
      split_ifs <;> rfl
  · rw [if_neg h]
    unfold special at h
    rw [List.any_eq_true] at h
    push Not at h
    have h' : ∀ c ∈ f, c ≠ ',' ∧ c ≠ '"' ∧ c ≠ '\n' ∧ c ≠ '\r' := fun c hc => by simpa [and_assoc, not_or] using h c hc
    refine Or.inl ⟨rfl, fun e => ?_, fun c hc => ⟨(h' c hc).1, (h' c hc).2.2⟩⟩
    cases f with
    | nil => simp at e
    | cons c f => exact (h' c (by simp)).2.1 (by simpa using e)

theorem fields_text (fs : List Str) (h : fs ≠ []) : LineText fs (fields fs) := by
  induction fs with
  | nil => exact absurd rfl h
  | cons f fs ih =>
    cases fs with
    | nil => exact .one (field_written f)
    | cons g gs => exact .more (field_written f) (ih (by simp))

theorem body_text (fs : List Str) (h : 2 ≤ fs.length) : LineText fs (body fs) := by
  unfold body
  rw [if_neg (by rintro rfl; simp at h)]
  exact fields_text fs (by rintro rfl; simp at h)

/-- C84 (files that Sorcha wrote): a table of two columns or more with the IDs first, written as Sorcha writes its files or collects its ephemerides in memory, is such a
text, whatever is in the fields, if no ID is empty. -/
theorem C84_written (ns : List Str) (hns : ns ≠ []) (rows : List (List Str)) (hr : ∀ row ∈ rows, row.length = ns.length + 1 ∧ row.headD [] ≠ []) {sep : String} (hsep : sep = "csv" ∨ sep = "comma") :
    InputText sep ((("ObjID".toList :: ns) :: rows).flatMap record) ("ObjID".toList :: ns) rows ∧
      InputText sep ((("ObjID".toList :: ns) :: rows).flatMap memoryRecord) ("ObjID".toList :: ns) rows := by
  have h2 : 2 ≤ ("ObjID".toList :: ns).length := by
    cases ns with
    | nil => exact absurd rfl hns
    | cons a b => simp
  have hrows : List.Forall₂ LineText rows (rows.map body) := by
    rw [List.forall₂_map_right_iff, List.forall₂_same]
    intro r hr'
    exact body_text r (by rw [(hr r hr').1]; simpa using h2)
  have hhead : "ObjID,".toList <+: body ("ObjID".toList :: ns) := by
    cases ns with
    | nil => exact absurd rfl hns
    | cons a b => exact ⟨fields (a :: b), rfl⟩
  have glued : ∀ e : Str, e = ['\n'] ∨ e = ['\r', '\n'] → ∀ ls : List (List Str), Glued (ls.map body) (ls.flatMap fun l => body l ++ e) := by
    intro e he ls
    induction ls with
    | nil => exact .nil
    | cons l ls ih =>
      rw [List.map_cons, List.flatMap_cons, List.append_assoc]
      exact .cons he ih
  exact ⟨Or.inl ⟨hsep, [], _, rows.map body, glued _ (Or.inl rfl) (_ :: rows), by simp, by simp, hhead, body_text _ h2, hrows, hr⟩,
    Or.inl ⟨hsep, [], _, rows.map body, glued _ (Or.inr rfl) (_ :: rows), by simp, by simp, hhead, body_text _ h2, hrows, hr⟩⟩

/-! ## Cases -/

private def sample : Str := "# made by hand, 24\" dish\r\nObjID,name,H_r\r\n\"a,1\",\"two\nlines\",17.5\r\nb,\"24\"\" dish\",18\r\nc,,19".toList

private def sampleRows : List (List Str) :=
  [["a,1".toList, "two\nlines".toList, "17.5".toList], ["b".toList, "24\" dish".toList, "18".toList], ["c".toList, [], "19".toList]]

theorem plain_written (f : Str) (h : f.all (fun c => c ≠ ',' && c ≠ '"' && c ≠ '\n' && c ≠ '\r') = true) : Written f f := by
  have h' : ∀ c ∈ f, c ≠ ',' ∧ c ≠ '"' ∧ c ≠ '\n' ∧ c ≠ '\r' := fun c hc => by simpa [and_assoc] using List.all_eq_true.mp h c hc
  refine Or.inl ⟨rfl, fun e => ?_, fun c hc => ⟨(h' c hc).1, (h' c hc).2.2⟩⟩
  cases f with
  | nil => simp at e
  | cons c f => exact (h' c (by simp)).2.1 (by simpa using e)

/-- No quotation mark behind a separator, by looking at all neighbours. -/
theorem quiet_of {separator : Char → Prop} [DecidablePred separator] {l : Str} (h : (l.zip l.tail).all (fun x => !(x.2 = '"' && decide (separator x.1))) = true) :
    ∀ p c q, l = p ++ c :: '"' :: q → ¬ separator c := by
  intro p c q e hc
  have hm : (c, '"') ∈ l.zip l.tail := by
    subst e
    clear h
    induction p with
    | nil => simp
    | cons x p ih =>
      cases p with
      | nil => simp
      | cons y p =>
        simp only [List.cons_append, List.tail_cons, List.zip_cons_cons] at ih ⊢
        exact List.mem_cons_of_mem _ ih
  have := List.all_eq_true.1 h _ hm
  simp [hc] at this

/-- A file with a note above the header, fields in quotes with commas, line ends and quotes in them, an empty field, Windows line ends and no end of the last line. -/
theorem sample_input : InputText "csv" sample ["ObjID".toList, "name".toList, "H_r".toList] sampleRows := by
  refine Or.inl ⟨Or.inl rfl, ["# made by hand, 24\" dish".toList], "ObjID,name,H_r".toList,
    ["\"a,1\",\"two\nlines\",17.5".toList, "b,\"24\"\" dish\",18".toList, "c,,19".toList], ?_, by decide, ?_, ⟨"name,H_r".toList, rfl⟩, ?_, ?_, by decide⟩
  · exact .cons (Or.inr rfl) (.cons (Or.inr rfl) (.cons (Or.inr rfl) (.cons (Or.inr rfl) (.last (by decide)))))
  · intro l hl
    rw [List.mem_singleton] at hl
    subst hl
    exact ⟨by decide, ⟨'#', by decide, by decide⟩, by decide, by decide, quiet_of (by decide +kernel)⟩
  · exact .more (plain_written _ (by decide)) (.more (plain_written _ (by decide)) (.one (plain_written _ (by decide))))
  · refine .cons ?_ (.cons ?_ (.cons ?_ .nil))
    · exact .more (f := "a,1".toList) (s := "\"a,1\"".toList) (Or.inr (by decide)) (.more (f := "two\nlines".toList) (s := "\"two\nlines\"".toList) (Or.inr (by decide)) (.one (plain_written _ (by decide))))
    · exact .more (plain_written _ (by decide)) (.more (f := "24\" dish".toList) (s := "\"24\"\" dish\"".toList) (Or.inr (by decide)) (.one (plain_written _ (by decide))))
    · exact .more (plain_written _ (by decide)) (.more (f := []) (s := []) (plain_written _ (by decide)) (.one (plain_written _ (by decide))))

/-- A block and an object of that file, by running the reader. -/
example : rowsOf "csv" sample 1 (some 1) = .ok (["ObjID".toList, "name".toList, "H_r".toList], [["b".toList, "24\" dish".toList, "18".toList]]) := by decide +kernel

example : Readers.Spec.Holds ([.text, .header] ++ (sampleRows.map asRec).map .data) (sampleRows.map asRec) := ⟨1, by decide, rfl⟩

private def blankSample : Str := "# made by hand\n\tby two\nObjID   name\tH_r \n a,1  \"two\nlines\" 17.5\r\n\"b 2\"\t\"\"  18  \n  c 24\" 19".toList

private def blankRows : List (List Str) :=
  [["a,1".toList, "two\nlines".toList, "17.5".toList], ["b 2".toList, [], "18".toList], ["c".toList, "24\"".toList, "19".toList]]

theorem plain_spaced (f : Str) (hne : f ≠ []) (h : f.all (fun c => c ≠ ' ' && c ≠ '\t' && c ≠ '\n' && c ≠ '\r') = true) (hq : f.head? ≠ some '"') : Spaced f f := by
  refine Or.inl ⟨rfl, hne, hq, fun c hc => ?_⟩
  have := List.all_eq_true.mp h c hc
  simp only [Bool.and_eq_true, decide_eq_true_eq] at this
  exact ⟨fun e => e.elim this.1.1.1 this.1.1.2, this.1.2, this.2⟩

instance : DecidablePred Blank := fun c => by unfold Blank; infer_instance

/-- A file with blanks: notes, runs of spaces and tabs, blanks at both ends of a line, fields in quotes with blanks and line ends in them or nothing, a quotation mark in a
field, line ends of both kinds and no end of the last line. -/
theorem blank_input : InputText "whitespace" blankSample ["ObjID".toList, "name".toList, "H_r".toList] blankRows := by
  refine Or.inr ⟨rfl, ["# made by hand".toList, "\tby two".toList], "ObjID   name\tH_r ".toList, ' ', "  name\tH_r ".toList,
    [" a,1  \"two\nlines\" 17.5".toList, "\"b 2\"\t\"\"  18  ".toList, "  c 24\" 19".toList], ?_, by decide, ?_, rfl, Or.inl rfl, ⟨'n', by decide, by decide⟩, by decide, ?_, ?_, by decide⟩
  · exact .cons (Or.inl rfl) (.cons (Or.inl rfl) (.cons (Or.inl rfl) (.cons (Or.inr rfl) (.cons (Or.inl rfl) (.last (by decide))))))
  · intro l hl
    rw [List.mem_cons, List.mem_singleton] at hl
    rcases hl with rfl | rfl
    · exact ⟨by decide, ⟨'#', by decide, by decide⟩, by decide, by decide, quiet_of (by decide +kernel)⟩
    · exact ⟨by decide, ⟨'b', by decide, by decide⟩, by decide, by decide, quiet_of (by decide +kernel)⟩
  · exact .more (b := ' ') (g := "  ".toList) (t := "name\tH_r ".toList) (plain_spaced _ (by decide) (by decide) (by decide)) (by decide) (by decide)
      (.more (b := '\t') (g := []) (t := "H_r ".toList) (plain_spaced _ (by decide) (by decide) (by decide)) (by decide) (by decide)
        (.one (f := "H_r".toList) (s := "H_r".toList) (g := " ".toList) (plain_spaced _ (by decide) (by decide) (by decide)) (by decide)))
  · refine .cons ?_ (.cons ?_ (.cons ?_ .nil))
    · exact ⟨" ".toList, "a,1  \"two\nlines\" 17.5".toList, rfl, by decide,
        .more (b := ' ') (g := " ".toList) (t := "\"two\nlines\" 17.5".toList) (plain_spaced _ (by decide) (by decide) (by decide)) (by decide) (by decide)
          (.more (f := "two\nlines".toList) (s := "\"two\nlines\"".toList) (b := ' ') (g := []) (t := "17.5".toList) (Or.inr (by decide)) (by decide) (by decide)
            (.one (f := "17.5".toList) (s := "17.5".toList) (g := []) (plain_spaced _ (by decide) (by decide) (by decide)) (by decide))), Or.inr (by decide)⟩
    · exact ⟨[], _, rfl, by decide,
        .more (f := "b 2".toList) (s := "\"b 2\"".toList) (b := '\t') (g := []) (t := "\"\"  18  ".toList) (Or.inr (by decide)) (by decide) (by decide)
          (.more (f := []) (s := "\"\"".toList) (b := ' ') (g := " ".toList) (t := "18  ".toList) (Or.inr (by decide)) (by decide) (by decide)
            (.one (f := "18".toList) (s := "18".toList) (g := "  ".toList) (plain_spaced _ (by decide) (by decide) (by decide)) (by decide))), Or.inl rfl⟩
    · exact ⟨"  ".toList, "c 24\" 19".toList, rfl, by decide,
        .more (b := ' ') (g := []) (t := "24\" 19".toList) (plain_spaced _ (by decide) (by decide) (by decide)) (by decide) (by decide)
          (.more (b := ' ') (g := []) (t := "19".toList) (plain_spaced _ (by decide) (by decide) (by decide)) (by decide) (by decide)
            (.one (f := "19".toList) (s := "19".toList) (g := []) (plain_spaced _ (by decide) (by decide) (by decide)) (by decide))), Or.inr (by decide)⟩

/-- A block of that file, by running the reader. -/
example : rowsOf "whitespace" blankSample 1 (some 1) = .ok (["ObjID".toList, "name".toList, "H_r".toList], [["b 2".toList, [], "18".toList]]) := by decide +kernel

private def asTheyAre : Readers.IdParse := ⟨fun _ => false, fun _ => none, fun _ => none, fun _ => none⟩

/-- C84 fails for a note with a quotation mark directly behind a separator: the header is found, but no block, ID or object is read. pandas
takes everything up to the next quotation mark for one field, whether the line is skipped or not. -/
theorem C84_quote_fails :
    (let t := "# disk,24\",\"8 m\nObjID,H_r\na,1\nb,2\n".toList
     headerRow "csv" t = .ok 1 ∧ idsOf asTheyAre "csv" t = .error .pandas ∧ rowsOf "csv" t 0 none = .error .pandas ∧ objectsOf asTheyAre "csv" t ["b"] = .error .pandas) ∧
    (let t := "# the \"old disk\nObjID H_r\na 1\nb 2\n".toList
     headerRow "whitespace" t = .ok 1 ∧ idsOf asTheyAre "whitespace" t = .error .pandas ∧ rowsOf "whitespace" t 0 none = .error .pandas ∧
      objectsOf asTheyAre "whitespace" t ["b"] = .error .pandas) := by
  constructor <;> decide +kernel

/-- C84 fails for an empty ID, or for blanks in front of a line, if the next field is in quotes and has a line end in it: where that row is skipped its second half is taken
for a row. -/
theorem C84_first_fails :
    rowsOf "csv" "ObjID,note\n,\"two\nlines\"\nb,2\n".toList 0 none = .ok (["ObjID".toList, "note".toList], [[[], "two\nlines".toList], ["b".toList, "2".toList]]) ∧
    rowsOf "csv" "ObjID,note\n,\"two\nlines\"\nb,2\n".toList 1 none ≠ .ok (["ObjID".toList, "note".toList], [["b".toList, "2".toList]]) ∧
    rowsOf "whitespace" "ObjID note\n \"two\nlines\" 1\nb 2\n".toList 0 none = .ok (["ObjID".toList, "note".toList], [["two\nlines".toList, "1".toList], ["b".toList, "2".toList]]) ∧
    rowsOf "whitespace" "ObjID note\n \"two\nlines\" 1\nb 2\n".toList 1 none ≠ .ok (["ObjID".toList, "note".toList], [["b".toList, "2".toList]]) := by
  refine ⟨?_, ?_, ?_, ?_⟩ <;> decide +kernel

/-- C84 fails for an empty line at the end of the file: blocks are read, but objects are not. -/
theorem C84_empty_line_fails :
    let t := "ObjID,H_r\na,1\nb,2\n\n".toList
    rowsOf "csv" t 1 none = .ok (["ObjID".toList, "H_r".toList], [["b".toList, "2".toList]]) ∧ objectsOf asTheyAre "csv" t ["b"] = .error .pandas := by
  decide +kernel

end Sorcha.Csv.Props
