import Verif.Csv.BlankWrite
import Verif.Csv.TextProps
import Verif.Csv.Props

/-!
# Tables that are saved with blanks
-/

namespace Sorcha.Csv.Props

open Spec

/-- A field that can be told apart between blanks without quotes or is quoted by the writer: not empty, without tabs. -/
def Apart (f : Str) : Prop := f ≠ [] ∧ '\t' ∉ f

theorem blankField_spaced {f : Str} (h : Apart f) : Spaced f (blankField f) := by
  unfold blankField
  by_cases hs : blankSpecial f = true
  · rw [if_pos hs]
    refine Or.inr ?_
    unfold inQuotes
    congr 2
    clear h hs
    induction f with
    | nil => rfl
    | cons c f ih =>
      rw [List.flatMap_cons, ih, doubled]
      split_ifs <;> rfl
  · rw [if_neg hs]
    have hs' : ∀ c ∈ f, c ≠ ' ' ∧ c ≠ '"' ∧ c ≠ '\n' ∧ c ≠ '\r' := by simpa [blankSpecial, and_assoc, not_or] using hs
    refine Or.inl ⟨rfl, h.1, fun e => ?_, fun c hc => ⟨?_, (hs' c hc).2.2⟩⟩
    · cases f with
      | nil => simp at e
      | cons c f => exact (hs' c (by simp)).2.1 (by simpa using e)
    · rintro (rfl | rfl)
      · exact (hs' _ hc).1 rfl
      · exact h.2 hc

theorem blankFields_line : ∀ (fs : List Str), fs ≠ [] → (∀ f ∈ fs, Apart f) → SpacedLine fs (blankFields fs)
  | [], h, _ => absurd rfl h
  | [f], _, h => by
    have := SpacedLine.one (g := []) (blankField_spaced (h f (by simp))) (by simp)
    simpa [blankFields] using this
  | f :: g :: fs, _, h => .more (b := ' ') (g := []) (blankField_spaced (h f (by simp))) (Or.inl rfl) (by simp)
      (blankFields_line (g :: fs) (by simp) fun x hx => h x (by simp [hx]))

theorem blankRecord_apart {fs : List Str} (h : ∀ f ∈ fs, Apart f) : blankRecord fs = blankFields fs ++ ['\n'] := by
  unfold blankRecord
  rw [if_neg]
  rintro rfl
  exact (h [] (by simp)).1 rfl

theorem blankField_sub {f : Str} {c : Char} (h : c ∈ f) : c ∈ blankField f := by
  unfold blankField
  split_ifs
  · unfold inQuotes
    refine List.mem_cons_of_mem _ (List.mem_append_left _ (List.mem_flatMap.2 ⟨c, h, ?_⟩))
    split_ifs with hc
    · simp [hc]
    · simp
  · exact h

theorem blankField_sup {f : Str} {c : Char} (h : c ∈ blankField f) : c ∈ f ∨ c = '"' := by
  unfold blankField at h
  split_ifs at h
  · unfold inQuotes at h
    rcases List.mem_append.1 h with h | h
    · rcases List.mem_cons.1 h with h | h
      · exact .inr h
      · obtain ⟨x, hx, hc⟩ := List.mem_flatMap.1 h
        split_ifs at hc with e
        · simp at hc
          exact .inr hc
        · simp at hc
          exact .inl (hc ▸ hx)
    · simp at h
      exact .inr h
  · exact .inl h

theorem blankFields_mem : ∀ (fs : List Str) (c : Char), c ∈ blankFields fs → (∃ f ∈ fs, c ∈ f) ∨ c = '"' ∨ c = ' '
  | [], c, h => by simp [blankFields] at h
  | [f], c, h => by
    rcases blankField_sup h with h | h
    · exact .inl ⟨f, by simp, h⟩
    · exact .inr (.inl h)
  | f :: g :: fs, c, h => by
    rw [blankFields] at h
    rcases List.mem_append.1 h with h | h
    · rcases blankField_sup h with h | h
      · exact .inl ⟨f, by simp, h⟩
      · exact .inr (.inl h)
    · rcases List.mem_cons.1 h with h | h
      · exact .inr (.inr h)
      · rcases blankFields_mem (g :: fs) c h with ⟨x, hx, hc⟩ | h
        · exact .inl ⟨x, by simp [hx], hc⟩
        · exact .inr h

theorem mem_blankFields : ∀ (fs : List Str) (f : Str), f ∈ fs → ∀ c ∈ f, c ∈ blankFields fs
  | [], f, h, _, _ => by simp at h
  | [g], f, h, c, hc => by
    rw [List.mem_singleton] at h
    subst h
    exact blankField_sub hc
  | g :: g' :: fs, f, h, c, hc => by
    rw [blankFields]
    rcases List.mem_cons.1 h with rfl | h
    · exact List.mem_append_left _ (blankField_sub hc)
    · exact List.mem_append_right _ (List.mem_cons_of_mem _ (mem_blankFields (g' :: fs) f h c hc))

/-- C92 (saved with blanks): a table of two columns or more with the IDs first, written as Sorcha saves ephemerides with blanks, is the text of an input file with blanks
whose rows have the same fields, if no field is empty or has a tab in it, and the names are ordinary ones: they have letters or digits, and no line ends. -/
theorem C92_written (ns : List Str) (hns : ∀ n ∈ ns, '\t' ∉ n ∧ '\n' ∉ n ∧ '\r' ∉ n ∧ ∃ c ∈ n, c.isAlphanum = true) (hne : ns ≠ []) (rows : List (List Str))
    (hr : ∀ row ∈ rows, row.length = ns.length + 1 ∧ ∀ f ∈ row, f ≠ [] ∧ '\t' ∉ f) :
    InputText "whitespace" ((("ObjID".toList :: ns) :: rows).flatMap blankRecord) ("ObjID".toList :: ns) rows := by
  have hhead : ∀ f ∈ "ObjID".toList :: ns, Apart f := by
    intro f hf
    rcases List.mem_cons.1 hf with rfl | hf
    · exact ⟨by decide, by decide⟩
    · obtain ⟨h1, -, -, c, hc, -⟩ := hns f hf
      exact ⟨fun e => (by rw [e] at hc; simp at hc), h1⟩
  obtain ⟨n, ns', rfl⟩ := List.exists_cons_of_ne_nil hne
  have hhd : blankFields ("ObjID".toList :: n :: ns') = "ObjID".toList ++ ' ' :: blankFields (n :: ns') := rfl
  have hglue : ∀ ls : List (List Str), (∀ l ∈ ls, ∀ f ∈ l, Apart f) → Glued (ls.map blankFields) (ls.flatMap blankRecord) := by
    intro ls hls
    induction ls with
    | nil => exact .nil
    | cons l ls ih =>
      rw [List.map_cons, List.flatMap_cons, blankRecord_apart (hls l (by simp)), List.append_assoc]
      exact .cons (Or.inl rfl) (ih fun l hl => hls l (by simp [hl]))
  refine Or.inr ⟨rfl, [], _, ' ', _, rows.map blankFields, hglue (_ :: rows) ?_, by simp, by simp, hhd, Or.inl rfl, ?_, ?_, blankFields_line _ (by simp) hhead, ?_, ?_⟩
  · intro l hl
    rcases List.mem_cons.1 hl with rfl | hl
    · exact hhead
    · exact (hr l hl).2
  · obtain ⟨-, -, -, c, hc, ha⟩ := hns n (by simp)
    exact ⟨c, mem_blankFields _ n (by simp) c hc, ha⟩
  · intro c hc
    rcases blankFields_mem _ c hc with ⟨f, hf, hcf⟩ | rfl | rfl
    · obtain ⟨-, h2, h3, -⟩ := hns f hf
      exact ⟨fun e => h2 (e ▸ hcf), fun e => h3 (e ▸ hcf)⟩
    · decide
    · decide
  · rw [List.forall₂_map_right_iff, List.forall₂_same]
    intro row hrow
    refine ⟨[], _, rfl, by simp, blankFields_line _ ?_ (hr row hrow).2, Or.inl rfl⟩
    intro e
    have := (hr row hrow).1
    rw [e] at this
    simp at this
  · intro row hrow
    refine ⟨(hr row hrow).1, ?_⟩
    cases row with
    | nil =>
      have := (hr _ hrow).1
      simp at this
    | cons f fs => exact ((hr _ hrow).2 f (by simp)).1

/-- C92 (read back): so every block, the list of IDs and the objects asked for are read from it as they were written. -/
theorem C92_read_back (P : Readers.IdParse) (ns : List Str) (hns : ∀ n ∈ ns, '\t' ∉ n ∧ '\n' ∉ n ∧ '\r' ∉ n ∧ ∃ c ∈ n, c.isAlphanum = true) (hne : ns ≠ [])
    (rows : List (List Str)) (hr : ∀ row ∈ rows, row.length = ns.length + 1 ∧ ∀ f ∈ row, f ≠ [] ∧ '\t' ∉ f) :
    let t := (("ObjID".toList :: ns) :: rows).flatMap blankRecord
    (∀ start n : ℕ, rowsOf "whitespace" t start (some n) = .ok ("ObjID".toList :: ns, (rows.drop start).take n)) ∧
      idsOf P "whitespace" t = .ok (Readers.inferIds P (rows.map fun r => String.ofList (r.headD []))) ∧
      ∀ ids, objectsOf P "whitespace" t ids = .ok ("ObjID".toList :: ns,
        ((rows.zip (Readers.inferIds P (rows.map fun r => String.ofList (r.headD [])))).filter fun x => decide (x.2 ∈ ids)).map Prod.fst) := by
  have h := C92_written ns hns hne rows hr
  exact ⟨fun start n => (C84_rows _ _ _ _ h start).2 n, C84_ids P _ _ _ _ h, fun ids => C84_objects P _ _ _ _ h ids⟩

theorem csvOf_blank (shown : Output.Cell → Str) (f : Output.Frame) (fs : List Output.Frame) :
    History.Spec.csvOf (blankLine shown) (f :: fs) = some (.text ((linesOf shown (f :: fs)).flatMap blankRecord)) := by
  have h : ∀ gs : List Output.Frame, (gs.flatMap fun g => g.cells.flatMap fun cells => blankLine shown (.row cells)) =
      (gs.flatMap fun g => g.cells.map fun cells => cells.map shown).flatMap blankRecord := by
    intro gs
    rw [List.flatMap_assoc]
    congr 1
    funext g
    rw [List.flatMap_map]
    rfl
  simp only [History.Spec.csvOf, linesOf, List.flatMap_cons (f := blankRecord), ← h]
  rfl

/-- A table with blanks, quotation marks and a line end in its fields. -/
example : InputText "whitespace" "ObjID FieldID note\n\"2011 OB60\" 1 \"24\"\" dish\"\nb 2 \"two\nlines\"\n".toList ["ObjID".toList, "FieldID".toList, "note".toList]
    [["2011 OB60".toList, "1".toList, "24\" dish".toList], ["b".toList, "2".toList, "two\nlines".toList]] := by
  have h := C92_written ["FieldID".toList, "note".toList] (by decide) (by decide) [["2011 OB60".toList, "1".toList, "24\" dish".toList], ["b".toList, "2".toList, "two\nlines".toList]]
    (by decide)
  have e : (([["ObjID".toList, "FieldID".toList, "note".toList], ["2011 OB60".toList, "1".toList, "24\" dish".toList], ["b".toList, "2".toList, "two\nlines".toList]] :
      List (List Str)).flatMap blankRecord) = "ObjID FieldID note\n\"2011 OB60\" 1 \"24\"\" dish\"\nb 2 \"two\nlines\"\n".toList := by decide +kernel
  exact e ▸ h

/-- C92 fails for a value that is missing, which is written as nothing: the next value of the line is read in its place. -/
theorem C92_missing_fails :
    rowsOf "whitespace" ([["ObjID".toList, "x".toList, "y".toList], ["a".toList, [], "5".toList]].flatMap blankRecord) 0 none =
      .ok (["ObjID".toList, "x".toList, "y".toList], [["a".toList, "5".toList]]) := by decide +kernel

/-- C92 fails for a tab in an ID: it is not put in quotes, and the ID is read as two fields. -/
theorem C92_tab_fails :
    rowsOf "whitespace" ([["ObjID".toList, "x".toList], ["a\tb".toList, "5".toList]].flatMap blankRecord) 0 none =
      .ok (["ObjID".toList, "x".toList], [["a".toList, "b".toList, "5".toList]]) := by decide +kernel

end Sorcha.Csv.Props
