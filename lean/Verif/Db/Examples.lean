import Verif.Db.Props
import Std.Data.String.ToInt

/-!
# C99: concrete cases and counterexamples
-/

namespace Sorcha.Db.Props
open Sorcha.Db Sorcha.Db.Spec Sorcha.Readers

variable {C : Type}

instance : DecidableRel NotBehind := fun a b =>
  match a, b with
  | .null, b => .isTrue (.null b)
  | .int _, .null => .isFalse fun h => (nomatch h)
  | .int x, .int y => if h : x ≤ y then .isTrue (.ints h) else .isFalse fun h' => by cases h'; contradiction
  | .int x, .text s => .isTrue (.mixed x s)
  | .text _, .null => .isFalse fun h => (nomatch h)
  | .text _, .int _ => .isFalse fun h => (nomatch h)
  | .text s, .text t => if h : s ≤ t then .isTrue (.texts h) else .isFalse fun h' => by cases h'; contradiction

/-- Texts of digits, with or without a sign, are numbers. -/
def reads (s : String) : NumText :=
  match s.toInt? with
  | some z => .whole z
  | none => .no

/-- An engine that lists rows with one ID first in the order of the table, then, query by query, the other way round. -/
def demo (C : Type) : Engine C where
  readsAs := reads
  maxVars := 3
  listing k rows := (if k % 2 = 0 then rows else rows.reverse).insertionSort fun a b => NotBehind a.id b.id
  scan k rows := if k % 2 = 0 then rows else rows.reverse
  printFloat z := toString z ++ ".0"

instance : Std.Total (fun a b : Row C => NotBehind a.id b.id) := ⟨fun a b => notBehind_total a.id b.id⟩
instance : IsTrans (Row C) (fun a b : Row C => NotBehind a.id b.id) := ⟨fun _ _ _ h h' => notBehind_trans h h'⟩

theorem demo_keeps (C : Type) : Keeps (demo C) where
  listing k rows := by
    refine ⟨(List.perm_insertionSort _ _).trans ?_, List.pairwise_insertionSort _ _⟩
    split
    · exact List.Perm.refl _
    · exact List.reverse_perm _
  scan k rows := by
    simp only [demo]
    split
    · exact List.Perm.refl _
    · exact List.reverse_perm _
  number z _ := by
    have h : (toString z).toInt? = some z := Int.toInt?_repr z
    simp [demo, reads, h]

theorem reads_007 : reads "007" = .whole 7 := by
  have h : "007".toInt? = some ((7 : ℕ) : ℤ) := by
    apply String.toInt?_eq_some_of_toNat?_eq_some
    rw [String.toNat?_eq_some_ofDigitChars (String.isNat_of_isDigit (by decide) (by decide))]
    decide
  simp [reads, h]

theorem reads_word (s : String) (h : s.toList.head? ≠ some '-') (h' : ∃ c ∈ s.toList, c.isDigit = false ∧ c ≠ '_') : reads s = .no := by
  have : s.toInt? = none := by
    rw [String.toInt?_eq_none_iff, ← Bool.not_eq_true, String.isInt_iff]
    rintro (hn | ⟨t, ht, _⟩)
    · obtain ⟨c, hc, h1, h2⟩ := h'
      rcases (String.isNat_iff.mp hn).2.1 c hc with h3 | h3
      · rw [h1] at h3; cases h3
      · exact h2 h3
    · subst ht
      simp at h
  simp [reads, this]

/-- A numeric ID column with two numbers and a text, not in order. -/
def demoTable : Table ℕ := ⟨["ObjID", "a"], .numeric, [⟨.text "x1", [30]⟩, ⟨.int 12, [20]⟩, ⟨.int 7, [10]⟩]⟩

theorem demo_readable : Readable (demo ℕ) demoTable where
  columns := by decide
  objId := by decide
  distinct := by decide
  stored := by
    intro r hr
    simp only [demoTable, List.mem_cons, List.not_mem_nil, or_false] at hr
    rcases hr with rfl | rfl | rfl
    · exact reads_word _ (by decide) (by decide)
    · exact ⟨by decide, by decide⟩
    · exact ⟨by decide, by decide⟩

/-- C99's hypotheses are met: three objects, read whole, in part and by ID, with and without a cache. -/
example (cache : Bool) :
    List.Forall₂ (Answers [⟨.int 7, [10]⟩, ⟨.int 12, [20]⟩, ⟨.text "x1", [30]⟩])
      [.rows 0 none true, .rows 1 (some 1) false, .objects ["x1", "y2", "12"] true]
      ((Reader.fresh cache).calls (demo ℕ) (fun n => n = 0) (some demoTable) [.rows 0 none true, .rows 1 (some 1) false, .objects ["x1", "y2", "12"] true]) := by
  refine C99_histories (demo ℕ) (demo_keeps ℕ) _ demoTable demo_readable _ ⟨by decide +kernel, by decide +kernel⟩ cache _ ?_
  intro c hc
  simp only [List.mem_cons, List.not_mem_nil, or_false] at hc
  rcases hc with rfl | rfl | rfl
  · exact ⟨fun n h => (nomatch h), fun _ => rfl, fun _ => by decide⟩
  · exact ⟨fun n h => by cases h; decide, fun h => (nomatch h), fun _ => by decide⟩
  · refine ⟨by decide, fun _ s hs z hz => ?_, fun _ => by decide⟩
    simp only [List.mem_cons, List.not_mem_nil, or_false] at hs
    rcases hs with rfl | rfl | rfl
    · rw [show (demo ℕ).readsAs "x1" = .no from reads_word _ (by decide) (by decide)] at hz; cases hz
    · rw [show (demo ℕ).readsAs "y2" = .no from reads_word _ (by decide) (by decide)] at hz; cases hz
    · rw [show (demo ℕ).readsAs "12" = .whole 12 from (demo_keeps ℕ).number 12 ⟨by decide, by decide⟩] at hz
      cases hz
      decide +kernel

/-- Blocks of two rows of the same table. -/
example (cache : Bool) : ∃ blocks : List (List (Rec ℕ)),
    (Reader.fresh cache).calls (demo ℕ) (fun n => n = 0) (some demoTable) (blockCalls 3 2) = blocks.map .ok ∧
      blocks.flatten = [⟨"7", [10]⟩, ⟨"12", [20]⟩, ⟨"x1", [30]⟩] :=
  C99_blocks (demo ℕ) (demo_keeps ℕ) _ demoTable demo_readable [⟨.int 7, [10]⟩, ⟨.int 12, [20]⟩, ⟨.text "x1", [30]⟩]
    ⟨by decide +kernel, by decide +kernel⟩ cache 2 (by decide)

/-- C99 fails for IDs that occur more than once: read in blocks of one row, the two rows of an object may come as one of them twice, and the other never. -/
theorem C99_repeated_fails :
    (Reader.fresh false).calls (demo ℕ) (fun n => n = 0) (some ⟨["ObjID", "a"], .text, [⟨.text "x", [1]⟩, ⟨.text "x", [2]⟩]⟩) (blockCalls 2 1) =
      [.ok [⟨"x", [1]⟩], .ok [⟨"x", [1]⟩]] := by decide +kernel

/-- C99 fails for another way of writing a number: asked of a numeric column for the object `007`, the reader gives the object `7`, unless it caches. -/
theorem C99_spelling_fails :
    let t : Table ℕ := ⟨["ObjID", "a"], .numeric, [⟨.int 7, [1]⟩]⟩
    (Reader.fresh false).calls (demo ℕ) (fun n => n = 0) (some t) [.objects ["007"] false] = [.ok [⟨"7", [1]⟩]] ∧
    (Reader.fresh true).calls (demo ℕ) (fun n => n = 0) (some t) [.objects ["007"] false] = [.ok []] := by
  refine ⟨?_, by decide +kernel⟩
  have h : readObjectsInternal (demo ℕ) (some ⟨["ObjID", "a"], .numeric, [⟨.int 7, [1]⟩]⟩) 0 ["007"] = .ok [⟨.int 7, [1]⟩] := by
    unfold readObjectsInternal
    rw [lookup_ok (by decide)]
    simp [demo, sameAs, reads_007]
  simp only [Reader.calls, Reader.call, Reader.fresh, h, Bool.false_eq_true, if_false]
  decide +kernel

/-- C99 fails for numbers in a column without type: the rows show the ID `7`, but asked for `7` the reader finds nothing, unless it caches. -/
theorem C99_untyped_fails :
    let t : Table ℕ := ⟨["ObjID", "a"], .none, [⟨.int 7, [1]⟩]⟩
    (Reader.fresh false).calls (demo ℕ) (fun n => n = 0) (some t) [.rows 0 none false, .objects ["7"] false] = [.ok [⟨"7", [1]⟩], .ok []] ∧
    (Reader.fresh true).calls (demo ℕ) (fun n => n = 0) (some t) [.rows 0 none false, .objects ["7"] false] = [.ok [⟨"7", [1]⟩], .ok [⟨"7", [1]⟩]] := by
  decide +kernel

/-- C99 fails for missing IDs: among whole numbers a missing one turns the others of its block into fractions, so that the ID of an object depends on the block, and
the missing ID is not refused even when missing values are to be. -/
theorem C99_missing_id_fails :
    (Reader.fresh false).calls (demo ℕ) (fun n => n = 0) (some ⟨["ObjID", "a"], .numeric, [⟨.null, [1]⟩, ⟨.int 7, [2]⟩]⟩)
      [.rows 0 none true, .rows 1 (some 1) true] = [.ok [⟨"nan", [1]⟩, ⟨"7.0", [2]⟩], .ok [⟨"7", [2]⟩]] := by decide +kernel

/-- A start without a size is refused, unless the reader caches; more IDs than sqlite allows likewise; and a size of -1 is all rows or none. -/
theorem C99_limits_fails :
    let t : Table ℕ := ⟨["ObjID", "a"], .text, [⟨.text "a", [1]⟩, ⟨.text "b", [2]⟩]⟩
    let calls : List Call := [.rows 1 none false, .objects ["a", "b", "c", "d"] false, .rows 1 (some (-1)) false]
    (Reader.fresh false).calls (demo ℕ) (fun n => n = 0) (some t) calls = [.error .exit, .error .sql, .ok [⟨"b", [2]⟩]] ∧
    (Reader.fresh true).calls (demo ℕ) (fun n => n = 0) (some t) calls = [.ok [⟨"b", [2]⟩], .ok [⟨"a", [1]⟩, ⟨"b", [2]⟩], .ok []] := by decide +kernel

/-- Missing values are refused only once by a reader that caches: the table it refused is kept and given at the next call, which asked to refuse them as well. The refusal
itself is not the message that was meant but an `AttributeError`. -/
theorem C99_refused_once_fails :
    let t : Table ℕ := ⟨["ObjID", "a"], .text, [⟨.text "a", [1]⟩, ⟨.text "b", [0]⟩]⟩
    (Reader.fresh true).calls (demo ℕ) (fun n => n = 0) (some t) [.rows 0 none true, .rows 0 none true] =
      [.error .attribute, .ok [⟨"a", [1]⟩, ⟨"b", [0]⟩]] := by decide +kernel

/-- A column named `objid` is found by sqlite but not by the check of the columns; a database without the table is an error of sqlite. -/
example : (Reader.fresh false).calls (demo ℕ) (fun n => n = 0) (some ⟨["objid", "a"], .text, [⟨.text "a", [1]⟩]⟩) [.rows 0 none false] = [.error .exit] ∧
    (Reader.fresh false).calls (demo ℕ) (fun n => n = 0) none [.rows 0 none false] = [.error .sql] := by decide +kernel

/-- C99 (missing values) met: the block without missing values is given, the other refused. -/
example : (Reader.fresh false).calls (demo ℕ) (fun n => n = 0) (some ⟨["ObjID", "a"], .text, [⟨.text "a", [1]⟩, ⟨.text "b", [0]⟩]⟩)
    [.rows 0 (some 1) true, .rows 1 (some 1) true] = [.ok [⟨"a", [1]⟩], .error .attribute] := by decide +kernel

end Sorcha.Db.Props
