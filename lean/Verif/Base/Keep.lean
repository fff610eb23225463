import Mathlib.Data.List.Basic
import Mathlib.Logic.Basic

/-!
# `keep P l`: the elements of `l` satisfying the proposition `P`, in order and with multiplicity
-/

namespace Sorcha

/-- The elements of `l` that satisfy `P`, in their order. -/
noncomputable def keep {α : Type*} (P : α → Prop) (l : List α) : List α :=
  l.filter (fun a => @decide (P a) (Classical.propDecidable _))

variable {α : Type*}

theorem filter_eq_keep (p : α → Bool) (P : α → Prop) (l : List α) (h : ∀ a ∈ l, (p a = true ↔ P a)) :
    l.filter p = keep P l := by
  apply List.filter_congr
  intro a ha
  rw [Bool.eq_iff_iff, h a ha]; simp

theorem mem_keep {P : α → Prop} {l : List α} {a : α} : a ∈ keep P l ↔ a ∈ l ∧ P a := by
  simp [keep]

theorem keep_nil (P : α → Prop) : keep P ([] : List α) = [] := rfl

theorem keep_cons_pos {P : α → Prop} {a : α} {l : List α} (h : P a) : keep P (a :: l) = a :: keep P l := by
  simp [keep, h]

theorem keep_cons_neg {P : α → Prop} {a : α} {l : List α} (h : ¬ P a) : keep P (a :: l) = keep P l := by
  simp [keep, h]

theorem keep_append (P : α → Prop) (l m : List α) : keep P (l ++ m) = keep P l ++ keep P m := by
  simp [keep]

theorem keep_keep (P Q : α → Prop) (l : List α) : keep P (keep Q l) = keep (fun a => Q a ∧ P a) l := by
  induction l with
  | nil => rfl
  | cons a l ih =>
    by_cases hq : Q a
    · by_cases hp : P a
      · rw [keep_cons_pos hq, keep_cons_pos hp, keep_cons_pos ⟨hq, hp⟩, ih]
      · rw [keep_cons_pos hq, keep_cons_neg hp, keep_cons_neg (fun h => hp h.2), ih]
    · rw [keep_cons_neg hq, keep_cons_neg (fun h => hq h.1), ih]

theorem keep_congr {P Q : α → Prop} {l : List α} (h : ∀ a ∈ l, (P a ↔ Q a)) : keep P l = keep Q l := by
  apply filter_eq_keep
  intro a ha
  rw [← h a ha]; simp

theorem keep_true (l : List α) : keep (fun _ => True) l = l := by
  simp [keep]

theorem keep_sublist (P : α → Prop) (l : List α) : (keep P l).Sublist l := List.filter_sublist

theorem length_keep_le (P : α → Prop) (l : List α) : (keep P l).length ≤ l.length := (keep_sublist P l).length_le

end Sorcha
