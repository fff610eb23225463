import Mathlib.Data.List.Basic
import Mathlib.Data.List.Nodup

/-!
# pandas tables with an index

A table is a list of `(label, row)` pairs.  Positional masks (`df[mask]`), label-based `drop` and `reset_index`
are distinguished because sorcha mixes them.
-/

namespace Sorcha

/-- A data frame: index label and row. -/
abbrev Table (ρ : Type) := List (ℕ × ρ)

namespace Table
variable {ρ : Type}

/-- The rows without the index. -/
def rows (t : Table ρ) : List ρ := t.map (·.2)

/-- `df[mask]` where the mask is computed from each row. -/
def mask (p : ρ → Bool) (t : Table ρ) : Table ρ := t.filter fun r => p r.2

/-- `df[mask].index`. -/
def labelsWhere (p : ρ → Bool) (t : Table ρ) : List ℕ := (t.mask p).map (·.1)

/-- `df.drop(labels)`: every row carrying one of the labels goes. -/
def dropLabels (ls : List ℕ) (t : Table ρ) : Table ρ := t.filter fun r => !ls.contains r.1

/-- `df.reset_index(drop=True)`. -/
def resetIndex (t : Table ρ) : Table ρ := t.mapIdx fun i r => (i, r.2)

/-- Rows sharing a label do not differ in `p` (holds in particular for unique labels). -/
def LabelsAgree (p : ρ → Bool) (t : Table ρ) : Prop :=
  ∀ a ∈ t, ∀ b ∈ t, a.1 = b.1 → p a.2 = p b.2

theorem labelsAgree_of_nodup (p : ρ → Bool) (t : Table ρ) (h : (t.map (·.1)).Nodup) : LabelsAgree p t := by
  intro a ha b hb hab
  have : a = b := by
    induction t with
    | nil => simp at ha
    | cons x t ih =>
      simp only [List.map_cons, List.nodup_cons] at h
      rcases List.mem_cons.1 ha with rfl | ha' <;> rcases List.mem_cons.1 hb with rfl | hb'
      · rfl
      · exact absurd (List.mem_map.2 ⟨b, hb', hab.symm⟩) h.1
      · exact absurd (List.mem_map.2 ⟨a, ha', hab⟩) h.1
      · exact ih h.2 ha' hb'
  rw [this]

theorem rows_resetIndex (t : Table ρ) : (resetIndex t).rows = t.rows := by
  unfold resetIndex rows
  apply List.ext_getElem?
  intro i
  simp [List.getElem?_mapIdx, Option.map_map, Function.comp_def]

theorem labels_resetIndex (t : Table ρ) : (resetIndex t).map (·.1) = List.range t.length := by
  apply List.ext_getElem?
  intro i
  simp only [resetIndex, List.getElem?_map, List.getElem?_mapIdx]
  by_cases h : i < t.length
  · simp [List.getElem?_eq_getElem h, List.getElem?_range h]
  · have h' : t.length ≤ i := Nat.le_of_not_lt h
    rw [List.getElem?_eq_none h', List.getElem?_eq_none (by simpa using h')]; rfl

theorem resetIndex_nodup (t : Table ρ) : ((resetIndex t).map (·.1)).Nodup := by
  rw [labels_resetIndex]; exact List.nodup_range

theorem rows_mask (p : ρ → Bool) (t : Table ρ) : (t.mask p).rows = t.rows.filter p := by
  unfold mask rows
  rw [List.filter_map]; rfl

theorem dropLabels_where (p : ρ → Bool) (t : Table ρ) (h : LabelsAgree p t) :
    dropLabels (labelsWhere p t) t = t.mask (fun r => !p r) := by
  unfold dropLabels mask
  apply List.filter_congr
  intro a ha
  congr 1
  rw [Bool.eq_iff_iff, List.contains_iff_mem]
  simp only [labelsWhere, mask, List.mem_map, List.mem_filter]
  constructor
  · rintro ⟨b, ⟨hb, hpb⟩, hab⟩
    rw [h a ha b hb hab.symm]; exact hpb
  · intro hp; exact ⟨a, ⟨ha, hp⟩, rfl⟩

end Table
end Sorcha
