import Verif.Filters.Spec
import Verif.Base.Keep
import Mathlib.Tactic.Positivity
import Mathlib.Tactic.Push

namespace Sorcha.Filters
open Spec

theorem lt_iff_below (x y : Fl) : x.lt y = true ↔ Below x y := by
  cases x <;> cases y <;> simp [Fl.lt, Below, num]

theorem fin_sq (a : ℚ) : (Fl.fin a).sq = .fin (a ^ 2) := rfl

variable {ρ : Type}

theorem sqrt_between (s : ℚ) (lo hi : ℚ) (hs : 0 ≤ s) (hlo : 0 ≤ lo) (hhi : 0 ≤ hi) :
    (s < hi ^ 2 ∧ lo ^ 2 < s) ↔ ((lo : ℝ) < Real.sqrt s ∧ Real.sqrt s < (hi : ℝ)) := by
  have hlo' : (0 : ℝ) ≤ lo := by exact_mod_cast hlo
  have hhi' : (0 : ℝ) ≤ hi := by exact_mod_cast hhi
  have h1 : ((lo : ℝ) < Real.sqrt s) ↔ lo ^ 2 < s := by
    rw [Real.lt_sqrt hlo']; exact_mod_cast Iff.rfl
  have h2 : (Real.sqrt s < (hi : ℝ)) ↔ s < hi ^ 2 := by
    rw [Real.sqrt_lt (by exact_mod_cast hs) hhi']; exact_mod_cast Iff.rfl
  rw [h1, h2]; tauto

/-- A sum of squares that lies strictly below a finite number comes from finite coordinates. -/
theorem distanceSq_inside (lo hi : ℚ) (hlo : 0 ≤ lo) (hhi : 0 ≤ hi) (r : Det ρ) :
    ((distanceSq r).lt (Fl.fin hi).sq && (Fl.fin lo).sq.lt (distanceSq r)) = true ↔ DistanceInside lo hi r := by
  rcases r with ⟨oid, f, pm, tm, snr, x, y, z, ra, de, rest⟩
  simp only [DistanceInside, PositionIs, distanceSq]
  cases x <;> cases y <;> cases z <;> simp [Fl.sq, Fl.add, Fl.lt]
  rename_i a b c
  have := sqrt_between (a ^ 2 + b ^ 2 + c ^ 2) lo hi (by positivity) hlo hhi
  rw [this]; simp [length3]

theorem motionSq_inside (lo hi : ℚ) (hlo : 0 ≤ lo) (hhi : 0 ≤ hi) (r : Det ρ) :
    ((motionSq r).lt (Fl.fin hi).sq && (Fl.fin lo).sq.lt (motionSq r)) = true ↔ MotionInside lo hi r := by
  rcases r with ⟨oid, f, pm, tm, snr, x, y, z, ra, de, rest⟩
  simp only [MotionInside, motionSq]
  cases ra <;> cases de <;> simp [Fl.sq, Fl.add, Fl.lt]
  rename_i a b
  have := sqrt_between (a ^ 2 + b ^ 2) lo hi (by positivity) hlo hhi
  rw [this]; simp [length2]

/-- Saturation as a Boolean on rows. -/
def satBool : List String → List Fl → Det ρ → Bool
  | f :: fs, x :: xs, r => (decide (r.optFilter = f) && r.psfMag.lt x) || satBool fs xs r
  | _, _, _ => false

theorem satBool_iff (fs : List String) (xs : List Fl) (r : Det ρ) : satBool fs xs r = true ↔ Saturated fs xs r := by
  induction fs generalizing xs with
  | nil => simp [satBool, Saturated]
  | cons f fs ih =>
    cases xs with
    | nil => simp [satBool, Saturated]
    | cons x xs =>
      simp only [satBool, Bool.or_eq_true, Bool.and_eq_true, decide_eq_true_eq, lt_iff_below, ih]
      constructor
      · rintro (⟨h1, h2⟩ | ⟨i, f', x', h1, h2, h3, h4⟩)
        · exact ⟨0, f, x, rfl, rfl, h1, h2⟩
        · exact ⟨i + 1, f', x', h1, h2, h3, h4⟩
      · rintro ⟨i, f', x', h1, h2, h3, h4⟩
        cases i with
        | zero =>
          simp only [List.getElem?_cons_zero, Option.some.injEq] at h1 h2
          subst h1; subst h2; exact .inl ⟨h3, h4⟩
        | succ i => exact .inr ⟨i, f', x', by simpa using h1, by simpa using h2, h3, h4⟩

theorem brightLabels_ok (t : Table (Det ρ)) (fs : List String) (xs : List Fl) (h : fs.length ≤ xs.length) :
    ∃ ls, brightLabels t fs xs = .ok ls ∧
      ∀ l, l ∈ ls ↔ ∃ r, (l, r) ∈ t ∧ satBool fs xs r = true := by
  induction fs generalizing xs with
  | nil => exact ⟨[], rfl, by simp [satBool]⟩
  | cons f fs ih =>
    cases xs with
    | nil => simp at h
    | cons x xs =>
      obtain ⟨ls, h1, h2⟩ := ih xs (by simpa using h)
      refine ⟨t.labelsWhere (fun r => decide (r.optFilter = f) && r.psfMag.lt x) ++ ls, ?_, ?_⟩
      · simp only [brightLabels, h1, bind, Except.bind, pure, Except.pure]
      · intro l
        simp only [List.mem_append, h2, satBool, Bool.or_eq_true]
        simp only [Table.labelsWhere, Table.mask, List.mem_map, List.mem_filter]
        constructor
        · rintro (⟨⟨l', r⟩, ⟨hm, hp⟩, rfl⟩ | ⟨r, hm, hp⟩)
          · exact ⟨r, hm, .inl hp⟩
          · exact ⟨r, hm, .inr hp⟩
        · rintro ⟨r, hm, hp | hp⟩
          · exact .inl ⟨⟨l, r⟩, ⟨hm, hp⟩, rfl⟩
          · exact .inr ⟨r, hm, hp⟩

theorem brightLabels_error (t : Table (Det ρ)) (fs : List String) (xs : List Fl) (h : xs.length < fs.length) :
    brightLabels t fs xs = .error .indexError := by
  induction fs generalizing xs with
  | nil => simp at h
  | cons f fs ih =>
    cases xs with
    | nil => rfl
    | cons x xs =>
      have := ih xs (by simpa using h)
      simp only [brightLabels, this, bind, Except.bind]

theorem dropLabels_of_mem (t : Table (Det ρ)) (ls : List ℕ) (p : Det ρ → Bool)
    (hls : ∀ l, l ∈ ls ↔ ∃ r, (l, r) ∈ t ∧ p r = true) (h : t.LabelsAgree p) :
    t.dropLabels ls = t.mask (fun r => !p r) := by
  unfold Table.dropLabels Table.mask
  apply List.filter_congr
  rintro ⟨l, r⟩ ha
  congr 1
  rw [Bool.eq_iff_iff, List.contains_iff_mem, hls]
  constructor
  · rintro ⟨r', hm, hp⟩
    rw [h (l, r) ha (l, r') hm rfl]; exact hp
  · intro hp; exact ⟨r, ha, hp⟩

theorem rows_mem {t : Table ρ} {a : ρ} : a ∈ t.rows ↔ ∃ l, (l, a) ∈ t := by
  simp [Table.rows]

end Sorcha.Filters
