import Verif.Des.Model
import Mathlib.Data.Finset.Image
import Mathlib.Data.Finset.Card

/-!
# Specification of the DES discovery rule
-/

namespace Sorcha.Des.Spec

/-- A time opens a night when the observation before it is at least 0.4 days earlier. -/
def Opens (times : List ℚ) (t : ℚ) : Prop := t ∈ times ∧ ∀ s ∈ times, s < t → t - s ≥ 4 / 10

instance (times : List ℚ) (t : ℚ) : Decidable (Opens times t) := by unfold Opens; infer_instance

/-- The number of nights with an observation. -/
def nights (times : List ℚ) : ℕ := (times.toFinset.filter (Opens times)).card

/-- Arc cut: without the observations of the first night (those at most 0.7 days after the first one) more than half a year is left, and also
without those of the last night. -/
def LongArc (times : List ℚ) : Prop :=
  (∃ a ∈ times, ∃ b ∈ times, (∃ s ∈ times, a - s > 7 / 10) ∧ b - a > 365.25 / 2) ∧
  (∃ a ∈ times, ∃ b ∈ times, (∃ s ∈ times, s - b > 7 / 10) ∧ b - a > 365.25 / 2)

/-- A triplet: three nights whose first observations follow each other in less than `w` days. -/
def Triplet (times : List ℚ) (w : ℚ) : Prop :=
  ∃ a b c, (a ∈ times ∧ b ∈ times ∧ c ∈ times) ∧ (∀ s ∈ times, s < b → b - s > 4 / 10) ∧ (∀ s ∈ times, s < c → c - s > 4 / 10) ∧
    (∀ s ∈ times, s < a → a - s > 4 / 10) ∧ a < b ∧ b < c ∧ b - a < w ∧ c - b < w

/-- Farther than 50 au from the Sun in all observations (kilometres). -/
def Distant {V : Type} (rows : List (Row V)) : Prop := ∀ r ∈ rows, r.x ^ 2 + r.y ^ 2 + r.z ^ 2 ≥ (50 * 149597870.7) ^ 2

/-- A row belongs to an object that was discovered: nine nights, or seven nights with a long arc and a triplet in 60 days, 90 for distant objects. -/
def Discovered {V : Type} (rows : List (Row V)) : Prop :=
  nights (rows.map (·.t)) ≥ 9 ∨ (nights (rows.map (·.t)) ≥ 7 ∧ LongArc (rows.map (·.t)) ∧
    ∃ w : ℚ, ((Distant rows ∧ w = 90) ∨ (¬ Distant rows ∧ w = 60)) ∧ Triplet (rows.map (·.t)) w)

/-- The first observation of a night: the one before it is more than 0.4 days earlier. -/
def NightStart (times : List ℚ) (t : ℚ) : Prop := t ∈ times ∧ ∀ s ∈ times, s < t → t - s > 4 / 10

/-- Three successive nights, by their first observations. -/
def Successive (times : List ℚ) (a b c : ℚ) : Prop :=
  (NightStart times a ∧ NightStart times b ∧ NightStart times c) ∧ a < b ∧ b < c ∧ ∀ t, NightStart times t → t ≤ a ∨ t = b ∨ c ≤ t

/-- How the search for a triplet goes: three successive nights count (`counts a`, `a` being the first) iff their gaps are less than 999 days and both are shorter than the
gaps of all that counted before. -/
def Search (times : List ℚ) (counts : ℚ → Prop) : Prop :=
  ∀ a b c, Successive times a b c →
    (counts a ↔ (b - a < 999 ∧ c - b < 999 ∧ ∀ a' b' c', Successive times a' b' c' → a' < a → counts a' → b - a < b' - a' ∧ c - b < c' - b'))

/-- What `sort_values` does: the same rows, by time. -/
structure SortSound {V : Type} (sort : List (Row V) → List (Row V)) : Prop where
  perm : ∀ l, (sort l).Perm l
  sorted : ∀ l, (sort l).Pairwise (fun a b => a.t ≤ b.t)

/-- The rows of one object. -/
def rowsOf {V : Type} (o : String) (obs : List (Row V)) : List (Row V) := obs.filter (·.obj = o)

end Sorcha.Des.Spec
