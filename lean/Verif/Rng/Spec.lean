import Verif.Rng.Model

/-!
# Specification: one infinite stream per module
-/

namespace Sorcha.Rng.Spec

variable {G : Type}

/-- The generator after `k` draws. -/
def after (N : Gen G) (g : G) : ℕ → G
  | 0 => g
  | k + 1 => (N.next (after N g k)).2

/-- The `k`-th number (from 0) a fresh generator with this seed yields. -/
def stream (N : Gen G) (sd : ℕ) (k : ℕ) : ℚ := (N.next (after N (N.seed sd) k)).1

/-- How many numbers the calls in the history drew from module `m`. -/
def drawn (m : String) : List Op → ℕ
  | [] => 0
  | .draw m' n :: h => (if m' = m then n else 0) + drawn m h
  | .request _ :: h => drawn m h

/-- The op concerns another module than `m`. -/
def Foreign (m : String) : Op → Prop
  | .request m' => m' ≠ m
  | .draw m' _ => m' ≠ m

end Sorcha.Rng.Spec
