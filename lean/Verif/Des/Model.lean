import Mathlib.Data.Rat.Defs
import Mathlib.Data.List.Sort
import Mathlib.Algebra.Order.Field.Rat
import Mathlib.Algebra.Order.Ring.Abs

/-!
# Model of the DES discovery filter, modules/DESDiscoveryFilter.py

Times and coordinates are exact rationals; the thresholds 0.4, 0.7 and 0.5 * 365.25 are the decimal numbers of the source.
-/

namespace Sorcha.Des

/-- One row: object, `fieldMJD_TAI`, the heliocentric position and the other columns. -/
structure Row (V : Type) where
  obj : String
  t : ℚ
  x : ℚ
  y : ℚ
  z : ℚ
  rest : V
deriving DecidableEq, Repr

variable {V : Type}

/-- `compute_nunique`, DESDiscoveryFilter.py:165-199: the inner loop looks at all earlier times (`seen`). -/
def nunique (seen : List ℚ) : List ℚ → ℕ
  | [] => 0
  | t :: ts => (if seen.any (fun s => |s - t| < 4 / 10) then 0 else 1) + nunique (t :: seen) ts

/-- One step of the loop of `compute_arccut`, DESDiscoveryFilter.py:108-112, on `(t1a, t2a)`. -/
def arcStep (t1 t2 : ℚ) (p : ℚ × ℚ) (t : ℚ) : ℚ × ℚ :=
  (if t - t1 > 7 / 10 ∧ t < p.1 then t else p.1, if t2 - t > 7 / 10 ∧ t > p.2 then t else p.2)

/-- `np.min(times)`; the list is not empty. -/
def minTime : List ℚ → ℚ
  | [] => 0
  | t :: ts => ts.foldl min t

/-- `np.max(times)`. -/
def maxTime : List ℚ → ℚ
  | [] => 0
  | t :: ts => ts.foldl max t

/-- `compute_arccut`, DESDiscoveryFilter.py:84-116. -/
def arccut (times : List ℚ) : Bool :=
  let t1 := minTime times
  let t2 := maxTime times
  let p := times.foldl (arcStep t1 t2) (t2, t1)
  decide (min (t2 - p.1) (p.2 - t1) > 1 / 2 * (36525 / 100))

/-- The loop that fills `det`, DESDiscoveryFilter.py:145-147; `prev` is `times[i]`. -/
def detGo (prev : ℚ) : List ℚ → List ℚ
  | [] => []
  | t :: ts => if t - prev > 4 / 10 then t :: detGo t ts else detGo t ts

/-- `det`, DESDiscoveryFilter.py:139-147. -/
def det : List ℚ → List ℚ
  | [] => []
  | t :: ts => t :: detGo t ts

/-- The loop over `det`, DESDiscoveryFilter.py:150-153: `(first_pair, second_pair)` is replaced when both gaps are smaller. -/
def pairs (first second : ℚ) : List ℚ → ℚ × ℚ
  | a :: b :: c :: r =>
    if c - b < first ∧ b - a < second then pairs (c - b) (b - a) (b :: c :: r) else pairs first second (b :: c :: r)
  | _ => (first, second)

/-- `compute_triplet`, DESDiscoveryFilter.py:119-158. -/
def triplet (times : List ℚ) (thresh : ℚ) : Bool :=
  let p := pairs 999 999 (det times)
  decide (p.1 < thresh ∧ p.2 < thresh)

/-- `bound`, DESDiscoveryFilter.py:18: the square of 50 au in km; `astropy` has 149597870.7 km per au. -/
def bound : ℚ := (50 * 1495978707 / 10) ^ 2

/-- `distance_sq`, DESDiscoveryFilter.py:63, of the rows of one object. -/
def distanceSq (rows : List (Row V)) : ℚ := minTime (rows.map fun r => r.x ^ 2 + r.y ^ 2 + r.z ^ 2)

/-- The test for one object, DESDiscoveryFilter.py:61-78; `obsv[obsv_indices]` are its rows. Sorting by time leaves the order of equal times open,
which the functions, fed with times only, cannot see. -/
def found (rows : List (Row V)) : Bool :=
  let window : ℚ := if distanceSq rows ≥ bound then 90 else 60
  let times := (rows.map (·.t)).insertionSort (· ≤ ·)
  decide (nunique [] times ≥ 9) || (arccut times && triplet times window && decide (nunique [] times ≥ 7))

/-- `DESDiscoveryFilter`, DESDiscoveryFilter.py:21-82. Sorting by identifier and cutting where it changes (lines 52-55) groups the rows by object;
a row's mask is the verdict on its object. `sortTime` is `sort_values(mjdTime)`, which leaves the order of equal times open. -/
def discoveryFilter (sortTime : List (Row V) → List (Row V)) (obs : List (Row V)) : List (Row V) :=
  sortTime (obs.filter fun r => found (obs.filter (·.obj = r.obj)))

end Sorcha.Des
