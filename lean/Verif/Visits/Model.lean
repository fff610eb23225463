import Mathlib.Data.List.Sort
import Mathlib.Data.List.Dedup
import Mathlib.Data.Real.Basic

/-!
# Model of modules/PPVisitsFootprintFilter.py and of its use in modules/PPApplyFOVFilter.py

Positions are pairs `(ra, dec)` of real numbers, taken as plane coordinates as the code does. `shapely`'s `contains`, `scipy`'s nearest
neighbour search and the iteration order of Python sets are parameters.
-/

namespace Sorcha.Visits

/-- A row of the visits table: PPVisitsFootprintFilter.py:100-106, 125-136. -/
structure Chip where
  llc : ℝ × ℝ
  lrc : ℝ × ℝ
  urc : ℝ × ℝ
  ulc : ℝ × ℝ
  centre : ℝ × ℝ
  detectorID : ℤ
  limMag : ℝ

/-- A row of the table of observations; `label` is its index label. -/
structure Obs where
  label : ℕ
  field : String
  ra : ℝ
  dec : ℝ
  fieldRA : ℝ

/-- The outside functions. -/
structure Ext where
  /-- `Polygon(corners).contains(Point(p))`; the polygon goes through the four corners in order. -/
  contains : Chip → ℝ × ℝ → Bool
  /-- `cKDTree(points).query(p, k)`: positions of the `k` nearest points. -/
  knn : List (ℝ × ℝ) → ℕ → ℝ × ℝ → List ℕ
  /-- Order in which a set of chip numbers is iterated, PPVisitsFootprintFilter.py:123. -/
  order : List ℕ → List ℕ
  /-- Order in which the set of detected labels is listed, PPVisitsFootprintFilter.py:152. -/
  order' : List ℕ → List ℕ

open Classical in
/-- Unwrapping of right ascensions, PPVisitsFootprintFilter.py:68-88, for the rows of one visit. -/
noncomputable def unwrap (b : ℝ) (g : List Obs) : List (ℝ × ℝ) :=
  let pts := g.map fun o => (o.ra, o.dec)
  if b < 180 then
    let pts := if ∃ o ∈ g, o.fieldRA + b > 360 then pts.map fun p => if p.1 < 180 then (p.1 + 360, p.2) else p else pts
    if ∃ o ∈ g, o.fieldRA - b < 0 then pts.map fun p => if p.1 > 180 then (p.1 - 360, p.2) else p else pts
  else pts

/-- Centre and corners of all chips, PPVisitsFootprintFilter.py:94-106. -/
def refPoints (chips : List Chip) : List (ℝ × ℝ) := chips.flatMap fun c => [c.centre, c.llc, c.lrc, c.urc, c.ulc]

/-- The chips examined, PPVisitsFootprintFilter.py:110-117, in the order of line 123: those owning one of the `ccdNum` nearest reference
points of any of the positions. `point_to_ccd_map[i]` is `i / 5`. -/
def candidates (x : Ext) (ccdNum : ℕ) (chips : List Chip) (pts : List (ℝ × ℝ)) : List ℕ :=
  x.order (if chips.length > 1 then
      (pts.flatMap fun p => (x.knn (refPoints chips) (min ccdNum (refPoints chips).length) p).map (· / 5)).dedup
    else [0])

/-- The first examined chip that contains the position, PPVisitsFootprintFilter.py:141-148. -/
def firstHit (x : Ext) (chips : List Chip) (cands : List ℕ) (p : ℝ × ℝ) : Option Chip :=
  (cands.filterMap (chips[·]?)).find? (x.contains · p)

/-- The body of the loop over visits, PPVisitsFootprintFilter.py:63-148: labels and chips of the detected rows of one visit.
`chips` is the answer of the database for the visit. -/
noncomputable def visitHits (x : Ext) (ccdNum : ℕ) (b : ℝ) (chips : List Chip) (g : List Obs) : List (ℕ × Chip) :=
  if chips = [] then []
  else
    let pts := unwrap b g
    (g.zip pts).filterMap fun op => (firstHit x chips (candidates x ccdNum chips pts) op.2).map fun c => (op.1.label, c)

/-- All hits, PPVisitsFootprintFilter.py:60-148. `groupby` goes through the visits in sorted order; the order here is that of first
appearance, which makes no difference to a table without repeated labels. -/
noncomputable def allHits (x : Ext) (ccdNum : ℕ) (b : ℝ) (db : String → List Chip) (obs : List Obs) : List (ℕ × Chip) :=
  (obs.map (·.field)).dedup.flatMap fun f => visitHits x ccdNum b (db f) (obs.filter (·.field = f))

/-- `PPVisitsFootprint`, PPVisitsFootprintFilter.py:12-157: the detected labels with their chip; for a repeated label the last
assignment to the dictionaries counts. -/
noncomputable def visitsFootprint (x : Ext) (ccdNum : ℕ) (b : ℝ) (db : String → List Chip) (obs : List Obs) : List (ℕ × Chip) :=
  let h := allHits x ccdNum b db obs
  (x.order' (h.map (·.1)).dedup).filterMap fun l => h.reverse.find? (·.1 = l)

/-- A row of the result, with the two new columns. -/
structure OutRow where
  obs : Obs
  detectorID : ℤ
  limMag : ℝ

/-- PPApplyFOVFilter.py:58-70: the labels are used as positions (`iloc`); `none` is `IndexError`. -/
noncomputable def applyVisits (x : Ext) (ccdNum : ℕ) (b : ℝ) (db : String → List Chip) (obs : List Obs) : Option (List OutRow) :=
  ((visitsFootprint x ccdNum b db obs).mapM fun h => (obs[h.1]?).map fun o => (⟨o, h.2.detectorID, h.2.limMag⟩ : OutRow)).map
    (List.insertionSort fun a c => a.obs.label ≤ c.obs.label)

end Sorcha.Visits
