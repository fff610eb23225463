import Verif.Visits.Model

/-!
# Specification for the visit-specific footprint
-/

namespace Sorcha.Visits.Spec

/-- Squared distance in the plane. -/
def sqDist (p q : ℝ × ℝ) : ℝ := (p.1 - q.1) ^ 2 + (p.2 - q.2) ^ 2

/-- `r` lists the positions of `k` nearest points. -/
structure IsNearest (pts : List (ℝ × ℝ)) (k : ℕ) (p : ℝ × ℝ) (r : List ℕ) : Prop where
  count : r.length = k
  distinct : r.Nodup
  valid : ∀ i ∈ r, i < pts.length
  nearest : ∀ i ∈ r, ∀ j < pts.length, j ∉ r → ∀ a b, pts[i]? = some a → pts[j]? = some b → sqDist p a ≤ sqDist p b

/-- The outside functions behave as documented: nearest neighbours are nearest, a set is listed in some order. -/
structure Sound (x : Ext) : Prop where
  knn : ∀ pts k p, k ≤ pts.length → IsNearest pts k p (x.knn pts k p)
  order : ∀ l, (x.order l).Perm l
  order' : ∀ l, (x.order' l).Perm l

/-- The table has a fresh index: the label of each row is its position. -/
def FreshIndex (obs : List Obs) : Prop := ∀ i (o : Obs), obs[i]? = some o → o.label = i

/-- The right ascension of `o` in the turn closest to its field: it differs from the given one by a whole number of turns and is less than
`b` from the field centre. -/
def Unwrapped (b : ℝ) (o : Obs) (r : ℝ) : Prop := (∃ n : ℤ, r = o.ra + n * 360) ∧ |r - o.fieldRA| < b

/-- Reference points of a chip: centre and corners. -/
def refs (c : Chip) : List (ℝ × ℝ) := [c.centre, c.llc, c.lrc, c.urc, c.ulc]

/-- The position of an observation relative to its field: right ascension in the turn closest to the field centre, declination as given. -/
def Place (b : ℝ) (o : Obs) (p : ℝ × ℝ) : Prop := Unwrapped b o p.1 ∧ p.2 = o.dec

/-- A table of observations as the ephemeris makes them, for a search radius `b`: rows of a visit share the field centre, right ascensions
are in [0, 360), and every row is less than `b` in right ascension from its field, going the short way round. -/
structure Regular (b : ℝ) (obs : List Obs) : Prop where
  sameField : ∀ o ∈ obs, ∀ o' ∈ obs, o.field = o'.field → o.fieldRA = o'.fieldRA
  fieldRange : ∀ o ∈ obs, 0 ≤ o.fieldRA ∧ o.fieldRA < 360
  raRange : ∀ o ∈ obs, 0 ≤ o.ra ∧ o.ra < 360
  near : ∀ o ∈ obs, ∃ r, Unwrapped b o r

/-- A chip whose corners are those of the rectangle `[x0, x1] × [y0, y1]`. -/
def IsRectangle (c : Chip) (x0 x1 y0 y1 : ℝ) : Prop :=
  x0 < x1 ∧ y0 < y1 ∧ c.llc = (x0, y0) ∧ c.lrc = (x1, y0) ∧ c.urc = (x1, y1) ∧ c.ulc = (x0, y1)

/-- A point is contained in a rectangle iff it is inside. -/
def Rectangles (x : Ext) : Prop := ∀ c x0 x1 y0 y1, IsRectangle c x0 x1 y0 y1 →
  ∀ p : ℝ × ℝ, x.contains c p = true ↔ x0 < p.1 ∧ p.1 < x1 ∧ y0 < p.2 ∧ p.2 < y1

end Sorcha.Visits.Spec
