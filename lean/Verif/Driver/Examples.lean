import Verif.Driver.Props

/-! # C61: where it fails, and a small instance -/

namespace Sorcha.Driver.Props
open Sorcha.Driver.Spec

/-! The sky is a line, cut into pixels of length one; an object moves on it at a constant rate. The state of an integrator is position at the reference time, rate, and a
counter of the calls. -/

/-- The pixels with a neighbour at the given directions. -/
def exTraversed (us : ℚ × ℚ × ℚ) : List ℤ := [us.1, us.2.1, us.2.2].flatMap fun u => [⌊u⌋ - 1, ⌊u⌋ + 1]

def exE (fov buffer : ℚ) : Env ℚ ℚ ℚ (ℚ × ℚ × ℕ) ℚ ℚ where
  step s t _ := (s.1 + s.2.1 * t, (s.1, s.2.1, s.2.2 + 1))
  dir x := x
  obs _ := 0
  jdRef := 60000
  interp ts us t := us.2.1 + (us.2.2 - us.1) / (ts.2.2 - ts.1) * (t - ts.2.1)
  traversed _ us := exTraversed us
  field w r := (List.range (⌊w.rest + r⌋ - ⌊w.rest - r⌋ + 1).toNat).map fun i => ⌊w.rest - r⌋ + i
  order l := l.reverse
  jd w := w.mid
  rObs _ := 0
  ang u w := |u - w.rest|
  geometry _ x := x
  interval := 1
  fov := fov
  buffer := buffer

def exStart (r : Readers.Rec ℚ) : ℚ × ℚ × ℕ := (r.cells.headD 0, r.cells.tail.headD 0, 0)

def exVisit (id : ℕ) (t centre : ℚ) : Pointing.Visit ℚ := ⟨id, "r", t, t, 30, 30, none, none, centre⟩

def exIds : Readers.IdParse := ⟨fun _ => false, fun s => if s = "007" then some "7" else none, fun _ => none, fun _ => none⟩

theorem exIterates (fov buffer : ℚ) : Iterates (exE fov buffer) := fun l => List.reverse_perm l

theorem exAnswers (fov buffer : ℚ) (r : Readers.Rec ℚ) : Answers (exE fov buffer) (exStart r) fun t _ => (exStart r).1 + (exStart r).2.1 * t := by
  intro a ha t x
  have : a.1 = (exStart r).1 ∧ a.2.1 = (exStart r).2.1 := by
    induction ha with
    | start => exact ⟨rfl, rfl⟩
    | next _ _ _ ih => exact ih
  simp only [exE, this.1, this.2]

/-- Two objects and three visits in order of time: A is in the first and third field, B in the second. -/
def exObjs : List (Readers.Rec ℚ) := [⟨"A", [10, 1]⟩, ⟨"B", [20, -1]⟩]
def exV : Pointing.Visit ℚ := exVisit 1 60000 (10 + 1/2)
def exVs : List (Pointing.Visit ℚ) := [exVisit 2 (60000 + 1/2) 20, exVisit 3 (60002 + 1/2) 13]

example : ((ephemeris (exE 1 (1/2)) exStart (0, 0, 0) exV exVs exObjs).map fun o => (o.obj, o.field, o.mjd, o.rest)) =
    [("A", 1, 60000, 10), ("B", 2, 60000 + 1/2, 20 - 1/2), ("A", 3, 60002 + 1/2, 12 + 1/2)] := by decide +kernel

/-- The hypotheses of `C61_exact` and `C61_joined`. -/
example : 0 < (exE 1 (1/2)).interval ∧ ((exV :: exVs).map (exE 1 (1/2)).jd).Pairwise (· ≤ ·) ∧ (exObjs.map (·.id)).Nodup ∧ Readers.Spec.StableIds exIds exObjs := by
  refine ⟨by decide +kernel, by decide +kernel, by decide, ?_⟩
  exact Readers.Stable.plain (by decide +kernel)

/-- C61 fails in the buffer: the candidates are searched in the field of view alone. An object at rest 3.5 degrees from the centre of a field of radius 1 with a buffer
of 3 has no row, although both of its distances are below 4. -/
theorem C61_buffer_fails : ∃ (E : Env ℚ ℚ ℚ (ℚ × ℚ × ℕ) ℚ ℚ) (v : Pointing.Visit ℚ) (r : Readers.Rec ℚ) (pos : ℚ → ℚ → ℚ),
    Iterates E ∧ Answers E (exStart r) pos ∧ E.ang (E.interp (around E (E.jd v)) (directions E pos (E.jd v)) (E.jd v)) v < E.fov + E.buffer ∧
    E.ang (E.dir (atVisit E pos v)) v < E.fov + E.buffer ∧ (∃ p ∈ E.field v (E.fov + E.buffer), p ∈ E.traversed (around E (E.jd v)) (directions E pos (E.jd v))) ∧
    ephemeris E exStart (0, 0, 0) v [] [r] = [] :=
  ⟨exE 1 3, exVisit 1 60000 10, ⟨"A", [13 + 1/2, 0]⟩, fun t _ => (13 + 1/2) + 0 * t, exIterates 1 3, exAnswers 1 3 ⟨"A", [13 + 1/2, 0]⟩,
    by decide +kernel, by decide +kernel, ⟨12, by decide +kernel, by decide +kernel⟩, by decide +kernel⟩

/-- C61 fails for visits that go back in time: an object found in a visit is not found in it if a visit seven tenths of an interval later is processed before. -/
theorem C61_backward_fails : ∃ (E : Env ℚ ℚ ℚ (ℚ × ℚ × ℕ) ℚ ℚ) (v w : Pointing.Visit ℚ) (r : Readers.Rec ℚ), Iterates E ∧ 0 < E.interval ∧ E.jd w < E.jd v ∧
    ((ephemeris E exStart (0, 0, 0) w [] [r]).map (·.field)) = [w.id] ∧ w.id ∉ (ephemeris E exStart (0, 0, 0) v [w] [r]).map (·.field) :=
  ⟨exE 1 (1/2), exVisit 1 60000 0, exVisit 2 (60000 - 7/10) (-7), ⟨"A", [0, 10]⟩, exIterates _ _, by decide +kernel, by decide +kernel, by decide +kernel, by decide +kernel⟩

/-- C61 fails for IDs that look like numbers but are not printed like them: object "007" alone is returned as "7" and without the columns of its orbit; together with
an object "A" it is returned with both. -/
theorem C61_ids_fails : ∃ (E : Env ℚ ℚ ℚ (ℚ × ℚ × ℕ) ℚ ℚ) (v : Pointing.Visit ℚ) (r r' : Readers.Rec ℚ), Iterates E ∧ r.id ≠ r'.id ∧
    ((generate E exStart (0, 0, 0) exIds [] v [] [r]).map fun o => (o.obj, o.rest.2)) = [("7", [])] ∧
    ((generate E exStart (0, 0, 0) exIds [] v [] [r, r']).map fun o => (o.obj, o.rest.2)) = [(r'.id, r'.cells), (r.id, r.cells)] :=
  ⟨exE 1 (1/2), exVisit 1 60000 10, ⟨"007", [10, 0]⟩, ⟨"A", [10, 1]⟩, exIterates _ _, by decide, by decide +kernel, by decide +kernel⟩

/-- C61 fails without visits: the call raises. -/
theorem C61_no_visits_fails {K U R S V G C : Type} [Field K] [LinearOrder K] [IsStrictOrderedRing K] [FloorRing K] (E : Env K U R S V G) (start : Readers.Rec C → S)
    (idle : S) (P : Readers.IdParse) (missing : List C) (objs : List (Readers.Rec C)) : createEphemeris E start idle P missing [] objs = none := rfl

/-- and otherwise it returns the table. -/
theorem C61_some_visits {K U R S V G C : Type} [Field K] [LinearOrder K] [IsStrictOrderedRing K] [FloorRing K] (E : Env K U R S V G) (start : Readers.Rec C → S)
    (idle : S) (P : Readers.IdParse) (missing : List C) (v : Pointing.Visit V) (vs : List (Pointing.Visit V)) (objs : List (Readers.Rec C)) :
    createEphemeris E start idle P missing (v :: vs) objs = some (generate E start idle P missing v vs objs) := rfl

end Sorcha.Driver.Props
