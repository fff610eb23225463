import Mathlib.Algebra.Order.Floor.Ring
import Mathlib.Algebra.Order.Field.Basic
import Mathlib.Data.List.Dedup
import Mathlib.Data.Finset.Insert
import Mathlib.Logic.Function.Basic
import Verif.Pointing.Model
import Verif.Readers.Model

/-!
# Model of the ephemeris generator

`create_ephemeris` (ephemeris/simulation_driver.py:51-242) with the class `PixelDict` (ephemeris/pixel_dict.py:49-382): the loop over the visits, the table of
reference directions it updates on the way, the search for candidates, the two distance tests, the table in memory that is read back, the join with the orbits.

The integrator keeps a state for each object, and every call changes it; the model keeps these states, and one object's state is changed only where the code calls
the integrator for that object.

Parameters: the integrator (`step`), the observatory position, the interpolation and the pixels an object traverses (both modelled in `Ephem/Model.lean`), the pixels of
a field (`healpy.query_disc`), the iteration order of a Python set, the angle between a direction and a field centre, and the geometry of an output row
(`Ephem.ratesAndGeometry`). Times are elements of any ordered field with a floor function. Floats written to the table in memory come back unchanged.
-/

namespace Sorcha.Driver

/-- What the generator is given. `K` times and angles, `U` vectors, `R` the answers of the integrator, `S` its states, `V` further columns of a visit, `G` the computed
columns of an output row. -/
structure Env (K U R S V G : Type) where
  /-- `integrate_light_time`, simulation_geometry.py:48-90: state of the object's integrator, time, position of the observatory. -/
  step : S → K → U → R × S
  /-- direction to the object: `rho / rho_mag`. -/
  dir : R → U
  /-- `get_observatory_position`, pixel_dict.py:124-139. -/
  obs : K → U
  /-- `ephem.jd_ref`. -/
  jdRef : K
  /-- the three-point interpolation of directions (`Ephem.interpolate`): times, directions, wanted time. -/
  interp : K × K × K → U × U × U → K → U
  /-- the pixels listed for an object (`Ephem.pixelsOf` of the pixels of the sampled directions): times, directions. -/
  traversed : K × K × K → U × U × U → List ℤ
  /-- `get_hp_neighbors(ra, dec, ang_fov)`, simulation_geometry.py:93-121: pixels of the field, for a radius in degrees. -/
  field : Pointing.Visit V → K → List ℤ
  /-- the order in which a Python set of these strings is iterated. -/
  order : List String → List String
  /-- `fieldJD_TDB` of a visit. -/
  jd : Pointing.Visit V → K
  /-- `r_obs` of a visit. -/
  rObs : Pointing.Visit V → U
  /-- the angle, in degrees, between a direction (normalised) and the centre of a field. -/
  ang : U → Pointing.Visit V → K
  /-- the computed columns of an output row, `calculate_rates_and_geometry`, simulation_driver.py:271-336. -/
  geometry : Pointing.Visit V → R → G
  /-- `ar_picket`, `ar_ang_fov`, `ar_fov_buffer`. -/
  interval : K
  fov : K
  buffer : K

variable {K U R S V G C : Type} [Field K] [LinearOrder K] [IsStrictOrderedRing K] [FloorRing K]

/-- The attributes of a `PixelDict` and the states of the integrators. Directions and states of names that are not keys are arbitrary. -/
structure Table (K U S : Type) where
  tm : K
  t0 : K
  tp : K
  vm : String → U
  v0 : String → U
  vp : String → U
  pixels : ℤ → List String
  sims : String → S

/-- `get_object_unit_vectors`, pixel_dict.py:141-172: a direction for each name, in order; the integrator of each is advanced. -/
def unitVectors (E : Env K U R S V G) (r : U) (t : K) : List String → (String → U) × (String → S) → (String → U) × (String → S)
  | [], acc => acc
  | k :: ks, acc =>
    let a := E.step (acc.2 k) (t - E.jdRef) r
    unitVectors E r t ks (Function.update acc.1 k (E.dir a.1), Function.update acc.2 k a.2)

/-- `compute_pixel_traversed`, pixel_dict.py:262-288: for each pixel the names of the objects that traverse it. -/
def computePixels (E : Env K U R S V G) (names : List String) (s : Table K U S) : Table K U S :=
  { s with pixels := fun p => names.filter fun k => (E.traversed (s.tm, s.t0, s.tp) (s.vm k, s.v0 k, s.vp k)).contains p }

/-- `PixelDict.__init__`, pixel_dict.py:54-118. -/
def initTable (E : Env K U R S V G) (names : List String) (sims : String → S) (t : K) : Table K U S :=
  let none : String → U := fun _ => E.obs t
  let m := unitVectors E (E.obs (t - E.interval)) (t - E.interval) names (none, sims)
  let z := unitVectors E (E.obs t) t names (none, m.2)
  let p := unitVectors E (E.obs (t + E.interval)) (t + E.interval) names (none, z.2)
  computePixels E names { tm := t - E.interval, t0 := t, tp := t + E.interval, vm := m.1, v0 := z.1, vp := p.1, pixels := fun _ => [], sims := p.2 }

/-- Python's `round` of a number: nearest integer, ties to even. -/
def roundEven (x : K) : ℤ := if x - ⌊x⌋ < 1 / 2 then ⌊x⌋ else if x - ⌊x⌋ > 1 / 2 then ⌊x⌋ + 1 else if ⌊x⌋ % 2 = 0 then ⌊x⌋ else ⌊x⌋ + 1

/-- `update_pickets`, pixel_dict.py:290-349. The position of the observatory at a reference time, which the code stores, is computed from the time here. -/
def update (E : Env K U R S V G) (names : List String) (s : Table K U S) (t : K) : Table K U S :=
  let none : String → U := fun _ => E.obs t
  if |t - s.t0| > 1 / 2 * E.interval then
    if |t - s.t0| ≤ 3 / 2 * E.interval then
      if t ≤ s.tm then
        let a := unitVectors E (E.obs (s.tm - E.interval)) (s.tm - E.interval) names (none, s.sims)
        computePixels E names { s with tp := s.t0, vp := s.v0, t0 := s.tm, v0 := s.vm, tm := s.tm - E.interval, vm := a.1, sims := a.2 }
      else
        let a := unitVectors E (E.obs (s.tp + E.interval)) (s.tp + E.interval) names (none, s.sims)
        computePixels E names { s with tm := s.t0, vm := s.v0, t0 := s.tp, v0 := s.vp, tp := s.tp + E.interval, vp := a.1, sims := a.2 }
    else
      let t0 := s.t0 + roundEven ((t - s.t0) / E.interval) * E.interval
      let z := unitVectors E (E.obs t0) t0 names (none, s.sims)
      let p := unitVectors E (E.obs (t0 + E.interval)) (t0 + E.interval) names (none, z.2)
      let m := unitVectors E (E.obs (t0 - E.interval)) (t0 - E.interval) names (none, p.2)
      computePixels E names { s with t0 := t0, v0 := z.1, tp := t0 + E.interval, vp := p.1, tm := t0 - E.interval, vm := m.1, sims := m.2 }
  else s

/-- `get_designations` after its update, pixel_dict.py:373-382: the set of the names in the pixels of the field, in the set's order. -/
def designations (E : Env K U R S V G) (s : Table K U S) (v : Pointing.Visit V) : List String :=
  E.order ((E.field v E.fov).flatMap s.pixels).dedup

/-- The body of the loop over the candidates of a visit, simulation_driver.py:198-220: the interpolated direction must be near the field centre, then the integrator is
asked, then its direction must be near the centre. The rows written so far and the states of the integrators. -/
def examine (E : Env K U R S V G) (s : Table K U S) (v : Pointing.Visit V) :
    List String → (String → S) → List (Pointing.Obs G) × (String → S)
  | [], sims => ([], sims)
  | k :: ks, sims =>
    if E.ang (E.interp (s.tm, s.t0, s.tp) (s.vm k, s.v0 k, s.vp k) (E.jd v)) v < E.fov + E.buffer then
      let a := E.step (sims k) (E.jd v - E.jdRef) (E.rObs v)
      let rest := examine E s v ks (Function.update sims k a.2)
      if E.ang (E.dir a.1) v < E.fov + E.buffer then (⟨k, v.id, v.mid, E.geometry v a.1⟩ :: rest.1, rest.2) else rest
    else examine E s v ks sims

/-- One visit, simulation_driver.py:184-220: candidates (with an update), interpolation (with another update), tests. -/
def visit (E : Env K U R S V G) (names : List String) (s : Table K U S) (v : Pointing.Visit V) : List (Pointing.Obs G) × Table K U S :=
  let s1 := update E names s (E.jd v)
  let desigs := designations E s1 v
  let s2 := update E names s1 (E.jd v)
  let out := examine E s2 v desigs s2.sims
  (out.1, { s2 with sims := out.2 })

/-- The loop over the visits. -/
def visits (E : Env K U R S V G) (names : List String) : Table K U S → List (Pointing.Visit V) → List (Pointing.Obs G)
  | _, [] => []
  | s, v :: vs => (visit E names s v).1 ++ visits E names (visit E names s v).2 vs

/-- The keys of `sim_dict`, simulation_setup.py:144-190: each ID once, at the place of its first row. -/
def keys (objs : List (Readers.Rec C)) : List String := (objs.map (·.id)).reverse.dedup.reverse

/-- `sim_dict`: the state made from the last row of the ID (`idle` for a name without row). -/
def simDict (start : Readers.Rec C → S) (idle : S) (objs : List (Readers.Rec C)) (k : String) : S :=
  ((objs.reverse.find? fun r => r.id = k).map start).getD idle

/-- The table written in memory for the visits `v :: vs`. -/
def ephemeris (E : Env K U R S V G) (start : Readers.Rec C → S) (idle : S) (v : Pointing.Visit V) (vs : List (Pointing.Visit V))
    (objs : List (Readers.Rec C)) : List (Pointing.Obs G) :=
  visits E (keys objs) (initTable E (keys objs) (simDict start idle objs) (E.jd v)) (v :: vs)

/-- `pd.read_csv(output, dtype=column_types)`, simulation_driver.py:160 and 225: `column_types` is `None` (`setdefault(float)` returns the value of a missing key), so
the column of the IDs is read as numbers if all of it looks like numbers; line 235 turns it into strings. -/
def readBack (P : Readers.IdParse) (rows : List (Pointing.Obs G)) : List (Pointing.Obs G) :=
  (rows.zip (Readers.inferIds P (rows.map (·.obj)))).map fun x => { x.1 with obj := x.2 }

/-- `ephemeris_df.join(orbits_df.set_index("ObjID"), on="ObjID")`, simulation_driver.py:237: each row with the columns of each row of its ID, or with missing columns. -/
def joinOrbits (missing : List C) (objs : List (Readers.Rec C)) (rows : List (Pointing.Obs G)) : List (Pointing.Obs (G × List C)) :=
  rows.flatMap fun o =>
    if o.obj ∈ objs.map (·.id) then (objs.filter fun r => r.id = o.obj).map fun r => ⟨o.obj, o.field, o.mjd, (o.rest, r.cells)⟩
    else [⟨o.obj, o.field, o.mjd, (o.rest, missing)⟩]

/-- What `create_ephemeris` returns for the visits `v :: vs`. -/
def generate (E : Env K U R S V G) (start : Readers.Rec C → S) (idle : S) (P : Readers.IdParse) (missing : List C) (v : Pointing.Visit V)
    (vs : List (Pointing.Visit V)) (objs : List (Readers.Rec C)) : List (Pointing.Obs (G × List C)) :=
  joinOrbits missing objs (readBack P (ephemeris E start idle v vs objs))

/-- `create_ephemeris`, simulation_driver.py:51-242; without visits `iloc[0]` raises (`none`). -/
def createEphemeris (E : Env K U R S V G) (start : Readers.Rec C → S) (idle : S) (P : Readers.IdParse) (missing : List C) (vs : List (Pointing.Visit V))
    (objs : List (Readers.Rec C)) : Option (List (Pointing.Obs (G × List C))) :=
  match vs with
  | [] => none
  | v :: vs => some (generate E start idle P missing v vs objs)

/-- Append to the ephemeris file, `write_out_ephemeris_file` (simulation_driver.py:339-374) for text files with `PPOutWriteCSV` (PPOutput.py:13-38): a header iff there
is no file. `render` are the columns of a row after the first. -/
def writeEphemeris (render : Pointing.Obs G → List C) (file : Option (List (Readers.Line C))) (rows : List (Pointing.Obs G)) : Option (List (Readers.Line C)) :=
  match file with
  | none => some (.header :: rows.map fun o => .data ⟨o.obj, render o⟩)
  | some old => some (old ++ rows.map fun o => .data ⟨o.obj, render o⟩)

/-- The ephemeris file after a run, if there was none before: the table of each block that has objects (sorcha.py:213-223), simulation_driver.py:228-230. -/
def ephemerisFile (E : Env K U R S V G) (start : Readers.Rec C → S) (idle : S) (P : Readers.IdParse) (render : Pointing.Obs G → List C) (v : Pointing.Visit V)
    (vs : List (Pointing.Visit V)) (blocks : List (List (Readers.Rec C))) : Option (List (Readers.Line C)) :=
  (blocks.filter fun b => b.length ≠ 0).foldl (fun file b => writeEphemeris render file (readBack P (ephemeris E start idle v vs b))) none

end Sorcha.Driver
