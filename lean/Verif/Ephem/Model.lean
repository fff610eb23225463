import Verif.Geom.Model

/-!
# Model of the ephemeris geometry

Real arithmetic, vectors with three components. The integrator (REBOUND/ASSIST) is a parameter: the position and velocity of the
object as functions of time.
-/

namespace Sorcha.Ephem
open Sorcha.Photom Sorcha.Geom Real

/-- Component-wise sum and difference of arrays. -/
instance : Add Vec := ⟨fun a b => ⟨a.x + b.x, a.y + b.y, a.z + b.z⟩⟩
instance : Sub Vec := ⟨fun a b => ⟨a.x - b.x, a.y - b.y, a.z - b.z⟩⟩

/-- Array times number. -/
def scale (k : ℝ) (a : Vec) : Vec := ⟨k * a.x, k * a.y, k * a.z⟩

/-- `np.linalg.norm`. -/
noncomputable def norm3 (a : Vec) : ℝ := √(dot3 a a)

/-- A 3x3 array, row by row. -/
structure Mat where
  r0 : Vec
  r1 : Vec
  r2 : Vec

/-- `np.dot(v, m)`: row vector times matrix. -/
def vecMat (v : Vec) (m : Mat) : Vec :=
  ⟨v.x * m.r0.x + v.y * m.r1.x + v.z * m.r2.x, v.x * m.r0.y + v.y * m.r1.y + v.z * m.r2.y,
    v.x * m.r0.z + v.y * m.r1.z + v.z * m.r2.z⟩

/-- `m @ v`: matrix times column vector. -/
def matVec (m : Mat) (v : Vec) : Vec := ⟨dot3 m.r0 v, dot3 m.r1 v, dot3 m.r2 v⟩

/-- `create_ecl_to_eq_rotation_matrix`, ephemeris/simulation_constants.py:10-32. -/
noncomputable def eclToEqMatrix (ecl : ℝ) : Mat :=
  let ce := cos (-ecl)
  let se := sin ecl
  ⟨⟨1, 0, 0⟩, ⟨0, ce, se⟩, ⟨0, -se, ce⟩⟩

/-- `OBLIQUITY_ECLIPTIC`, ephemeris/simulation_constants.py:7. -/
noncomputable def obliquity : ℝ := 84381.448 * (1 / 3600) * π / 180

/-- `ecliptic_to_equatorial`, ephemeris/simulation_geometry.py:12-27 with the matrix of simulation_constants.py:35. -/
noncomputable def eclipticToEquatorial (v : Vec) : Vec := vecMat v (eclToEqMatrix obliquity)

/-- `equatorial_to_ecliptic`, ephemeris/simulation_geometry.py:30-45 with the matrix of simulation_constants.py:36. -/
noncomputable def equatorialToEcliptic (v : Vec) : Vec := vecMat v (eclToEqMatrix (-obliquity))

/-- `ra_dec2vec`, ephemeris/simulation_geometry.py:124-142. -/
noncomputable def raDec2vec (ra dec : ℝ) : Vec :=
  let radeg := π / 180
  ⟨cos (ra * radeg) * cos (dec * radeg), sin (ra * radeg) * cos (dec * radeg), sin (dec * radeg)⟩

/-- `vec2ra_dec`, ephemeris/simulation_geometry.py:145-165. -/
noncomputable def vec2raDec (v : Vec) : ℝ × ℝ :=
  let radeg := 180 / π
  (mod (radeg * arctan2 v.y v.x) 360, radeg * arcsin v.z)

/-- One pass of the loop of `integrate_light_time`, ephemeris/simulation_geometry.py:83-88: from a light time to `(rho, rho_mag,
lt, target, vtarget)`. -/
noncomputable def lightTimeStep (pos vel : ℝ → Vec) (t : ℝ) (rObs : Vec) (c lt : ℝ) : Vec × ℝ × ℝ × Vec × Vec :=
  let target := pos (t - lt)
  let vtarget := vel (t - lt)
  let rho := target - rObs
  let rhoMag := norm3 rho
  (rho, rhoMag, rhoMag / c, target, vtarget)

/-- `integrate_light_time`, ephemeris/simulation_geometry.py:48-90; the number of iterations is at least one (for zero the code
raises). -/
noncomputable def integrateLightTime (pos vel : ℝ → Vec) (t : ℝ) (rObs : Vec) (c lt0 : ℝ) : ℕ → Vec × ℝ × ℝ × Vec × Vec
  | 0 => lightTimeStep pos vel t rObs c lt0
  | n + 1 => lightTimeStep pos vel t rObs c (integrateLightTime pos vel t rObs c lt0 n).2.2.1

/-- `SPEED_OF_LIGHT` in au per day, `AU_KM`, ephemeris/simulation_constants.py:4-6. -/
noncomputable def auKm : ℝ := 149597870700 / 1000
noncomputable def speedOfLight : ℝ := 2.99792458e5 * 86400 / auKm

/-- `get_residual_vectors`, ephemeris/simulation_driver.py:245-268. -/
noncomputable def residualVectors (v : Vec) : Vec × Vec :=
  let cosd := √(1 - v.z * v.z)
  (⟨-v.y / cosd, v.x / cosd, 0 / cosd⟩, ⟨-v.z * v.x / cosd, -v.z * v.y / cosd, cosd⟩)

/-- The geometry columns produced for one object and visit. -/
structure Geometry where
  range : ℝ
  rangeRate : ℝ
  ra : ℝ
  raRate : ℝ
  dec : ℝ
  decRate : ℝ
  objSun : Vec
  objSunV : Vec
  obsSun : Vec
  obsSunV : Vec
  phase : ℝ

/-- `calculate_rates_and_geometry`, ephemeris/simulation_driver.py:271-336. -/
noncomputable def ratesAndGeometry (rSun rObs vSun vObs rho rAst vAst : Vec) (rhoMag : ℝ) : Geometry :=
  let rhoHat := scale (1 / rhoMag) rho
  let drhodt := vAst - vObs
  let drhoMagdt := (1 / rhoMag) * dot3 rho drhodt
  let ddeltatdt := drhoMagdt / speedOfLight
  let drhodt := scale (1 - ddeltatdt) vAst - vObs
  let ad := residualVectors rhoHat
  let drhoHatdt := scale (1 / rhoMag) drhodt - scale (drhoMagdt / rhoMag) rhoHat
  let dradt := dot3 ad.1 drhoHatdt
  let ddecdt := dot3 ad.2 drhoHatdt
  let rAstSun := rAst - rSun
  let rAstObs := rAst - rObs
  let phase := arccos (dot3 rAstSun rAstObs / (norm3 rAstSun * norm3 rAstObs))
  { range := rhoMag * auKm
    rangeRate := drhoMagdt * auKm / (24 * 60 * 60)
    ra := (vec2raDec rhoHat).1
    raRate := dradt * 180 / π
    dec := (vec2raDec rhoHat).2
    decRate := ddecdt * 180 / π
    objSun := scale auKm rAstSun
    objSunV := scale (auKm / (24 * 60 * 60)) (vAst - vSun)
    obsSun := scale auKm (rObs - rSun)
    obsSunV := scale (auKm / (24 * 60 * 60)) (vObs - vSun)
    phase := phase * 180 / π }

/-- `barycentricObservatoryRates`, ephemeris/simulation_geometry.py:168-216: `pos`, `vel` are the Earth's state (SPICE),
`rot` the rotation from the Earth-fixed frame as a function of time (SPICE), `obs` the observatory in Earth radii. -/
noncomputable def observatoryRates (pos vel : Vec) (rot : ℝ → Mat) (obs : Vec) (rearth et δ : ℝ) : Vec × Vec :=
  let mVec := scale rearth (matVec (rot et) obs)
  let mVecp := scale rearth (matVec (rot (et + δ)) obs)
  let mVecm := scale rearth (matVec (rot (et - δ)) obs)
  (pos + mVec, vel + scale (1 / (2 * δ)) (mVecp - mVecm))

/-! ## Interpolation and pickets -/

/-- `lagrange3`, ephemeris/pixel_dict.py:11-45. -/
noncomputable def lagrange3 (t0 t1 t2 t : ℝ) : ℝ × ℝ × ℝ :=
  ((t - t1) * (t - t2) / ((t0 - t1) * (t0 - t2)), (t - t0) * (t - t2) / ((t1 - t0) * (t1 - t2)),
    (t - t0) * (t - t1) / ((t2 - t0) * (t2 - t1)))

/-- The combination in `interpolate_unit_vectors` and `compute_pixel_traversed`, ephemeris/pixel_dict.py:248, 270. -/
noncomputable def interpolate (tm t0 tp : ℝ) (vm v0 vp : Vec) (t : ℝ) : Vec :=
  let l := lagrange3 tm t0 tp t
  scale l.1 vm + scale l.2.1 v0 + scale l.2.2 vp

/-- State of a `PixelDict`, ephemeris/pixel_dict.py:48-120. `V` is the table of unit vectors of all objects. The pixel dictionary
is recorded by the arguments it was computed from. -/
structure Pickets (V : Type) where
  tm : ℝ
  t0 : ℝ
  tp : ℝ
  vm : V
  v0 : V
  vp : V
  pixFrom : (ℝ × ℝ × ℝ) × (V × V × V)

/-- `compute_pixel_traversed`, ephemeris/pixel_dict.py:254-288: the pixel table now comes from the current times and vectors. -/
def computePixels {V : Type} (s : Pickets V) : Pickets V := { s with pixFrom := ((s.tm, s.t0, s.tp), (s.vm, s.v0, s.vp)) }

/-- `PixelDict.__init__`, ephemeris/pixel_dict.py:54-118; `vec` gives the unit vectors of all objects at a time (observatory
position and light-time iteration). -/
def initPickets {V : Type} (vec : ℝ → V) (P t : ℝ) : Pickets V :=
  computePixels { tm := t - P, t0 := t, tp := t + P, vm := vec (t - P), v0 := vec t, vp := vec (t + P), pixFrom := ((0, 0, 0), (vec t, vec t, vec t)) }

/-- Python's `round` of a float: nearest integer, ties to even. -/
noncomputable def pyRound (x : ℝ) : ℤ :=
  let f := ⌊x⌋
  if x - f < 1 / 2 then f else if x - f > 1 / 2 then f + 1 else if f % 2 = 0 then f else f + 1

/-- `update_pickets`, ephemeris/pixel_dict.py:290-351. -/
noncomputable def updatePickets {V : Type} (vec : ℝ → V) (P : ℝ) (s : Pickets V) (t : ℝ) : Pickets V :=
  if |t - s.t0| > 0.5 * P then
    computePixels <|
      if |t - s.t0| ≤ 1.5 * P then
        if t ≤ s.tm then
          { s with tp := s.t0, vp := s.v0, t0 := s.tm, v0 := s.vm, tm := s.tm - P, vm := vec (s.tm - P) }
        else
          { s with tm := s.t0, vm := s.v0, t0 := s.tp, v0 := s.vp, tp := s.tp + P, vp := vec (s.tp + P) }
      else
        let t0 := s.t0 + pyRound ((t - s.t0) / P) * P
        { s with t0 := t0, v0 := vec t0, tp := t0 + P, vp := vec (t0 + P), tm := t0 - P, vm := vec (t0 - P) }
  else s

/-- One object in the pixel table, ephemeris/pixel_dict.py:262-288: the pixels of the sampled directions are replaced by their
neighbours. -/
def pixelsOf (neighbours : ℕ → List ℤ) (sampled : List ℕ) : List ℤ := sampled.flatMap neighbours

/-- `get_designations` after the update, ephemeris/pixel_dict.py:375-382: the objects listed in any of the pixels of the field. -/
def designations {Obj : Type} [DecidableEq Obj] (objs : List Obj) (neighbours : ℕ → List ℤ) (sampled : Obj → List ℕ)
    (field : List ℕ) : List Obj :=
  objs.filter fun o => field.any fun p => (pixelsOf neighbours (sampled o)).contains (p : ℤ)

end Sorcha.Ephem
