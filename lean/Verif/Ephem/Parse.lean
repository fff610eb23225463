import Verif.Ephem.Orbit

/-!
# Model of ephemeris/simulation_parsing.py and of `generate_simulations`

Reading an orbit in one of the six formats, the orbit elements used by the faint-object filter, observatory positions.
-/

namespace Sorcha.Ephem
open Sorcha.Photom Sorcha.Geom Real

/-- A row of the orbit table. A row has all columns of its format; the others are not looked at. -/
structure OrbitRow where
  format : String
  q : ℝ
  e : ℝ
  inc : ℝ
  node : ℝ
  argPeri : ℝ
  tpMJD : ℝ
  a : ℝ
  ma : ℝ
  pos : Vec
  vel : Vec

/-- `universal_cartesian` as used by the callers: `mu q e incl longnode argperi tp epoch`. -/
abbrev ToCartesian := ℝ → ℝ → ℝ → ℝ → ℝ → ℝ → ℝ → ℝ → Vec × Vec

/-- `parse_orbit_row` up to the ecliptic state, simulation_parsing.py:56-105; `none` is `ValueError`. -/
noncomputable def eclipticState (cart : ToCartesian) (row : OrbitRow) (epoch gmSun gmTotal : ℝ) : Option (Vec × Vec) :=
  if row.format ≠ "CART" ∧ row.format ≠ "BCART" then
    if row.format = "COM" then
      some (cart gmSun row.q row.e (row.inc * π / 180) (row.node * π / 180) (row.argPeri * π / 180) (row.tpMJD + 2400000.5) epoch)
    else if row.format = "BCOM" then
      some (cart gmTotal row.q row.e (row.inc * π / 180) (row.node * π / 180) (row.argPeri * π / 180) (row.tpMJD + 2400000.5) epoch)
    else if row.format = "KEP" then
      some (cart gmSun (row.a * (1 - row.e)) row.e (row.inc * π / 180) (row.node * π / 180) (row.argPeri * π / 180)
        (epoch - (row.ma * π / 180) * √(row.a ^ 3 / gmSun)) epoch)
    else if row.format = "BKEP" then
      some (cart gmTotal (row.a * (1 - row.e)) row.e (row.inc * π / 180) (row.node * π / 180) (row.argPeri * π / 180)
        (epoch - (row.ma * π / 180) * √(row.a ^ 3 / gmTotal)) epoch)
    else none
  else some (row.pos, row.vel)

/-- The dictionary of Sun states by epoch. -/
abbrev SunDict := List (ℝ × (Vec × Vec))

/-- `if epoch not in sun_dict: sun_dict[epoch] = ephem.get_particle("Sun", epoch - jd_ref)`, `sun = sun_dict[epoch]`,
simulation_parsing.py:107-110 and 152-154. `sun t` is the Sun's barycentric equatorial state at the Julian date `t`. -/
noncomputable def lookupSun (sun : ℝ → Vec × Vec) (d : SunDict) (epoch : ℝ) : (Vec × Vec) × SunDict :=
  open Classical in
  match d.find? (fun p => p.1 = epoch) with
  | some p => (p.2, d)
  | none => (sun epoch, d ++ [(epoch, sun epoch)])

/-- `parse_orbit_row`, simulation_parsing.py:30-119. -/
noncomputable def parseOrbitRow (cart : ToCartesian) (sun : ℝ → Vec × Vec) (gmSun gmTotal : ℝ) (row : OrbitRow) (epoch : ℝ) (d : SunDict) :
    Option ((Vec × Vec) × SunDict) :=
  (eclipticState cart row epoch gmSun gmTotal).map fun ec =>
    let s := lookupSun sun d epoch
    let p := eclipticToEquatorial ec.1
    let v := eclipticToEquatorial ec.2
    if row.format ∈ ["KEP", "COM", "CART"] then ((p + s.1.1, v + s.1.2), s.2) else ((p, v), s.2)

/-- Elements in degrees and MJD, as `get_perihelion_row` returns them (simulation_parsing.py:169-172 and the like). -/
noncomputable def inDegrees (k : Cometary) : Cometary :=
  { k with incl := k.incl * (180 / π), longnode := k.longnode * (180 / π), argperi := k.argperi * (180 / π), tp := k.tp + -2400000.5 }

/-- `get_perihelion_row`, simulation_parsing.py:122-264; `none` is `ValueError`. -/
noncomputable def perihelionRow (cart : ToCartesian) (sun : ℝ → Vec × Vec) (gmSun gmTotal : ℝ) (row : OrbitRow) (epoch : ℝ) (d : SunDict) :
    Option (Cometary × SunDict) :=
  let s := lookupSun sun d epoch
  let p := scale (-1) (equatorialToEcliptic s.1.1)
  let v := scale (-1) (equatorialToEcliptic s.1.2)
  let helio : Vec × Vec → Cometary := fun b => inDegrees (universalCometary gmSun (b.1 + p) (b.2 + v) epoch)
  (if row.format ≠ "COM" then
    if row.format = "CART" then some (inDegrees (universalCometary gmSun row.pos row.vel epoch))
    else if row.format = "BCART" then some (helio (row.pos, row.vel))
    else if row.format = "KEP" then
      let M := row.ma * π / 180
      let M := if M > π then M - 2 * π else M
      some { q := row.a * (1 - row.e), e := row.e, incl := row.inc, longnode := row.node, argperi := row.argPeri,
             tp := epoch - M * √(row.a ^ 3 / gmSun) - 2400000.5 }
    else if row.format = "BKEP" then
      some (helio (cart gmTotal (row.a * (1 - row.e)) row.e (row.inc * π / 180) (row.node * π / 180) (row.argPeri * π / 180)
        (epoch - (row.ma * π / 180) * √(row.a ^ 3 / gmTotal)) epoch))
    else if row.format = "BCOM" then
      some (helio (cart gmTotal row.q row.e (row.inc * π / 180) (row.node * π / 180) (row.argPeri * π / 180) (row.tpMJD + 2400000.5) epoch))
    else none
  else some { q := row.q, e := row.e, incl := row.inc, longnode := row.node, argperi := row.argPeri, tp := row.tpMJD }).map fun k => (k, s.2)

/-- The loop of `generate_simulations`, simulation_setup.py:144-190: epoch to Julian date, initial state per object. `none` is the exit
for an unknown format; a NaN position (also an exit) does not occur in real arithmetic. The result is the list of `(ObjID, time, state)`
in order; `sim_dict` keeps the last one for an ID. -/
noncomputable def generateSimulations (cart : ToCartesian) (sun : ℝ → Vec × Vec) (gmSun gmTotal : ℝ) :
    List (String × ℝ × OrbitRow) → SunDict → Option (List (String × ℝ × (Vec × Vec)))
  | [], _ => some []
  | (id, ep, row) :: rest, d =>
    let epoch := if ep < 2400000.5 then ep + 2400000.5 else ep
    (parseOrbitRow cart sun gmSun gmTotal row epoch d).bind fun r =>
      (generateSimulations cart sun gmSun gmTotal rest r.2).map fun l => (id, epoch, r.1) :: l

/-- An entry of the observatory file: any of the three numbers may be missing. -/
structure ObsRecord where
  longitude : Option ℝ
  cos : Option ℝ
  sin : Option ℝ

/-- Truth value of `obs_location.get(key, False)`: false if missing, and false for the number 0. -/
noncomputable def truthy (x : Option ℝ) : Bool := open Classical in decide (∃ v, x = some v ∧ v ≠ 0)

/-- `convert_to_geocentric`, simulation_parsing.py:314-342. `none` is `(None, None, None)`. -/
noncomputable def convertToGeocentric (o : ObsRecord) : Option Vec :=
  if truthy o.longitude && truthy o.cos && truthy o.sin then
    let lon := (o.longitude.getD 0) * π / 180
    some ⟨o.cos.getD 0 * Real.cos lon, o.cos.getD 0 * Real.sin lon, o.sin.getD 0⟩
  else none

end Sorcha.Ephem
