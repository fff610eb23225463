import Verif.Base.Fl
import Verif.Base.Table

/-!
# Model of the per-module random generators and of the random filters
-/

namespace Sorcha.Rng

/-- numpy's generator, as a parameter: `default_rng(seed)` and one double drawn uniformly from `[0, 1)`.
That `Generator.random(n)` makes `n` such draws in sequence is part of the trusted base. -/
structure Gen (G : Type) where
  seed : ℕ → G
  next : G → ℚ × G

variable {G : Type}

/-- `Generator.random(n)`. -/
def Gen.random (N : Gen G) : ℕ → G → List ℚ × G
  | 0, g => ([], g)
  | n + 1, g =>
    let (u, g₁) := N.next g
    let (us, g₂) := Gen.random N n g₁
    (u :: us, g₂)

/-- `PerModuleRNG`, utilities/sorchaModuleRNG.py:5-22: base seed and the dictionary of generators (`_rngs`).
The logger is not modelled. -/
structure Rngs (G : Type) where
  base : ℤ
  rngs : List (String × G)

/-- `PerModuleRNG(base_seed)`, utilities/sorchaModuleRNG.py:8-22. -/
def init (base : ℤ) : Rngs G := { base, rngs := [] }

/-- `module_seed`, utilities/sorchaModuleRNG.py:41-43; `md5` maps a name to the integer of its MD5 hex digest. -/
def moduleSeed (md5 : String → ℕ) (base : ℤ) (name : String) : ℕ := ((base + md5 name) % 2 ^ 31).toNat

/-- `getModuleRNG`, utilities/sorchaModuleRNG.py:38-51: the generator, and the collection after the call. -/
def getModuleRNG (N : Gen G) (md5 : String → ℕ) (s : Rngs G) (name : String) : G × Rngs G :=
  match s.rngs.lookup name with
  | some g => (g, s)
  | none =>
    let g := N.seed (moduleSeed md5 s.base name)
    (g, { s with rngs := (name, g) :: s.rngs })

/-- Drawing from a generator changes the object held in the dictionary. -/
def setRNG (s : Rngs G) (name : String) (g : G) : Rngs G :=
  { s with rngs := s.rngs.map fun e => if e.1 = name then (name, g) else e }

/-- `module_rngs.getModuleRNG(name).random(n)`. -/
def drawFrom (N : Gen G) (md5 : String → ℕ) (s : Rngs G) (name : String) (n : ℕ) : List ℚ × Rngs G :=
  let (g, s₁) := getModuleRNG N md5 s name
  let (us, g') := N.random n g
  (us, setRNG s₁ name g')

/-- What the rest of the program may do with the collection. -/
inductive Op
  | request (name : String)
  | draw (name : String) (n : ℕ)
deriving DecidableEq, Repr

/-- One call; a bare request returns no numbers. -/
def step (N : Gen G) (md5 : String → ℕ) (s : Rngs G) : Op → List ℚ × Rngs G
  | .request name => ([], (getModuleRNG N md5 s name).2)
  | .draw name n => drawFrom N md5 s name n

/-- State after a sequence of calls. -/
def run (N : Gen G) (md5 : String → ℕ) (s : Rngs G) : List Op → Rngs G
  | [] => s
  | op :: ops => run N md5 (step N md5 s op).2 ops

/-! ## Random filters -/

/-- Name under which `PPDropObservations` asks for its generator (`__name__`). -/
def dropName : String := "sorcha.modules.PPDropObservations"

/-- Name under which `PPDetectionEfficiency` asks for its generator. -/
def efficiencyName : String := "sorcha.modules.PPDetectionEfficiency"

/-- Name under which `PPSimpleSensorArea` asks for its generator. -/
def fovName : String := "sorcha.modules.PPApplyFOVFilter"

variable {ρ : Type}

/-- Keep the rows whose draw passes the test. -/
def keepBy (test : ρ → ℚ → Bool) (t : Table ρ) (us : List ℚ) : Table ρ :=
  ((t.zip us).filter fun x => test x.1.2 x.2).map (·.1)

/-- `PPDropObservations`, modules/PPDropObservations.py:27-34; `prob` reads the probability column. -/
def dropObservations (N : Gen G) (md5 : String → ℕ) (prob : ρ → Fl) (s : Rngs G) (t : Table ρ) : Table ρ × Rngs G :=
  let (us, s') := drawFrom N md5 s dropName t.length
  (keepBy (fun r u => (Fl.fin u).le (prob r)) t us, s')

/-- `PPFadingFunctionFilter`, modules/PPFadingFunctionFilter.py:39-52 and `DESFadingFunctionFilter`,
modules/DESFadingFunctionFilter.py:43-51: the detection probability of each row is a function of the row alone
(`PPDetectionProbability`, `DESDetectionProbability`); the temporary probability column is not modelled. -/
def fadingFilter (N : Gen G) (md5 : String → ℕ) (prob : ρ → Fl) (s : Rngs G) (t : Table ρ) : Table ρ × Rngs G :=
  let (o, s') := dropObservations N md5 prob s t
  (o.resetIndex, s')

/-- `PPDetectionEfficiency`, modules/PPDetectionEfficiency.py:31-46; `none` is `sys.exit`. -/
def detectionEfficiency (N : Gen G) (md5 : String → ℕ) (threshold : Fl) (s : Rngs G) (t : Table ρ) :
    Option (Table ρ × Rngs G) :=
  let s₀ := (getModuleRNG N md5 s efficiencyName).2
  let t := t.resetIndex
  if (Fl.fin 1).lt threshold || threshold.lt (.fin 0) then none
  else
    let (us, s') := drawFrom N md5 s₀ efficiencyName t.length
    some (keepBy (fun _ u => (Fl.fin u).le threshold) t us, s')

/-- `PPSimpleSensorArea`, modules/PPApplyFOVFilter.py:178-190: `np.where(randomNum > fillArray)[0]` gives *positions*,
which are then dropped as *labels*. -/
def simpleSensorArea (N : Gen G) (md5 : String → ℕ) (fillfactor : Fl) (s : Rngs G) (t : Table ρ) : Table ρ × Rngs G :=
  let (us, s') := drawFrom N md5 s fovName t.length
  let dropObs := (us.zipIdx.filter fun x => fillfactor.lt (.fin x.1)).map (·.2)
  ((t.dropLabels dropObs).resetIndex, s')

/-- `PPCircleFootprint`, modules/PPApplyFOVFilter.py:136-152; `sep` is the separation in degrees between object and
field centre (astropy). -/
def circleFootprint (sep : ρ → Fl) (radius : Fl) (t : Table ρ) : Table ρ :=
  (t.mask fun r => (sep r).lt radius).resetIndex

/-- Python truthiness of an optional float: `None` and `0.0` are false. -/
def truthy : Option Fl → Bool
  | none => false
  | some x => !(x.eq (.fin 0))

/-- The `circle` camera model of `PPApplyFOVFilter`, modules/PPApplyFOVFilter.py:72-79. -/
def applyCircle (N : Gen G) (md5 : String → ℕ) (sep : ρ → Fl) (radius fillfactor : Option Fl) (s : Rngs G) (t : Table ρ) :
    Table ρ × Rngs G :=
  let t₁ := if truthy radius then circleFootprint sep (radius.getD .nan) t else t
  if truthy fillfactor then simpleSensorArea N md5 (fillfactor.getD .nan) s t₁ else (t₁, s)

end Sorcha.Rng
