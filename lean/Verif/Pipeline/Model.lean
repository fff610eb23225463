import Verif.Config.Model
import Verif.Filters.Model
import Verif.Rng.Model
import Verif.Pointing.Model
import Verif.Linking.Model
import Verif.Readers.Model

/-!
# Model of a Rubin run: the loop of `runLSSTSimulation`

sorcha.py:184-409. The stages are the models of the other directories; this file models how they are put together. What is computed from one
observation and its visit alone (light curve, phase curve, colours, trailing losses, vignetting, uncertainties) is the parameter `measure`, the
noise added to it the parameter `noise`.
-/

namespace Sorcha.Pipeline

/-- What is computed for one observation (floats) before any noise; `none` results of `measure` stand for an exception. `dmag` is the trailing loss. -/
structure Meas where
  trailed : Fl
  dmag : Fl
  snr : Fl
  x : Fl
  y : Fl
  z : Fl
  raRate : Fl
  decRate : Fl
  ra : ℚ
  dec : ℚ
deriving DecidableEq, Repr

/-- The columns no cut looks at: the observation and its visit, the position and the detector (`none`: no such column). -/
structure Extra (W V : Type) where
  src : Pointing.Obs W × Pointing.Visit V
  ra : ℚ
  dec : ℚ
  detector : Option ℕ
deriving DecidableEq, Repr

/-- A row of the table `observations`. -/
abbrev Row (W V : Type) := Filters.Det (Extra W V)

/-- An output row: with the linking filter on, also `object_linked` and `date_linked_MJD`. -/
structure Final (W V : Type) where
  row : Row W V
  link : Option (Bool × Option ℤ)
deriving DecidableEq, Repr

/-- The ways a round stops. -/
inductive Err
  | pointing (e : Pointing.Err)
  | measure
  | bright (e : Filters.BrightErr)
  | linking (e : Linking.Err)
  | settings           -- a linking setting is not a finite number: not modelled
  | camera             -- camera model of another survey: not modelled
  | reader             -- the readers stopped
deriving DecidableEq, Repr

/-- Everything the loop uses besides the configuration. -/
structure Env (G W V : Type) where
  /-- the pointing table -/
  db : List (Pointing.Visit V)
  /-- magnitudes, uncertainties and position of an observation -/
  measure : Pointing.Obs W × Pointing.Visit V → Option Meas
  /-- the randomised values (trailed source magnitude, PSF magnitude, RA, Dec): position in the module's stream, number of rows, row number, row -/
  noise : ℕ → ℕ → ℕ → Row W V → Fl × Fl × ℚ × ℚ
  /-- numpy's generator -/
  gen : Rng.Gen G
  md5 : String → ℕ
  /-- separation from the field centre -/
  sep : Row W V → Fl
  /-- is the row on the detector -/
  detectors : List (Row W V → Bool)
  /-- `sort_index` -/
  sortIndex : Table (Row W V) → Table (Row W V)
  /-- detection probability for the given width and peak efficiency -/
  prob : Fl → Fl → Row W V → Fl
  /-- separation on the sky -/
  linkSep : ℚ → ℚ → ℚ → ℚ → ℚ
  /-- `argsort` by time, `sort_values` by time -/
  sortT : List Linking.Obs → List Linking.Obs
  sortOut : List (Linking.OutRow (Row W V)) → List (Linking.OutRow (Row W V))
  /-- the weights of round `k` -/
  weights : ℕ → String → ℕ → ℚ
  /-- uniform numbers from the seed made of the RA values -/
  draws : List ℚ → ℕ → ℚ

variable {G W V : Type}

/-- What a round leaves for the next one: the generators, the position in the stream of `PPRandomizeMeasurements`, the round number. -/
structure State (G : Type) where
  rngs : Rng.Rngs G
  pos : ℕ
  round : ℕ

/-- The columns before any noise, sorcha.py:241-263 and 300-306; without trailing losses `PSFMagTrue` is `trailedSourceMagTrue`. -/
def mkRow (c : Config.Cfg) (p : Pointing.Obs W × Pointing.Visit V) (m : Meas) : Row W V where
  objId := p.1.obj
  optFilter := p.2.filter
  psfMag := if c.expert.trailing.on then m.dmag.add m.trailed else m.trailed
  trailedSourceMag := m.trailed
  snr := m.snr
  x := m.x
  y := m.y
  z := m.z
  raRate := m.raRate
  decRate := m.decRate
  rest := ⟨p, m.ra, m.dec, none⟩

/-- A table with labels 0, 1, ... -/
def ofRows {ρ : Type} (l : List ρ) : Table ρ := l.mapIdx fun i r => (i, r)

/-- Matching with the pointing table and the calculations, sorcha.py:239-281. -/
def measured (E : Env G W V) (c : Config.Cfg) (obs : List (Pointing.Obs W)) : Except Err (Table (Row W V)) := do
  let ps ← (Pointing.matchPointing obs E.db).mapError .pointing
  match ps.mapM fun p => (E.measure p).map (mkRow c p) with
  | none => .error .measure
  | some rs => .ok (ofRows rs)

/-- The new values of one row, PPRandomizeMeasurements.py:84-103. -/
def addNoise (c : Config.Cfg) (v : Fl × Fl × ℚ × ℚ) (r : Row W V) : Row W V :=
  { r with
    trailedSourceMag := v.1
    psfMag := if c.expert.trailing.on then v.2.1 else v.1
    rest := { r.rest with ra := v.2.2.1, dec := v.2.2.2 } }

/-- `randomizeAstrometryAndPhotometry`, PPRandomizeMeasurements.py:76-108, called at sorcha.py:283-306: the SNR cut at 2 and the noise; one or two numbers are drawn for the
magnitudes of a row and three for its position. -/
def randomize (E : Env G W V) (c : Config.Cfg) (s : State G) (t : Table (Row W V)) : Table (Row W V) × State G :=
  if c.expert.randomization.on then
    let t := if c.expert.defaultSnrCut then Filters.snrLimit (.fin 2) t else t
    let n := t.length
    (t.mapIdx fun i r => (r.1, addNoise c (E.noise s.pos n i r.2) r.2),
      { s with pos := s.pos + (if c.expert.trailing.on then 5 else 4) * n })
  else (t, s)

/-- `observations.iloc[onSensor]` with the column `detectorID`, PPApplyFOVFilter.py:46-55: for each detector in turn the rows on it. -/
def onDetectors (dets : List (Row W V → Bool)) (t : Table (Row W V)) : Table (Row W V) :=
  dets.zipIdx.flatMap fun d => (t.filter fun r => d.1 r.2).map fun r => (r.1, { r.2 with rest := { r.2.rest with detector := some d.2 } })

/-- `PPApplyFOVFilter`, PPApplyFOVFilter.py:43-79, called at sorcha.py:308-319. -/
def fieldOfView (E : Env G W V) (c : Config.Cfg) (s : State G) (t : Table (Row W V)) : Except Err (Table (Row W V) × State G) :=
  match c.fov with
  | .none => .ok (t, s)
  | .visits _ => .error .camera
  | .footprint _ _ => .ok (if t.length > 0 then (E.sortIndex (onDetectors E.detectors t), s) else (t, s))
  | .circle fill radius =>
    if t.length > 0 then
      let (t, g) := Rng.applyCircle E.gen E.md5 E.sep radius fill s.rngs t
      .ok (t, { s with rngs := g })
    else .ok (t, s)

/-- The SNR cut, sorcha.py:321-329. -/
def snrCut (c : Config.Cfg) (t : Table (Row W V)) : Table (Row W V) :=
  match c.expert.snrLimit with
  | none => t
  | some l => if t.length > 0 then Filters.snrLimit l t else t

/-- The magnitude cut, sorcha.py:331-335. -/
def magCut (c : Config.Cfg) (t : Table (Row W V)) : Table (Row W V) :=
  match c.expert.magLimit with
  | none => t
  | some l => if t.length > 0 then Filters.magnitudeLimit l t else t

/-- The fading function, sorcha.py:337-347. The DES variant is not reached in a Rubin run. -/
def fade (E : Env G W V) (c : Config.Cfg) (s : State G) (t : Table (Row W V)) : Except Err (Table (Row W V) × State G) :=
  match c.fading with
  | .off => .ok (t, s)
  | .des _ => .error .camera
  | .on width peak =>
    if t.length > 0 then
      let (t, g) := Rng.fadingFilter E.gen E.md5 (E.prob width peak) s.rngs t
      .ok (t, { s with rngs := g })
    else .ok (t, s)

/-- The saturation cut, sorcha.py:349-355; a limit that is not given is `None`. -/
def brightCut (c : Config.Cfg) (t : Table (Row W V)) : Except Err (Table (Row W V)) :=
  if c.saturation.on.on && decide (t.length > 0) then
    (Filters.brightLimit c.filters (match c.saturation.limits with | none => .other | some ls => .perFilter ls) t).mapError .bright
  else .ok t

/-- A finite float. -/
def toQ : Fl → Option ℚ
  | .fin q => some q
  | _ => none

/-- The settings of the linking filter as `linkObservations` gets them, PPLinkingFilter.py:84-95. -/
def linkCfg (sep : ℚ → ℚ → ℚ → ℚ → ℚ) (s : Config.Ssp) : Option Linking.Cfg :=
  match toQ s.maxTime, toQ s.sep, toQ s.efficiency, toQ s.nightStart with
  | some m, some d, some p, some u => some ⟨m, d / 3600, s.nObs.toNat, s.window.toNat, s.nTracklets.toNat, p, u / 24, sep⟩
  | _, _, _, _ => none

/-- The columns handed to the linker, PPLinkingFilter.py:67-75. -/
def linkRow (r : Row W V) : Linking.Row (Row W V) := ⟨r.objId, ⟨r.rest.src.1.field, r.rest.src.1.mjd, r.rest.ra, r.rest.dec⟩, r⟩

/-- The linking filter, sorcha.py:357-371. -/
def link (E : Env G W V) (c : Config.Cfg) (s : State G) (t : Table (Row W V)) : Except Err (List (Final W V)) :=
  match c.linking.ssp with
  | none => .ok (t.rows.map fun r => ⟨r, none⟩)
  | some ssp =>
    if t.length > 0 then
      match linkCfg E.linkSep ssp with
      | none => .error .settings
      | some lc => ((Linking.linkingFilter E.sortT E.sortOut lc (E.weights s.round) E.draws c.linking.dropUnlinked (t.rows.map linkRow)).map
          fun out => out.map fun o => ⟨o.row.rest, some (o.linked, o.date)⟩).mapError .linking
    else .ok []

/-- One round after its observations have been read or generated, sorcha.py:227-394. -/
def process (E : Env G W V) (c : Config.Cfg) (s : State G) (obs : List (Pointing.Obs W)) : Except Err (List (Final W V) × State G) :=
  if obs.length = 0 then .ok ([], { s with round := s.round + 1 })
  else do
    let t ← measured E c obs
    let (t, s) := randomize E c s t
    let (t, s) ← fieldOfView E c s t
    let t := magCut c (snrCut c t)
    let (t, s) ← fade E c s t
    let t ← brightCut c t
    let out ← link E c s t
    return (out, { s with round := s.round + 1 })

/-- The rounds one after the other, sorcha.py:184-394: what each of them hands over for output. A round without rows writes nothing. -/
def rounds (E : Env G W V) (c : Config.Cfg) (s : State G) : List (List (Pointing.Obs W)) → Except Err (List (List (Final W V)))
  | [] => .ok []
  | obs :: rest => do
    let (out, s) ← process E c s obs
    let outs ← rounds E c s rest
    return if out.length > 0 then out :: outs else outs

/-- A row of the combined input tables as an observation: its columns are parsed by `parse`. -/
def toObs {C : Type} (parse : List C → ℕ × ℚ × W) (r : Readers.Rec C) : Pointing.Obs W :=
  ⟨r.id, (parse r.cells).1, (parse r.cells).2.1, (parse r.cells).2.2⟩

/-- A run with an external ephemeris file: the blocks of the readers (`Readers.runExternal`) through the rounds. -/
def runExternal {C : Type} (E : Env G W V) (c : Config.Cfg) (s : State G) (parse : List C → ℕ × ℚ × W) (P : Readers.IdParse) (missing : List C)
    (fe fo : List (Readers.Line C)) (fs : List (List (Readers.Line C))) (fuel : ℕ) : Option (Except Err (List (List (Final W V)))) :=
  match Readers.runExternal P missing fe fo fs c.input.chunk fuel with
  | none => none
  | some (.error _) => some (.error .reader)
  | some (.ok blocks) => some (rounds E c s (blocks.map fun b => b.map (toObs parse)))

/-- A run with generated ephemerides, sorcha.py:194-225: `cull` is the faint object filter (`none`: switched off by `brute_force`), `ephem` makes the
observations of the objects of the block. A block with no object left is skipped. -/
def runGenerated {C : Type} (E : Env G W V) (c : Config.Cfg) (s : State G) (cull : Readers.Rec C → Bool)
    (ephem : List (Readers.Rec C) → List (Pointing.Obs W)) (P : Readers.IdParse) (missing : List C) (fo : List (Readers.Line C))
    (fs : List (List (Readers.Line C))) (fuel : ℕ) : Option (Except Err (List (List (Final W V)))) :=
  match Readers.runAux P missing fo fs c.input.chunk fuel with
  | none => none
  | some (.error _) => some (.error .reader)
  | some (.ok blocks) => some (rounds E c s (blocks.map fun b =>
      if c.expert.bruteForce then ephem b
      else if (b.filter fun r => !cull r).length = 0 then [] else ephem (b.filter fun r => !cull r)))

/-- The value of a run with `return_only`, sorcha.py:404-409: `pd.concat` of no table raises. -/
def returned (outs : List (List (Final W V))) : Option (List (Final W V)) := if outs.length = 0 then none else some outs.flatten

end Sorcha.Pipeline
