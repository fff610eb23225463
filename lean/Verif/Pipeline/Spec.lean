import Verif.Pipeline.Model
import Verif.Base.Keep
import Verif.Filters.Spec
import Verif.Pointing.Spec
import Verif.Linking.Spec

/-!
# Specification: what a Rubin run outputs

Nothing here refers to the stages of `Model.lean`, only to its records.
-/

namespace Sorcha.Pipeline.Spec
open Sorcha.Filters.Spec (Below Saturated num)

variable {G W V : Type}

/-- The row of an observation `p.1` during visit `p.2`, with the values computed for it and no noise. -/
def rowOf (c : Config.Cfg) (p : Pointing.Obs W × Pointing.Visit V) (m : Meas) : Row W V :=
  ⟨p.1.obj, p.2.filter, if c.expert.trailing.on = true then m.dmag.add m.trailed else m.trailed, m.trailed, m.snr, m.x, m.y, m.z, m.raRate, m.decRate,
    ⟨p, m.ra, m.dec, none⟩⟩

/-- The row without its detector number. -/
def bare (r : Row W V) : Row W V := { r with rest := { r.rest with detector := none } }

/-- The row stems from one of the observations and a visit of that observation's field: object, filter and SNR are theirs. -/
def Stems (E : Env G W V) (obs : List (Pointing.Obs W)) (r : Row W V) : Prop :=
  ∃ o ∈ obs, ∃ v ∈ E.db, ∃ m, v.id = o.field ∧ Pointing.Spec.Agree v.start o.mjd ∧ E.measure (o, v) = some m ∧
    r.rest.src = (o, v) ∧ r.objId = o.obj ∧ r.optFilter = v.filter ∧ r.snr = m.snr

/-- The row is inside the configured field of view (a circle of radius zero is no restriction). -/
def InView (E : Env G W V) (c : Config.Cfg) (r : Row W V) : Prop :=
  match c.fov with
  | .none => True
  | .visits _ => False
  | .circle _ radius => ∀ ρ, radius = some ρ → num ρ ≠ some 0 → Below (E.sep r) ρ
  | .footprint _ _ => ∃ i d, r.rest.detector = some i ∧ E.detectors[i]? = some d ∧ d (bare r) = true

/-- The row obeys the limits of the configuration that do not depend on the field of view. -/
structure WithinLimits (c : Config.Cfg) (r : Row W V) : Prop where
  snr : ∀ l, c.expert.snrLimit = some l → Below l r.snr
  mag : ∀ l, c.expert.magLimit = some l → Below r.trailedSourceMag l
  bright : c.saturation.on.on = true → ∃ ls, c.saturation.limits = some ls ∧ ¬ Saturated c.filters ls r

/-- The settings in the units of the linker: time in days, separation in degrees, night start as a fraction of a day. -/
def Settings (E : Env G W V) (s : Config.Ssp) (lc : Linking.Cfg) : Prop :=
  s.maxTime = .fin lc.maxdt ∧ s.sep = .fin (lc.minlen * 3600) ∧ s.efficiency = .fin lc.p ∧ s.nightStart = .fin (lc.nightStart * 24) ∧
    lc.minObs = s.nObs.toNat ∧ lc.window = s.window.toNat ∧ lc.nlink = s.nTracklets.toNat ∧ lc.sep = E.linkSep

/-- What the linker sees of a row. -/
def seen (r : Row W V) : Linking.Obs := ⟨r.rest.src.1.field, r.rest.src.1.mjd, r.rest.ra, r.rest.dec⟩

/-- The linker's view of object `id`. -/
def seenOf (id : String) (rows : List (Row W V)) : List Linking.Obs := (rows.filter fun r => r.objId = id).map seen

/-! ## Runs without random features -/

/-- No randomisation, no fading function, no fill factor (or one of zero, which switches it off). -/
def Deterministic (c : Config.Cfg) : Prop :=
  c.expert.randomization.on = false ∧ c.fading = .off ∧ ∀ fill radius, c.fov = .circle fill radius → fill = none ∨ fill = some (.fin 0)

/-- The rows the field of view makes of one row: one for each detector it is on, for a circle or no camera the row itself. -/
def views (E : Env G W V) (c : Config.Cfg) (r : Row W V) : List (Row W V) :=
  match c.fov with
  | .footprint _ _ => (List.range E.detectors.length).map fun i => { r with rest := { r.rest with detector := some i } }
  | _ => [r]

/-- All rows of the observations: for each visit of the field and each detector. -/
def candidates (E : Env G W V) (c : Config.Cfg) (obs : List (Pointing.Obs W)) : List (Row W V) :=
  obs.flatMap fun o => (E.db.filter fun v => v.id = o.field).flatMap fun v =>
    match E.measure (o, v) with
    | none => []
    | some m => views E c (rowOf c (o, v) m)

/-- The rows whose values are randomised: those computed for the observations and the visits of their fields, in their order, without those the default cut removes. -/
noncomputable def loud (E : Env G W V) (c : Config.Cfg) (obs : List (Pointing.Obs W)) : List (Row W V) :=
  keep (fun r => c.expert.defaultSnrCut = true → Below (.fin 2) r.snr)
    (obs.flatMap fun o => (E.db.filter fun v => v.id = o.field).filterMap fun v => (E.measure (o, v)).map (rowOf c (o, v)))

/-- A row with randomised magnitudes and position: without trailing losses both magnitudes are the same number. -/
def noisy (c : Config.Cfg) (r : Row W V) (trailed psf : Fl) (ra dec : ℚ) : Row W V :=
  ⟨r.objId, r.optFilter, if c.expert.trailing.on = true then psf else trailed, trailed, r.snr, r.x, r.y, r.z, r.raRate, r.decRate, ⟨r.rest.src, ra, dec, none⟩⟩

/-- Those of them that are in view and within the limits. -/
noncomputable def survivors (E : Env G W V) (c : Config.Cfg) (obs : List (Pointing.Obs W)) : List (Row W V) :=
  keep (fun r => InView E c r ∧ WithinLimits c r) (candidates E c obs)

/-- An object is never observed twice at the same time. -/
def OncePerTime (obs : List (Pointing.Obs W)) : Prop := ∀ o ∈ obs, ∀ o' ∈ obs, o.obj = o'.obj → o.mjd = o'.mjd → o = o'

/-- No object has observations in two of the blocks. -/
def Whole (blocks : List (List (Pointing.Obs W))) : Prop := blocks.Pairwise fun b b' => ∀ o ∈ b, ∀ o' ∈ b', o.obj ≠ o'.obj

/-- The objects are some of those of the orbit file, each once. -/
def PartOf {C : Type} (orb objs : List (Readers.Rec C)) : Prop := (objs.map (·.id)).Nodup ∧ ∀ r ∈ objs, r.id ∈ orb.map (·.id)

/-- The sort of the output puts the rows in time order. -/
def SortsOut (E : Env G W V) : Prop := ∀ l, (E.sortOut l).Perm l ∧ (E.sortOut l).Pairwise fun a b => a.row.obs.mjd ≤ b.row.obs.mjd

/-- A run without random features: no randomisation, fading or fill factor; visit numbers are unique; the library's sorts sort; the linker's random weights are in general position (true with
probability one); window and number of tracklets are at least one. -/
structure Regular (E : Env G W V) (c : Config.Cfg) : Prop where
  det : Deterministic c
  visits : (E.db.map (·.id)).Nodup
  sortIndex : ∀ l, (E.sortIndex l).Perm l
  sortOut : SortsOut E
  sortT : Linking.Spec.Sorts E.sortT
  weights : ∀ k id m, Linking.Spec.Generic (E.weights k id) m
  window : ∀ ssp, c.linking.ssp = some ssp → 1 ≤ ssp.window ∧ 1 ≤ ssp.nTracklets

end Sorcha.Pipeline.Spec
