import Verif.Photom.Model

/-!
# Model of the randomisation step over a table

The module's generator is a stream `z` of standard normal numbers and a position in it. `mvn` is how
`Generator.multivariate_normal` with unit covariance turns three of them into a vector.
-/

namespace Sorcha.Photom

/-- The columns of an observation that the randomisation reads and writes. -/
structure Meas where
  key : ℕ
  SNRPSFMag : ℝ
  trailedSourceMagTrue : ℝ
  trailedSourceMagSigma : ℝ
  PSFMagTrue : ℝ
  PSFMagSigma : ℝ
  astrometricSigma_deg : ℝ
  RA : ℝ
  Dec : ℝ

/-- The columns after the step. -/
structure Measured extends Meas where
  trailedSourceMag : ℝ
  PSFMag : ℝ
  RATrue : ℝ
  DecTrue : ℝ

/-- `PPSNRLimit(observations, 2.0)`, PPSNRLimit.py:29-32. -/
noncomputable def snrLimit (limit : ℝ) (t : List Meas) : List Meas := t.filter fun r => decide (limit < r.SNRPSFMag)

/-- `randomizePhotometry` over a table, PPRandomizeMeasurements.py:256-302: one draw per row, in order. -/
noncomputable def photometryDraws (z : ℕ → ℝ) (mag sig : Meas → ℝ) : ℕ → List Meas → List ℝ
  | _, [] => []
  | k, r :: t => randomizePhotometry (mag r) (sig r) (z k) :: photometryDraws z mag sig (k + 1) t

/-- `randomizeAstrometry` over a table, PPRandomizeMeasurements.py:97-199: three draws per row, in order. -/
noncomputable def astrometryDraws (mvn : ℝ → ℝ → ℝ → Vec) (z : ℕ → ℝ) : ℕ → List Meas → List (ℝ × ℝ)
  | _, [] => []
  | k, r :: t => randomizeAstrometry r.RA r.Dec r.astrometricSigma_deg (mvn (z k) (z (k + 1)) (z (k + 2))) ::
      astrometryDraws mvn z (k + 3) t

/-- Assigning the new columns; the old position is renamed, PPRandomizeMeasurements.py:194-197. -/
def assign : List Meas → List ℝ → List ℝ → List (ℝ × ℝ) → List Measured
  | r :: t, a :: as, p :: ps, q :: qs =>
    { r with RA := q.1, Dec := q.2, trailedSourceMag := a, PSFMag := p, RATrue := r.RA, DecTrue := r.Dec } :: assign t as ps qs
  | _, _, _, _ => []

/-- `randomizeAstrometryAndPhotometry`, PPRandomizeMeasurements.py:34-94: the table and the position in the stream. -/
noncomputable def randomizeAll (mvn : ℝ → ℝ → ℝ → Vec) (z : ℕ → ℝ) (defaultSnrCut trailing : Bool) (k : ℕ) (t : List Meas) :
    List Measured × ℕ :=
  let t := if defaultSnrCut then snrLimit 2 t else t
  let n := t.length
  let a := photometryDraws z (·.trailedSourceMagTrue) (·.trailedSourceMagSigma) k t
  let k := k + n
  let p := if trailing then photometryDraws z (·.PSFMagTrue) (·.PSFMagSigma) k t else a
  let k := if trailing then k + n else k
  (assign t a p (astrometryDraws mvn z k t), k + 3 * n)

/-- The randomisation part of the main loop, sorcha.py:283-306. -/
noncomputable def randomisation (mvn : ℝ → ℝ → ℝ → Vec) (z : ℕ → ℝ) (on defaultSnrCut trailing : Bool) (k : ℕ)
    (t : List Meas) : List Measured × ℕ :=
  if on then randomizeAll mvn z defaultSnrCut trailing k t
  else (t.map fun r =>
    { r with trailedSourceMag := r.trailedSourceMagTrue, PSFMag := r.PSFMagTrue, RATrue := r.RA, DecTrue := r.Dec }, k)

end Sorcha.Photom
