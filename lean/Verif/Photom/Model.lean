import Mathlib.Analysis.SpecialFunctions.Log.Base
import Mathlib.Analysis.SpecialFunctions.Pow.Real
import Mathlib.Analysis.SpecialFunctions.Trigonometric.Inverse
import Mathlib.Analysis.SpecialFunctions.Complex.Arg

/-!
# Model of the photometric and astrometric formulas

All quantities are exact real numbers: rounding of floating-point numbers, overflow, NaN and infinities are not modelled.
`np.log10` is the real logarithm to base 10, `np.arctan2(y, x)` is the argument of `x + iy` (the sign of a floating-point
zero is not modelled).
-/

namespace Sorcha.Photom
open Real

/-- `np.log10`. -/
noncomputable def log10 (x : ℝ) : ℝ := Real.logb 10 x

/-! ## Trailing loss -/

/-- `calcTrailingLoss`, PPTrailingLoss.py:25-98, with its default fit parameters; `none` is the exit for an unknown model. -/
noncomputable def calcTrailingLoss (dRaCosDec dDec seeing texp : ℝ) (model : String) : Option ℝ :=
  let vel := √(dRaCosDec ^ 2 + dDec ^ 2)
  let vel := vel / 24
  let x := vel * texp / seeing
  if model = "trailedSource" then some (1.25 * log10 (1 + 0.761 * x ^ 2 / (1 + 1.162 * x)))
  else if model = "circularPSF" then some (1.25 * log10 (1 + 0.420 * x ^ 2 / (1 + 0.003 * x)))
  else none

/-! ## Fading function -/

/-- `calcDetectionProbability`, PPDetectionProbability.py:23-51. -/
noncomputable def calcDetectionProbability (mag limmag fillFactor w : ℝ) : ℝ :=
  fillFactor / (1 + exp ((mag - limmag) / w))

/-- `DEScalcDetectionProbability`, DESDetectionProbability.py:23-53. -/
noncomputable def desDetectionProbability (mag limmag c k c_sharp : ℝ) : ℝ :=
  c_sharp * (c / (1 + exp (k * (mag - limmag))))

/-! ## Uncertainties -/

/-- The signal-to-noise ratio computed in `calcAstrometricUncertainty`, PPAddUncertainties.py:204-207. -/
noncomputable def calcSNR (mag m5 : ℝ) : ℝ :=
  let rgamma := 0.039
  let xval := (10 : ℝ) ^ (0.4 * (mag - m5))
  1 / √((0.04 - rgamma) * xval + rgamma * xval * xval)

/-- `calcRandomAstrometricErrorPerCoord`, PPAddUncertainties.py:223-278. -/
noncomputable def calcRandomAstrometricErrorPerCoord (FWHMeff SNR coeff : ℝ) : ℝ := coeff * FWHMeff / SNR

/-- `calcAstrometricUncertainty`, PPAddUncertainties.py:140-220, in milliarcseconds with the default coefficient: error, SNR and
random part. -/
noncomputable def calcAstrometricUncertainty (mag m5 FWHMeff error_sys : ℝ) (nvisit : ℕ) : ℝ × ℝ × ℝ :=
  let SNR := calcSNR mag m5
  let error_rand := calcRandomAstrometricErrorPerCoord FWHMeff SNR 0.60
  let error_rand := if nvisit > 1 then error_rand / √nvisit else error_rand
  (√(error_sys * error_sys + error_rand * error_rand), SNR, error_rand)

/-- `calcPhotometricUncertainty`, PPAddUncertainties.py:281-299. -/
noncomputable def calcPhotometricUncertainty (snr : ℝ) : ℝ := 2.5 * log10 (1 + 1 / snr)

/-- The columns of an observation that `addUncertainties` and the steps before it read. -/
structure PhotIn where
  RARateCosDec : ℝ
  DecRate : ℝ
  seeingGeom : ℝ
  seeingEff : ℝ
  visitExposureTime : ℝ
  trailedSourceMagTrue : ℝ
  fieldDepth : ℝ
  RA : ℝ
  Dec : ℝ
  fieldRA : ℝ
  fieldDec : ℝ

/-- The columns they add. -/
structure PhotOut where
  PSFMagTrue : ℝ
  depth : ℝ
  astrometricSigma_deg : ℝ
  SNRTrailedSourceMag : ℝ
  trailedSourceMagSigma : ℝ
  SNRPSFMag : ℝ
  PSFMagSigma : ℝ

/-- `addUncertainties`, PPAddUncertainties.py:62-137: `PSFMagTrue` and `depth` are the columns `PSFMagTrue` and
`fiveSigmaDepth_mag`. The `getD` is never used: the model name is fixed. Milliarcseconds are divided by 3600000. -/
noncomputable def addUncertainties (trailing : Bool) (o : PhotIn) (PSFMagTrue depth : ℝ) : PhotOut :=
  let dMag := if trailing then
      (calcTrailingLoss o.RARateCosDec o.DecRate o.seeingGeom o.visitExposureTime "trailedSource").getD 0 else 0
  let a := calcAstrometricUncertainty (o.trailedSourceMagTrue + dMag) depth (o.seeingGeom * 1000) 10 1
  let p := calcAstrometricUncertainty PSFMagTrue depth (o.seeingGeom * 1000) 10 1
  { PSFMagTrue, depth,
    astrometricSigma_deg := a.1 / 3600000
    SNRTrailedSourceMag := a.2.1
    trailedSourceMagSigma := calcPhotometricUncertainty a.2.1
    SNRPSFMag := p.2.1
    PSFMagSigma := calcPhotometricUncertainty p.2.1 }

/-! ## Sky positions -/

/-- A vector in space. -/
structure Vec where
  x : ℝ
  y : ℝ
  z : ℝ

/-- `np.deg2rad`, `np.radians`. -/
noncomputable def deg2rad (a : ℝ) : ℝ := a * (π / 180)

/-- `np.rad2deg`, `np.degrees`. -/
noncomputable def rad2deg (a : ℝ) : ℝ := a * (180 / π)

/-- `np.arctan2(y, x)`. -/
noncomputable def arctan2 (y x : ℝ) : ℝ := Complex.arg ⟨x, y⟩

/-- `np.mod(a, m)` for positive `m`. -/
noncomputable def mod (a m : ℝ) : ℝ := a - m * ⌊a / m⌋

/-- `radec2icrf`, PPRandomizeMeasurements.py:406-445, with `deg=True`. -/
noncomputable def radec2icrf (ra dec : ℝ) : Vec :=
  let a := deg2rad ra
  let d := deg2rad dec
  let cosd := cos d
  ⟨cosd * cos a, cosd * sin a, sin d⟩

/-- `icrf2radec`, PPRandomizeMeasurements.py:352-403, with `deg=True`. -/
noncomputable def icrf2radec (v : Vec) : ℝ × ℝ :=
  let r := √(v.x ^ 2 + v.y ^ 2 + v.z ^ 2)
  let xu := v.x / r
  let yu := v.y / r
  let zu := v.z / r
  let phi := arctan2 yu xu
  let delta := arcsin zu
  (mod (rad2deg phi + 360) 360, rad2deg delta)

/-- One row of `sampleNormalFOV`, PPRandomizeMeasurements.py:202-253: the centre displaced by `sigma` times three normal
draws, projected on the sphere. -/
noncomputable def sampleNormalFOV (center : Vec) (sigma : ℝ) (n : Vec) : Vec :=
  let m : Vec := ⟨n.x * sigma + center.x, n.y * sigma + center.y, n.z * sigma + center.z⟩
  let r := √(m.x ^ 2 + m.y ^ 2 + m.z ^ 2)
  ⟨m.x / r, m.y / r, m.z / r⟩

/-- One row of `randomizeAstrometry`, PPRandomizeMeasurements.py:97-199, with degrees throughout (the only way the pipeline
calls it): new right ascension and declination. -/
noncomputable def randomizeAstrometry (ra dec sigma : ℝ) (n : Vec) : ℝ × ℝ :=
  icrf2radec (sampleNormalFOV (radec2icrf ra dec) (deg2rad sigma) n)

/-- One row of `randomizePhotometry`, PPRandomizeMeasurements.py:256-302. -/
noncomputable def randomizePhotometry (mag sigma s : ℝ) : ℝ := mag + s * sigma

/-- `flux2mag`, PPRandomizeMeasurements.py:305-326. -/
noncomputable def flux2mag (f f0 : ℝ) : ℝ := -2.5 * log10 (f / f0)

/-- `mag2flux`, PPRandomizeMeasurements.py:329-349. -/
noncomputable def mag2flux (mag f0 : ℝ) : ℝ := f0 * (10 : ℝ) ^ (-0.4 * mag)

/-- `haversine`, PPVignetting.py:90-119, in radians. -/
noncomputable def haversine (ra1 dec1 ra2 dec2 : ℝ) : ℝ :=
  2 * arcsin (√(sin ((dec2 - dec1) / 2) ^ 2 + cos dec1 * cos dec2 * sin ((ra2 - ra1) / 2) ^ 2))

/-- `haversine_np`, PPMiniDifi.py:6-46, in degrees. -/
noncomputable def haversine_np (lon1 lat1 lon2 lat2 : ℝ) : ℝ :=
  let lon1 := deg2rad lon1
  let lat1 := deg2rad lat1
  let lon2 := deg2rad lon2
  let lat2 := deg2rad lat2
  let dlon := lon2 - lon1
  let dlat := lat2 - lat1
  let a := sin (dlat / 2) ^ 2 + cos lat1 * cos lat2 * sin (dlon / 2) ^ 2
  rad2deg (2 * arcsin (√a))

/-! ## Vignetting -/

/-- The table in `vignetFunc`, PPVignetting.py:145-354: radius in hundredths of a degree, fraction in millionths. -/
def vignetTable : List (ℕ × ℕ) := [
  (0, 623885), (2, 623885), (4, 623885), (6, 623885), (8, 623885), (10, 623885), (12, 623885), (14, 623885),
  (16, 623885), (18, 623885), (20, 623885), (22, 623885), (24, 623885), (26, 623885), (28, 623885), (30, 623885),
  (32, 623885), (34, 623885), (36, 623885), (38, 623885), (40, 623885), (42, 623885), (44, 623885), (46, 623885),
  (48, 623885), (50, 623885), (52, 623885), (54, 623885), (56, 623885), (58, 623885), (60, 623885), (62, 623885),
  (64, 623885), (66, 623822), (68, 623759), (70, 623632), (72, 623442), (74, 623316), (76, 623000), (78, 622494),
  (80, 622367), (82, 621861), (84, 621671), (86, 621292), (88, 621039), (90, 620659), (92, 620216), (94, 619963),
  (96, 619394), (98, 619204), (100, 618635), (102, 618319), (104, 618066), (106, 617496), (108, 617117),
  (110, 616737), (112, 616168), (114, 615535), (116, 614840), (118, 614207), (120, 613385), (122, 612436),
  (124, 611614), (126, 610602), (128, 609716), (130, 608957), (132, 608071), (134, 606996), (136, 605668),
  (138, 604972), (140, 603770), (142, 602758), (144, 601177), (146, 599595), (148, 598140), (150, 595673),
  (152, 594282), (154, 592447), (156, 590613), (158, 588526), (160, 586312), (162, 584287), (164, 582137),
  (166, 580113), (168, 578025), (170, 576064), (172, 573344), (174, 570561), (176, 563730), (178, 545322),
  (180, 521412), (182, 492757), (184, 460624), (186, 429565), (188, 404959), (190, 383073), (192, 356190),
  (194, 317161), (196, 279777), (198, 241824), (200, 201974)]

/-- The arrays `vignetFunc.r` and `vignetFunc.frac` (normalised by the first fraction, PPVignetting.py:355) as points. -/
noncomputable def vignetPoints : List (ℝ × ℝ) :=
  vignetTable.map fun p : ℕ × ℕ => ((p.1 : ℝ) / 100, (p.2 : ℝ) / 1000000 / (623885 / 1000000))

/-- `np.interp(x, xp, fp)`: linear between the points, constant outside. -/
noncomputable def interp : List (ℝ × ℝ) → ℝ → ℝ
  | [], _ => 0
  | [p], _ => p.2
  | p :: q :: l, x =>
    if x ≤ p.1 then p.2
    else if x < q.1 then p.2 + (q.2 - p.2) / (q.1 - p.1) * (x - p.1)
    else interp (q :: l) x

/-- `vignetFunc`, PPVignetting.py:122-359. -/
noncomputable def vignetFunc (x : ℝ) : ℝ := -2.5 * log10 (interp vignetPoints x)

/-- `calcVignettingLosses`, PPVignetting.py:54-87. -/
noncomputable def calcVignettingLosses (ra dec fieldra fielddec : ℝ) : ℝ :=
  vignetFunc (rad2deg (haversine (deg2rad ra) (deg2rad dec) (deg2rad fieldra) (deg2rad fielddec)))

/-- `vignettingEffects`, PPVignetting.py:9-51. -/
noncomputable def vignettingEffects (o : PhotIn) : ℝ :=
  o.fieldDepth - calcVignettingLosses o.RA o.Dec o.fieldRA o.fieldDec

/-- Steps of the main loop between apparent magnitude and randomization, sorcha.py:254-281. -/
noncomputable def photometry (trailing vignetting : Bool) (o : PhotIn) : PhotOut :=
  let psf := if trailing then
      (calcTrailingLoss o.RARateCosDec o.DecRate o.seeingEff o.visitExposureTime "circularPSF").getD 0 + o.trailedSourceMagTrue
    else o.trailedSourceMagTrue
  let depth := if vignetting then vignettingEffects o else o.fieldDepth
  addUncertainties trailing o psf depth

end Sorcha.Photom
