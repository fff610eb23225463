import Verif.Photom.Lemmas
import Verif.Photom.Spec

/-!
# Properties C23 to C28: photometry, uncertainties, vignetting, sky positions
-/

namespace Sorcha.Photom.Props
open Sorcha.Photom Sorcha.Photom.Spec Real Filter Topology

section helpers
theorem trail_eq (u v s t : ℝ) : √(u ^ 2 + v ^ 2) / 24 * t / s = trailLength u v s t := by
  unfold trailLength
  ring

theorem trail_nonneg {u v s t : ℝ} (hs : 0 < s) (ht : 0 ≤ t) : 0 ≤ trailLength u v s t := by
  unfold trailLength
  have := Real.sqrt_nonneg (u ^ 2 + v ^ 2)
  positivity

theorem loss_eq {m : String} {a b : ℝ} (h : Loss m a b) (u v s t : ℝ) :
    calcTrailingLoss u v s t m = some (1.25 * log10 (trailArg a b (trailLength u v s t))) := by
  cases h
  · simp only [calcTrailingLoss, if_true, trail_eq]; rfl
  · simp only [calcTrailingLoss, trail_eq]
    rw [if_neg (by decide)]
    rfl

theorem loss_pos {m : String} {a b : ℝ} (h : Loss m a b) : 0 < a ∧ 0 < b := by cases h <;> norm_num
end helpers

/-! ## C23: trailing loss -/

/-- C23 (formula): the loss `d` of either kind is defined by `10^(d / 1.25) = 1 + a x² / (1 + b x)`, where `x` is the trail
length in units of the seeing. -/
theorem C23_formula {m : String} {a b : ℝ} (h : Loss m a b) (u v s t : ℝ) (hs : 0 < s) (ht : 0 ≤ t) :
    ∃ d, calcTrailingLoss u v s t m = some d ∧
      (10 : ℝ) ^ (d / 1.25) = 1 + a * trailLength u v s t ^ 2 / (1 + b * trailLength u v s t) := by
  refine ⟨_, loss_eq h u v s t, ?_⟩
  rw [mul_div_cancel_left₀ _ (by norm_num)]
  have := trailArg_one_le (loss_pos h).1 (loss_pos h).2 (trail_nonneg (u := u) (v := v) hs ht)
  exact pow_log10 (by linarith)

/-- C23 (no motion): an object that does not move suffers no loss. -/
theorem C23_zero {m : String} {a b : ℝ} (h : Loss m a b) (s t : ℝ) : calcTrailingLoss 0 0 s t m = some 0 := by
  rw [loss_eq h]
  simp [trailLength, trailArg, log10_one]

/-- C23 (sign and order): for positive seeing and exposure time a loss always exists, is not negative, is zero only without
motion, and of two observations the one with the longer trail (relative to its seeing) loses strictly more. -/
theorem C23_order {m : String} {a b : ℝ} (h : Loss m a b) (u v s t u' v' s' t' : ℝ) (hs : 0 < s) (ht : 0 < t) (hs' : 0 < s')
    (ht' : 0 < t') :
    ∃ d d', calcTrailingLoss u v s t m = some d ∧ calcTrailingLoss u' v' s' t' m = some d' ∧ 0 ≤ d ∧
      (d = 0 ↔ u = 0 ∧ v = 0) ∧ (d < d' ↔ trailLength u v s t < trailLength u' v' s' t') := by
  obtain ⟨ha, hb⟩ := loss_pos h
  have hx := trail_nonneg (u := u) (v := v) hs ht.le
  have hx' := trail_nonneg (u := u') (v := v') hs' ht'.le
  have h1 := trailArg_one_le ha hb hx
  have h1' := trailArg_one_le ha hb hx'
  have hl : 0 ≤ log10 (trailArg a b (trailLength u v s t)) := by
    rw [← log10_one]; exact log10_le (by norm_num) h1
  refine ⟨_, _, loss_eq h u v s t, loss_eq h u' v' s' t', by linarith, ?_, ?_⟩
  · constructor
    · intro h0
      by_contra hn
      have hpos : 0 < u ^ 2 + v ^ 2 := by
        rcases not_and_or.1 hn with h2 | h2 <;> positivity
      have hxp : 0 < trailLength u v s t := by
        unfold trailLength
        have := Real.sqrt_pos.2 hpos
        positivity
      have h2 := trailArg_lt ha hb (le_refl 0) hxp
      have h3 : trailArg a b 0 = 1 := by simp [trailArg]
      rw [h3] at h2
      have := log10_lt (by norm_num) h2
      rw [log10_one] at this
      linarith
    · rintro ⟨rfl, rfl⟩
      simp [trailLength, trailArg, log10_one]
  · rw [mul_lt_mul_iff_right₀ (by norm_num), log10_lt_iff (by linarith) (by linarith), trailArg_lt_iff ha hb hx hx']

/-- C23 (monotone): faster motion, longer exposure and sharper seeing never reduce the loss. -/
theorem C23_monotone {m : String} {a b : ℝ} (h : Loss m a b) (u v s t u' v' s' t' d d' : ℝ) (hs' : 0 < s') (ht : 0 < t)
    (hv : u ^ 2 + v ^ 2 ≤ u' ^ 2 + v' ^ 2) (hs : s' ≤ s) (ht' : t ≤ t')
    (h1 : calcTrailingLoss u v s t m = some d) (h2 : calcTrailingLoss u' v' s' t' m = some d') : d ≤ d' := by
  obtain ⟨e, e', he, he', -, -, hlt⟩ := C23_order h u' v' s' t' u v s t hs' (by linarith) (by linarith) ht
  rw [h2] at he; rw [h1] at he'
  cases he; cases he'
  by_contra hn
  have hlt' := hlt.1 (not_le.1 hn)
  have hle : trailLength u v s t ≤ trailLength u' v' s' t' := by
    unfold trailLength
    have := Real.sqrt_le_sqrt hv
    have h0 := Real.sqrt_nonneg (u ^ 2 + v ^ 2)
    have h0' := Real.sqrt_nonneg (u' ^ 2 + v' ^ 2)
    have ht0 : 0 ≤ √(u' ^ 2 + v' ^ 2) * 3600 / 86400 * t' := mul_nonneg (by positivity) (by linarith)
    gcongr
  linarith

/-- C23 (other names): the run stops for any other model name. -/
theorem C23_unknown (u v s t : ℝ) (m : String) (h1 : m ≠ "trailedSource") (h2 : m ≠ "circularPSF") :
    calcTrailingLoss u v s t m = none := by
  simp [calcTrailingLoss, h1, h2]

/-- C23, which loss is larger: neither kind always dominates: a short trail costs more in the trail fit, a long one more in
detection. The turning point is where the two fitted functions cross, at a trail of about 0.7 of the seeing. -/
theorem C23_crossing (u v s t d1 d2 : ℝ) (hs : 0 < s) (ht : 0 < t) (hm : ¬ (u = 0 ∧ v = 0))
    (h1 : calcTrailingLoss u v s t "trailedSource" = some d1) (h2 : calcTrailingLoss u v s t "circularPSF" = some d2) :
    d2 < d1 ↔ (0.420 * 1.162 - 0.761 * 0.003) * trailLength u v s t < 0.761 - 0.420 := by
  rw [loss_eq .trail] at h1
  rw [loss_eq .detect] at h2
  cases h1; cases h2
  have hpos : 0 < u ^ 2 + v ^ 2 := by
    rcases not_and_or.1 hm with h2 | h2 <;> positivity
  have hx : 0 < trailLength u v s t := by
    unfold trailLength
    have := Real.sqrt_pos.2 hpos
    positivity
  set x := trailLength u v s t
  have e1 := trailArg_one_le (a := 0.761) (b := 1.162) (by norm_num) (by norm_num) hx.le
  have e2 := trailArg_one_le (a := 0.420) (b := 0.003) (by norm_num) (by norm_num) hx.le
  rw [mul_lt_mul_iff_right₀ (by norm_num), log10_lt_iff (by linarith) (by linarith)]
  unfold trailArg
  have p1 : 0 < 1 + 0.003 * x := by positivity
  have p2 : 0 < 1 + 1.162 * x := by positivity
  rw [add_lt_add_iff_left, div_lt_div_iff₀ p1 p2]
  have hx2 : 0 < x ^ 2 := by positivity
  constructor
  · intro h
    have : x ^ 2 * (0.420 * (1 + 1.162 * x)) < x ^ 2 * (0.761 * (1 + 0.003 * x)) := by linarith
    have := lt_of_mul_lt_mul_left this hx2.le
    linarith
  · intro h
    have : x ^ 2 * (0.420 * (1 + 1.162 * x)) < x ^ 2 * (0.761 * (1 + 0.003 * x)) :=
      mul_lt_mul_of_pos_left (by linarith) hx2
    linarith

/-- A moving object in a 30 s exposure meets the hypotheses. -/
example : ∃ d, calcTrailingLoss 3 4 0.8 30 "circularPSF" = some d ∧ 0 < d := by
  obtain ⟨d, _, h1, _, h2, h3, -⟩ := C23_order .detect 3 4 0.8 30 3 4 0.8 30 (by norm_num) (by norm_num) (by norm_num) (by norm_num)
  exact ⟨d, h1, lt_of_le_of_ne h2 fun h => by have := (h3.1 h.symm).1; norm_num at this⟩

/-! ## C24: fading function -/

/-- C24: for a peak efficiency `F` and width `w > 0` the detection probability lies strictly between 0 and `F`, is half of
`F` at the limiting magnitude, falls strictly with magnitude, rises strictly with depth, and tends to `F` for bright and to
0 for faint sources. -/
theorem C24_fading (F w : ℝ) (hF : 0 < F) (hF1 : F ≤ 1) (hw : 0 < w) :
    (∀ mag lim, 0 < calcDetectionProbability mag lim F w ∧ calcDetectionProbability mag lim F w < F ∧
      calcDetectionProbability mag lim F w < 1) ∧
    (∀ lim, calcDetectionProbability lim lim F w = F / 2) ∧
    (∀ mag mag' lim, mag < mag' → calcDetectionProbability mag' lim F w < calcDetectionProbability mag lim F w) ∧
    (∀ mag lim lim', lim < lim' → calcDetectionProbability mag lim F w < calcDetectionProbability mag lim' F w) ∧
    (∀ lim, Tendsto (fun mag => calcDetectionProbability mag lim F w) atBot (𝓝 F)) ∧
    (∀ lim, Tendsto (fun mag => calcDetectionProbability mag lim F w) atTop (𝓝 0)) := by
  have lt : ∀ x y : ℝ, x < y → F / (1 + exp (y / w)) < F / (1 + exp (x / w)) := by
    intro x y h
    have : exp (x / w) < exp (y / w) := Real.exp_lt_exp.2 (by gcongr)
    have hp := Real.exp_pos (x / w)
    gcongr
  have hb : ∀ mag lim, calcDetectionProbability mag lim F w < F := by
    intro mag lim
    unfold calcDetectionProbability
    have hp := Real.exp_pos ((mag - lim) / w)
    rw [div_lt_iff₀ (by linarith)]
    nlinarith
  refine ⟨fun mag lim => ⟨?_, hb mag lim, lt_of_lt_of_le (hb mag lim) hF1⟩, ?_, ?_, ?_, ?_, ?_⟩
  · unfold calcDetectionProbability
    have hp := Real.exp_pos ((mag - lim) / w)
    positivity
  · intro lim
    unfold calcDetectionProbability
    rw [sub_self, zero_div, Real.exp_zero]
    norm_num
  · intro mag mag' lim h
    exact lt _ _ (by linarith)
  · intro mag lim lim' h
    exact lt _ _ (by linarith)
  · intro lim
    have h1 : Tendsto (fun mag : ℝ => (mag - lim) / w) atBot atBot :=
      (tendsto_atBot_add_const_right _ (-lim) tendsto_id).atBot_div_const hw
    have h2 := Real.tendsto_exp_atBot.comp h1
    have h3 : Tendsto (fun mag : ℝ => F / (1 + exp ((mag - lim) / w))) atBot (𝓝 (F / (1 + 0))) :=
      tendsto_const_nhds.div (tendsto_const_nhds.add h2) (by norm_num)
    rw [add_zero, div_one] at h3
    exact h3
  · intro lim
    have h1 : Tendsto (fun mag : ℝ => (mag - lim) / w) atTop atTop :=
      (tendsto_atTop_add_const_right _ (-lim) tendsto_id).atTop_div_const hw
    have h2 := Real.tendsto_exp_atTop.comp h1
    exact tendsto_const_nhds.div_atTop (tendsto_atTop_add_const_left _ 1 h2)

/-- C24 (peak efficiency zero, also accepted): nothing is detected. -/
theorem C24_zero (mag lim w : ℝ) : calcDetectionProbability mag lim 0 w = 0 := zero_div _

/-- C24 (range): whatever the configuration validation lets through (`0 ≤ F ≤ 1`, any width), the result is a probability. -/
theorem C24_probability (F w mag lim : ℝ) (h0 : 0 ≤ F) (h1 : F ≤ 1) :
    0 ≤ calcDetectionProbability mag lim F w ∧ calcDetectionProbability mag lim F w ≤ 1 := by
  unfold calcDetectionProbability
  have hp := Real.exp_pos ((mag - lim) / w)
  refine ⟨by positivity, ?_⟩
  rw [div_le_one (by linarith)]
  linarith

/-- C24 (DES): with efficiency `e` and scaling `c` in `[0, 1]` and sharpness `k > 0` the DES detection probability lies in
`[0, e c]`, is half of `e c` at the limiting magnitude and does not increase with magnitude. -/
theorem C24_des (e c k : ℝ) (he : 0 ≤ e) (hc : 0 ≤ c) (hk : 0 < k) :
    (∀ mag lim, 0 ≤ desDetectionProbability mag lim c k e ∧ desDetectionProbability mag lim c k e ≤ e * c) ∧
    (∀ lim, desDetectionProbability lim lim c k e = e * c / 2) ∧
    (∀ mag mag' lim, mag ≤ mag' → desDetectionProbability mag' lim c k e ≤ desDetectionProbability mag lim c k e) := by
  refine ⟨?_, ?_, ?_⟩
  · intro mag lim
    unfold desDetectionProbability
    have hp := Real.exp_pos (k * (mag - lim))
    refine ⟨by positivity, ?_⟩
    gcongr
    rw [div_le_iff₀ (by linarith)]
    nlinarith
  · intro lim
    unfold desDetectionProbability
    rw [sub_self, mul_zero, Real.exp_zero]
    ring
  · intro mag mag' lim h
    unfold desDetectionProbability
    have hp := Real.exp_pos (k * (mag - lim))
    have : exp (k * (mag - lim)) ≤ exp (k * (mag' - lim)) := Real.exp_le_exp.2 (by gcongr)
    gcongr

/-- DES sharpness is read from a file and not checked: with a negative value the probability grows with magnitude, so faint
objects are preferred. -/
theorem C24_des_negative_sharpness_fails :
    desDetectionProbability 20 22 1 (-1) 1 < desDetectionProbability 24 22 1 (-1) 1 := by
  unfold desDetectionProbability
  have h : exp (-1 * (24 - 22) : ℝ) < exp (-1 * (20 - 22) : ℝ) := Real.exp_lt_exp.2 (by norm_num)
  have hp := Real.exp_pos (-1 * (24 - 22) : ℝ)
  gcongr

example : calcDetectionProbability 24.5 24.5 0.9 0.1 = 0.45 := by
  rw [(C24_fading 0.9 0.1 (by norm_num) (by norm_num) (by norm_num)).2.1]; norm_num

/-! ## C25: uncertainties -/

/-- C25 (signal to noise): positive, exactly 5 at the five-sigma depth, strictly falling with magnitude, strictly rising with
depth. -/
theorem C25_snr :
    (∀ mag m5, 0 < calcSNR mag m5) ∧ (∀ m5, calcSNR m5 m5 = 5) ∧
    (∀ mag mag' m5, mag < mag' → calcSNR mag' m5 < calcSNR mag m5) ∧
    (∀ mag m5 m5', m5 < m5' → calcSNR mag m5 < calcSNR mag m5') := by
  refine ⟨calcSNR_pos, ?_, fun mag mag' m5 h => calcSNR_lt (by linarith), fun mag m5 m5' h => calcSNR_lt (by linarith)⟩
  intro m5
  rw [calcSNR_eq, sub_self, mul_zero, Real.rpow_zero]
  have : rad 1 = (1 / 5) ^ 2 := by unfold rad; norm_num
  rw [this, Real.sqrt_sq (by norm_num)]
  norm_num

/-- C25 (formula): the inverse square of the signal-to-noise ratio is `0.001 x + 0.039 x²` with `x = 10^(0.4 (m - m5))`. -/
theorem C25_formula (mag m5 x : ℝ) (hx : x = (10 : ℝ) ^ (0.4 * (mag - m5))) :
    calcSNR mag m5 ^ 2 * (0.001 * x + 0.039 * x ^ 2) = 1 := by
  have hp : 0 < rad x := rad_pos (by rw [hx]; positivity)
  have hr : 0.001 * x + 0.039 * x ^ 2 = rad x := by unfold rad; ring
  rw [calcSNR_eq, ← hx, hr, div_pow, one_pow, Real.sq_sqrt hp.le]
  field_simp

/-- C25 (photometric): positive for every positive SNR, and strictly larger for lower SNR, hence for fainter sources. -/
theorem C25_photometric (m5 : ℝ) :
    (∀ mag, 0 < calcPhotometricUncertainty (calcSNR mag m5)) ∧
    (∀ mag mag', mag < mag' →
      calcPhotometricUncertainty (calcSNR mag m5) < calcPhotometricUncertainty (calcSNR mag' m5)) ∧
    (∀ mag, (10 : ℝ) ^ (calcPhotometricUncertainty (calcSNR mag m5) / 2.5) = 1 + 1 / calcSNR mag m5) := by
  refine ⟨fun mag => photUnc_pos (calcSNR_pos _ _), fun mag mag' h => photUnc_lt (calcSNR_pos _ _) (calcSNR_lt (by linarith)), ?_⟩
  intro mag
  unfold calcPhotometricUncertainty
  have := calcSNR_pos mag m5
  rw [mul_div_cancel_left₀ _ (by norm_num)]
  exact pow_log10 (by positivity)

/-- C25 (astrometric): the error is the systematic floor and the random part `0.6 seeing / SNR / √n` added in quadrature; so
it is never below the floor and, for positive seeing, strictly larger for fainter sources. -/
theorem C25_astrometric (m5 fwhm sys : ℝ) (n : ℕ) (hn : 1 ≤ n) (hf : 0 < fwhm) (hs : 0 ≤ sys) :
    (∀ mag, (calcAstrometricUncertainty mag m5 fwhm sys n).1 ^ 2 =
      sys ^ 2 + (0.6 * fwhm / calcSNR mag m5) ^ 2 / n) ∧
    (∀ mag, sys < (calcAstrometricUncertainty mag m5 fwhm sys n).1) ∧
    (∀ mag mag', mag < mag' →
      (calcAstrometricUncertainty mag m5 fwhm sys n).1 < (calcAstrometricUncertainty mag' m5 fwhm sys n).1) ∧
    (∀ mag, (calcAstrometricUncertainty mag m5 fwhm sys n).2.1 = calcSNR mag m5) := by
  have hn' : (0 : ℝ) < n := by exact_mod_cast hn
  have sq : ∀ mag, (calcAstrometricUncertainty mag m5 fwhm sys n).1 ^ 2 =
      sys ^ 2 + (0.6 * fwhm / calcSNR mag m5) ^ 2 / n := by
    intro mag
    have hp := calcSNR_pos mag m5
    unfold calcAstrometricUncertainty calcRandomAstrometricErrorPerCoord
    simp only
    split_ifs with h
    · rw [Real.sq_sqrt (by positivity)]
      have : √(n : ℝ) * √(n : ℝ) = n := Real.mul_self_sqrt hn'.le
      rw [div_mul_div_comm, this]
      norm_num
      ring
    · have : n = 1 := by omega
      subst this
      rw [Real.sq_sqrt (by positivity)]
      norm_num
      ring
  have nn : ∀ mag, 0 ≤ (calcAstrometricUncertainty mag m5 fwhm sys n).1 := fun mag => Real.sqrt_nonneg _
  refine ⟨sq, ?_, ?_, fun _ => rfl⟩
  · intro mag
    have hp := calcSNR_pos mag m5
    have h1 : 0 < (0.6 * fwhm / calcSNR mag m5) ^ 2 / n := by positivity
    have h2 := sq mag
    exact lt_of_pow_lt_pow_left₀ 2 (nn mag) (by linarith)
  · intro mag mag' h
    have hp := calcSNR_pos mag m5
    have hp' := calcSNR_pos mag' m5
    have hlt : calcSNR mag' m5 < calcSNR mag m5 := calcSNR_lt (by linarith)
    have h1 : 0.6 * fwhm / calcSNR mag m5 < 0.6 * fwhm / calcSNR mag' m5 := by gcongr
    refine lt_of_pow_lt_pow_left₀ 2 (nn mag') ?_
    rw [sq, sq]
    gcongr

/-- C25 (pipeline): for every observation with positive seeing and exposure time, the added columns are positive; the
astrometric uncertainty exceeds 10 milliarcseconds; the trailed-source SNR is that of the magnitude faded by the trailing
loss, so it never exceeds the SNR of a source that does not move; the PSF magnitude is never brighter than the true one. -/
theorem C25_pipeline (trailing vignetting : Bool) (o : PhotIn) (h1 : 0 < o.seeingGeom) (h2 : 0 < o.seeingEff)
    (h3 : 0 < o.visitExposureTime) :
    10 / 3600000 < (photometry trailing vignetting o).astrometricSigma_deg ∧
    0 < (photometry trailing vignetting o).SNRTrailedSourceMag ∧
    (photometry trailing vignetting o).SNRTrailedSourceMag ≤
      calcSNR o.trailedSourceMagTrue (photometry trailing vignetting o).depth ∧
    (photometry trailing vignetting o).SNRPSFMag =
      calcSNR (photometry trailing vignetting o).PSFMagTrue (photometry trailing vignetting o).depth ∧
    0 < (photometry trailing vignetting o).trailedSourceMagSigma ∧
    0 < (photometry trailing vignetting o).PSFMagSigma ∧
    o.trailedSourceMagTrue ≤ (photometry trailing vignetting o).PSFMagTrue ∧
    (trailing = false → (photometry trailing vignetting o).PSFMagTrue = o.trailedSourceMagTrue ∧
      (photometry trailing vignetting o).SNRPSFMag = (photometry trailing vignetting o).SNRTrailedSourceMag) := by
  obtain ⟨d, -, e1, -, d0, -, -⟩ := C23_order .trail o.RARateCosDec o.DecRate o.seeingGeom o.visitExposureTime
    o.RARateCosDec o.DecRate o.seeingGeom o.visitExposureTime h1 h3 h1 h3
  obtain ⟨f, -, e2, -, f0, -, -⟩ := C23_order .detect o.RARateCosDec o.DecRate o.seeingEff o.visitExposureTime
    o.RARateCosDec o.DecRate o.seeingEff o.visitExposureTime h2 h3 h2 h3
  have hmono : ∀ m5 x, 0 ≤ x → calcSNR (o.trailedSourceMagTrue + x) m5 ≤ calcSNR o.trailedSourceMagTrue m5 := by
    intro m5 x hx
    rcases hx.lt_or_eq with h | h
    · exact (calcSNR_lt (by linarith)).le
    · rw [← h, add_zero]
  have hfw : 0 < o.seeingGeom * 1000 := by positivity
  unfold photometry addUncertainties
  simp only [e1, e2, Option.getD_some]
  generalize (if vignetting = true then vignettingEffects o else o.fieldDepth) = dep
  refine ⟨?_, calcSNR_pos _ _, ?_, rfl, photUnc_pos (calcSNR_pos _ _), photUnc_pos (calcSNR_pos _ _), ?_, ?_⟩
  · have := (C25_astrometric dep (o.seeingGeom * 1000) 10 1 (le_refl _) hfw (by norm_num)).2.1
      (o.trailedSourceMagTrue + if trailing = true then d else 0)
    exact (div_lt_div_iff_of_pos_right (by norm_num)).2 this
  · refine hmono dep _ ?_
    split_ifs
    · exact d0
    · exact le_refl _
  · split_ifs
    · linarith
    · exact le_refl _
  · rintro rfl
    simp

example : calcSNR 24.5 24.5 = 5 := C25_snr.2.1 _

/-! ## C26: vignetting -/

/-- C26: the correction is zero up to 0.64 degrees from the axis, never negative, never decreases with the distance from the
axis, never exceeds `2.5 log10 (0.623885 / 0.201974)` (about 1.22 magnitudes). -/
theorem C26_vignetting :
    (∀ x, x ≤ 0.64 → vignetFunc x = 0) ∧ (∀ x, 0 ≤ vignetFunc x) ∧ (∀ x y, x ≤ y → vignetFunc x ≤ vignetFunc y) ∧
    (∀ x, vignetFunc x ≤ 2.5 * log10 (0.623885 / 0.201974)) := by
  have pos : ∀ x, 0 < interp vignetPoints x := fun x => lt_of_lt_of_le (by norm_num) (vignet_last x)
  have nn : ∀ x, 0 ≤ vignetFunc x := by
    intro x
    unfold vignetFunc
    have := log10_le (pos x) (vignet_first x)
    rw [log10_one] at this
    linarith
  have mono : ∀ x y, x ≤ y → vignetFunc x ≤ vignetFunc y := by
    intro x y h
    unfold vignetFunc
    have := log10_le (pos y) (interp_anti _ vignet_falling h)
    linarith
  refine ⟨?_, nn, mono, ?_⟩
  · intro x hx
    refine le_antisymm ?_ (nn x)
    refine (mono x _ hx).trans (le_of_eq ?_)
    have hm : ((0.64 : ℝ), (1 : ℝ)) ∈ vignetPoints := by
      unfold vignetPoints
      refine List.mem_map.2 ⟨(64, 623885), by decide +kernel, ?_⟩
      norm_num
    have := interp_node _ vignet_falling _ hm
    unfold vignetFunc
    rw [this, log10_one, mul_zero]
  · intro x
    unfold vignetFunc
    have h1 := log10_le (by norm_num) (vignet_last x)
    have h2 : log10 (0.623885 / 0.201974) = -log10 (201974 / 623885) := by
      unfold log10
      rw [← Real.logb_inv]
      norm_num
    rw [h2]
    linarith

/-- C26 (interpolation): at every tabulated radius the correction is that of the tabulated fraction relative to the one on
the axis. -/
theorem C26_table (k : ℕ × ℕ) (hk : k ∈ throughput) :
    vignetFunc ((k.1 : ℝ) / 100) = -2.5 * log10 ((k.2 : ℝ) / 623885) := by
  have hm : ((k.1 : ℝ) / 100, (k.2 : ℝ) / 1000000 / (623885 / 1000000)) ∈ vignetPoints :=
    List.mem_map.2 ⟨k, hk, rfl⟩
  have := interp_node _ vignet_falling _ hm
  unfold vignetFunc
  rw [this]
  congr 2
  field_simp

/-- C26 (pipeline): with or without vignetting the depth used for a detection never exceeds the depth of the field, and loses
at most the correction of the edge; it equals the field depth within 0.64 degrees of the field centre. -/
theorem C26_depth (trailing vignetting : Bool) (o : PhotIn) :
    (photometry trailing vignetting o).depth ≤ o.fieldDepth ∧
    o.fieldDepth - 2.5 * log10 (0.623885 / 0.201974) ≤ (photometry trailing vignetting o).depth ∧
    (separation o.RA o.Dec o.fieldRA o.fieldDec ≤ 0.64 → (photometry trailing vignetting o).depth = o.fieldDepth) ∧
    (vignetting = false → (photometry trailing vignetting o).depth = o.fieldDepth) := by
  have hb : 0 ≤ 2.5 * log10 (0.623885 / 0.201974) := le_trans (C26_vignetting.2.1 0) (C26_vignetting.2.2.2 0)
  have e : (photometry trailing vignetting o).depth = if vignetting then vignettingEffects o else o.fieldDepth := rfl
  rw [e]
  cases vignetting with
  | false => simp; norm_num at hb; norm_num; linarith
  | true =>
    simp only [if_true, vignettingEffects, calcVignettingLosses, Bool.true_eq_false, false_implies, and_true]
    refine ⟨?_, ?_, ?_⟩
    · have := C26_vignetting.2.1 (rad2deg (haversine (deg2rad o.RA) (deg2rad o.Dec) (deg2rad o.fieldRA) (deg2rad o.fieldDec)))
      linarith
    · have := C26_vignetting.2.2.2 (rad2deg (haversine (deg2rad o.RA) (deg2rad o.Dec) (deg2rad o.fieldRA) (deg2rad o.fieldDec)))
      linarith
    · intro h
      rw [C26_vignetting.1, sub_zero]
      refine le_trans (le_of_eq ?_) h
      rw [haversine_angle]
      unfold rad2deg separation
      have hd : ∀ a b : ℝ, (radec2icrf a b).toE = direction a b := by
        intro a b
        unfold Vec.toE radec2icrf direction deg2rad
        simp only [mul_div_assoc]
      rw [hd, hd]
      ring

example : vignetFunc 0.5 = 0 ∧ vignetFunc 2.0 = -2.5 * log10 (201974 / 623885) := by
  refine ⟨C26_vignetting.1 _ (by norm_num), ?_⟩
  have := C26_table (200, 201974) (by decide +kernel)
  norm_num at this ⊢
  exact this

/-! ## C27: conversions -/

/-- C27 (flux): magnitude to flux and back, and flux to magnitude and back, for every positive zero point. -/
theorem C27_flux (f0 : ℝ) (h0 : 0 < f0) :
    (∀ m, flux2mag (mag2flux m f0) f0 = m) ∧ (∀ f, 0 < f → mag2flux (flux2mag f f0) f0 = f) ∧
    (∀ m, 0 < mag2flux m f0) ∧ (∀ m m', m < m' → mag2flux m' f0 < mag2flux m f0) ∧
    (∀ m, mag2flux (m + 5) f0 = mag2flux m f0 / 100) := by
  have hpos : ∀ m, 0 < mag2flux m f0 := by intro m; unfold mag2flux; positivity
  refine ⟨?_, ?_, hpos, ?_, ?_⟩
  · intro m
    unfold flux2mag mag2flux
    rw [mul_div_cancel_left₀ _ h0.ne', log10_pow]
    norm_num
    ring
  · intro f hf
    unfold flux2mag mag2flux
    have : -0.4 * (-2.5 * log10 (f / f0)) = log10 (f / f0) := by norm_num; ring
    rw [this, pow_log10 (by positivity)]
    field_simp
  · intro m m' h
    unfold mag2flux
    have : (10 : ℝ) ^ (-0.4 * m') < (10 : ℝ) ^ (-0.4 * m) := Real.rpow_lt_rpow_of_exponent_lt (by norm_num) (by linarith)
    gcongr
  · intro m
    unfold mag2flux
    have : -0.4 * (m + 5) = -0.4 * m + (-2 : ℝ) := by norm_num; ring
    rw [this, Real.rpow_add (by norm_num)]
    have : (10 : ℝ) ^ (-2 : ℝ) = 1 / 100 := by
      rw [Real.rpow_neg (by norm_num)]; norm_num
    rw [this]
    ring

section helpers
theorem direction_eq (a b : ℝ) : (radec2icrf a b).toE = direction a b := by
  unfold Vec.toE radec2icrf direction deg2rad
  simp only [mul_div_assoc]

theorem cos_arcsin_xy {x y z : ℝ} (h : x ^ 2 + y ^ 2 + z ^ 2 = 1) : cos (arcsin z) = ‖(⟨x, y⟩ : ℂ)‖ := by
  rw [Real.cos_arcsin, Complex.norm_def]
  congr 1
  simp [Complex.normSq]
  linarith
end helpers

/-- C27 (unit vector): the vector of a sky position is the point of the unit sphere, with length one. -/
theorem C27_unit (ra dec : ℝ) : (radec2icrf ra dec).toE = direction ra dec ∧ ‖direction ra dec‖ = 1 :=
  ⟨direction_eq ra dec, by rw [← direction_eq]; exact norm_radec ra dec⟩

/-- C27 (ranges): the angles of any vector lie in `[0, 360)` and `[-90, 90]`. -/
theorem C27_ranges (v : Vec) :
    0 ≤ (icrf2radec v).1 ∧ (icrf2radec v).1 < 360 ∧ -90 ≤ (icrf2radec v).2 ∧ (icrf2radec v).2 ≤ 90 := by
  obtain ⟨h1, h2⟩ := mod_mem (rad2deg (arctan2 (v.y / √(v.x ^ 2 + v.y ^ 2 + v.z ^ 2)) (v.x / √(v.x ^ 2 + v.y ^ 2 + v.z ^ 2)))
    + 360) 360 (by norm_num)
  refine ⟨h1, h2, ?_, ?_⟩
  · have := Real.neg_pi_div_two_le_arcsin (v.z / √(v.x ^ 2 + v.y ^ 2 + v.z ^ 2))
    simp only [icrf2radec, rad2deg]
    have hp := Real.pi_pos
    rw [← mul_div_assoc, le_div_iff₀ hp]
    linarith
  · have := Real.arcsin_le_pi_div_two (v.z / √(v.x ^ 2 + v.y ^ 2 + v.z ^ 2))
    simp only [icrf2radec, rad2deg]
    have hp := Real.pi_pos
    rw [← mul_div_assoc, div_le_iff₀ hp]
    linarith

/-- C27 (vector to angles to vector): the angles of a non-zero vector give back its direction. -/
theorem C27_vector (v : Vec) (hv : v.toE ≠ 0) :
    direction (icrf2radec v).1 (icrf2radec v).2 = (‖v.toE‖)⁻¹ • v.toE := by
  have hr : 0 < √(v.x ^ 2 + v.y ^ 2 + v.z ^ 2) := by rw [← norm_toE]; exact norm_pos_iff.2 hv
  set r := √(v.x ^ 2 + v.y ^ 2 + v.z ^ 2) with hrd
  have hr2 : r ^ 2 = v.x ^ 2 + v.y ^ 2 + v.z ^ 2 := Real.sq_sqrt (by positivity)
  have hu : (v.x / r) ^ 2 + (v.y / r) ^ 2 + (v.z / r) ^ 2 = 1 := by
    field_simp
    linarith
  have hz : -1 ≤ v.z / r ∧ v.z / r ≤ 1 := by
    constructor <;> nlinarith [sq_nonneg (v.x / r), sq_nonneg (v.y / r)]
  obtain ⟨k, hk⟩ := deg_mod (arctan2 (v.y / r) (v.x / r))
  rw [← direction_eq]
  have hc := cos_arcsin_xy hu
  have hcos : cos (arcsin (v.z / r)) * cos (arctan2 (v.y / r) (v.x / r)) = v.x / r := by
    rw [hc]; exact Complex.norm_mul_cos_arg _
  have hsin : cos (arcsin (v.z / r)) * sin (arctan2 (v.y / r) (v.x / r)) = v.y / r := by
    rw [hc]; exact Complex.norm_mul_sin_arg _
  unfold radec2icrf icrf2radec
  simp only
  rw [← hrd, hk, rad_deg, Real.cos_add_int_mul_two_pi, Real.sin_add_int_mul_two_pi, hcos, hsin,
    Real.sin_arcsin hz.1 hz.2, norm_toE, ← hrd]
  unfold Vec.toE
  ext i
  fin_cases i <;> simp <;> ring

/-- C27 (angles to vector to angles): away from the poles a position with right ascension in `[0, 360)` is returned
unchanged. -/
theorem C27_angles (ra dec : ℝ) (h0 : 0 ≤ ra) (h1 : ra < 360) (h2 : -90 < dec) (h3 : dec < 90) :
    icrf2radec (radec2icrf ra dec) = (ra, dec) := by
  have hp := Real.pi_pos
  have hd1 : -(π / 2) < deg2rad dec := by unfold deg2rad; nlinarith
  have hd2 : deg2rad dec < π / 2 := by unfold deg2rad; nlinarith
  have hcos : 0 < cos (deg2rad dec) := Real.cos_pos_of_mem_Ioo ⟨hd1, hd2⟩
  have hn : √((radec2icrf ra dec).x ^ 2 + (radec2icrf ra dec).y ^ 2 + (radec2icrf ra dec).z ^ 2) = 1 := by
    rw [← norm_toE]; exact norm_radec ra dec
  unfold icrf2radec
  simp only [hn, div_one]
  refine Prod.ext ?_ ?_
  · simp only
    have harg : ∀ θ : ℝ, θ ∈ Set.Ioc (-π) π → ∀ a : ℝ, cos a = cos θ → sin a = sin θ →
        arctan2 (cos (deg2rad dec) * sin a) (cos (deg2rad dec) * cos a) = θ := by
      intro θ hθ a hc hs
      unfold arctan2
      rw [hc, hs]
      have := Complex.arg_mul_cos_add_sin_mul_I hcos hθ
      have he : (⟨cos (deg2rad dec) * cos θ, cos (deg2rad dec) * sin θ⟩ : ℂ) =
          (cos (deg2rad dec) : ℝ) * (Complex.cos θ + Complex.sin θ * Complex.I) := by
        rw [← Complex.ofReal_cos θ, ← Complex.ofReal_sin θ]
        apply Complex.ext <;>
          simp only [Complex.mul_re, Complex.mul_im, Complex.add_re, Complex.add_im, Complex.ofReal_re, Complex.ofReal_im,
            Complex.I_re, Complex.I_im] <;> ring
      rw [he]
      exact this
    by_cases hra : ra ≤ 180
    · have hθ : deg2rad ra ∈ Set.Ioc (-π) π := ⟨by unfold deg2rad; nlinarith [mul_nonneg h0 hp.le], by unfold deg2rad; nlinarith⟩
      have := harg (deg2rad ra) hθ (deg2rad ra) rfl rfl
      unfold radec2icrf
      simp only
      rw [this, deg_rad]
      have := mod_of_mem (m := 360) 1 (by norm_num) h0 h1
      simpa using this
    · have hθ : deg2rad (ra - 360) ∈ Set.Ioc (-π) π := ⟨by unfold deg2rad; nlinarith, by unfold deg2rad; nlinarith⟩
      have he : deg2rad ra = deg2rad (ra - 360) + 2 * π := by unfold deg2rad; ring
      have := harg (deg2rad (ra - 360)) hθ (deg2rad ra) (by rw [he, Real.cos_add_two_pi]) (by rw [he, Real.sin_add_two_pi])
      unfold radec2icrf
      simp only
      rw [this, deg_rad]
      have := mod_of_mem (m := 360) 0 (by norm_num) h0 h1
      simpa using this
  · simp only [radec2icrf]
    rw [Real.arcsin_sin hd1.le hd2.le, deg_rad]

/-- C27 (poles): at a pole right ascension is not determined; the result is right ascension 0 and the pole. -/
theorem C27_poles (ra : ℝ) :
    icrf2radec (radec2icrf ra 90) = (0, 90) ∧ icrf2radec (radec2icrf ra (-90)) = (0, -90) := by
  have e1 : deg2rad 90 = π / 2 := by unfold deg2rad; ring
  have e2 : deg2rad (-90) = -(π / 2) := by unfold deg2rad; ring
  have hm : mod 360 360 = 0 := by unfold mod; norm_num
  have a0 : arctan2 0 0 = 0 := Complex.arg_zero
  have r0 : rad2deg 0 = 0 := by unfold rad2deg; ring
  have d1 : rad2deg (π / 2) = 90 := by rw [← e1, deg_rad]
  have d2 : rad2deg (-(π / 2)) = -90 := by rw [← e2, deg_rad]
  constructor
  · unfold radec2icrf icrf2radec
    simp [e1, a0, r0, hm, d1]
  · unfold radec2icrf icrf2radec
    simp [e2, a0, r0, hm, d2]

/-- C27 (astrometric noise): the randomised position is the direction of the true unit vector displaced by sigma (in
radians) times the three draws; without noise the position is unchanged. -/
theorem C27_noise (ra dec sigma : ℝ) (n : Vec)
    (h : direction ra dec + (sigma * π / 180) • n.toE ≠ 0) :
    direction (randomizeAstrometry ra dec sigma n).1 (randomizeAstrometry ra dec sigma n).2 =
      (‖direction ra dec + (sigma * π / 180) • n.toE‖)⁻¹ • (direction ra dec + (sigma * π / 180) • n.toE) := by
  set m : Vec := ⟨n.x * deg2rad sigma + (radec2icrf ra dec).x, n.y * deg2rad sigma + (radec2icrf ra dec).y,
    n.z * deg2rad sigma + (radec2icrf ra dec).z⟩ with hm
  have he : direction ra dec + (sigma * π / 180) • n.toE = m.toE := by
    rw [← direction_eq, hm]
    unfold Vec.toE deg2rad
    ext i
    fin_cases i <;> simp <;> ring
  rw [he] at h ⊢
  have hs : sampleNormalFOV (radec2icrf ra dec) (deg2rad sigma) n = ⟨m.x / ‖m.toE‖, m.y / ‖m.toE‖, m.z / ‖m.toE‖⟩ := by
    rw [norm_toE]; rfl
  have ht : (⟨m.x / ‖m.toE‖, m.y / ‖m.toE‖, m.z / ‖m.toE‖⟩ : Vec).toE = (‖m.toE‖)⁻¹ • m.toE := by
    generalize ‖m.toE‖ = r
    unfold Vec.toE
    ext i
    fin_cases i <;> simp <;> ring
  have hne : (⟨m.x / ‖m.toE‖, m.y / ‖m.toE‖, m.z / ‖m.toE‖⟩ : Vec).toE ≠ 0 := by
    rw [ht]; simpa using h
  unfold randomizeAstrometry
  rw [hs, C27_vector _ hne, ht, norm_smul, norm_inv, norm_norm, inv_mul_cancel₀ (norm_ne_zero_iff.2 h), inv_one, one_smul]

example : icrf2radec (radec2icrf 270 (-30)) = (270, -30) := C27_angles _ _ (by norm_num) (by norm_num) (by norm_num) (by norm_num)

/-! ## C28: separation -/

/-- C28: both separation formulas (vignetting and tracklets) give the angle between the two directions. -/
theorem C28_separation (ra1 dec1 ra2 dec2 : ℝ) :
    haversine_np ra1 dec1 ra2 dec2 = separation ra1 dec1 ra2 dec2 ∧
    rad2deg (haversine (deg2rad ra1) (deg2rad dec1) (deg2rad ra2) (deg2rad dec2)) = separation ra1 dec1 ra2 dec2 := by
  have h : rad2deg (haversine (deg2rad ra1) (deg2rad dec1) (deg2rad ra2) (deg2rad dec2)) = separation ra1 dec1 ra2 dec2 := by
    rw [haversine_angle, direction_eq, direction_eq]
    unfold rad2deg separation
    ring
  exact ⟨h, h⟩

/-- C28 (metric): the separation is symmetric, between 0 and 180 degrees, zero exactly for equal directions, satisfies the
triangle inequality and does not change when whole turns are added to the right ascensions. -/
theorem C28_metric :
    (∀ a b c d, haversine_np a b c d = haversine_np c d a b) ∧
    (∀ a b c d, 0 ≤ haversine_np a b c d ∧ haversine_np a b c d ≤ 180) ∧
    (∀ a b c d, haversine_np a b c d = 0 ↔ direction a b = direction c d) ∧
    (∀ a b c d e f, haversine_np a b e f ≤ haversine_np a b c d + haversine_np c d e f) ∧
    (∀ a b c d, ∀ k l : ℤ, haversine_np (a + k * 360) b (c + l * 360) d = haversine_np a b c d) := by
  have hp := Real.pi_pos
  have hsep : ∀ a b c d, haversine_np a b c d = separation a b c d := fun a b c d => (C28_separation a b c d).1
  have hturn : ∀ a b, ∀ k : ℤ, direction (a + k * 360) b = direction a b := by
    intro a b k
    have : (a + k * 360) * π / 180 = a * π / 180 + k * (2 * π) := by ring
    unfold direction
    rw [this, Real.cos_add_int_mul_two_pi, Real.sin_add_int_mul_two_pi]
  refine ⟨?_, ?_, ?_, ?_, ?_⟩
  · intro a b c d
    rw [hsep, hsep]; unfold separation; rw [InnerProductGeometry.angle_comm]
  · intro a b c d
    rw [hsep]; unfold separation
    have h0 := InnerProductGeometry.angle_nonneg (direction a b) (direction c d)
    have h1 := InnerProductGeometry.angle_le_pi (direction a b) (direction c d)
    refine ⟨by positivity, ?_⟩
    rw [div_le_iff₀ hp]
    linarith
  · intro a b c d
    rw [hsep]; unfold separation
    have n1 := (C27_unit a b).2
    have n2 := (C27_unit c d).2
    constructor
    · intro h
      have h0 : InnerProductGeometry.angle (direction a b) (direction c d) = 0 := by
        rcases div_eq_zero_iff.1 h with h | h
        · rcases mul_eq_zero.1 h with h | h
          · exact h
          · norm_num at h
        · exact absurd h hp.ne'
      have hin := (InnerProductGeometry.inner_eq_mul_norm_iff_angle_eq_zero (x := direction a b) (y := direction c d)
        (by rw [← norm_ne_zero_iff, n1]; norm_num) (by rw [← norm_ne_zero_iff, n2]; norm_num)).2 h0
      rw [n1, n2, mul_one] at hin
      exact (inner_eq_one_iff_of_norm_eq_one n1 n2).1 hin
    · intro h
      rw [h, InnerProductGeometry.angle_self (by rw [← norm_ne_zero_iff, n2]; norm_num)]
      simp
  · intro a b c d e f
    rw [hsep, hsep, hsep]; unfold separation
    have := InnerProductGeometry.angle_le_angle_add_angle (direction a b) (direction c d) (direction e f)
    rw [← add_div, ← add_mul]
    gcongr
  · intro a b c d k l
    rw [hsep, hsep]; unfold separation; rw [hturn, hturn]

example : haversine_np 10 0 10 0 = 0 := (C28_metric.2.2.1 _ _ _ _).2 rfl

end Sorcha.Photom.Props
