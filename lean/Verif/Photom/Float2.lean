import Verif.Photom.Float
import Mathlib.Data.Int.Log

/-!
# C24 (DES) and C25 in floating point numbers

As in `Float.lean`; `pw` is `np.power(10, ·)` of the numerical library.
-/

namespace Sorcha.Photom.Float

open Sorcha.Turn.Spec (Nearest IsDouble)
open Sorcha.Turn.Props (rnd_ge rnd_le d0 nat_double)

/-- `DEScalcDetectionProbability`, DESDetectionProbability.py:51. -/
def desFading (rnd ex : ℚ → ℚ) (mag limmag c k c_sharp : ℚ) : ℚ :=
  rnd (c_sharp * rnd (c / rnd (1 + ex (rnd (k * rnd (mag - limmag))))))

/-- The signal-to-noise ratio in `calcAstrometricUncertainty`, PPAddUncertainties.py:205-207. -/
def snr (rnd sq pw : ℚ → ℚ) (mag m5 : ℚ) : ℚ :=
  let rgamma := rnd 0.039
  let xval := pw (rnd (rnd 0.4 * rnd (mag - m5)))
  rnd (1 / sq (rnd (rnd (rnd (rnd 0.04 - rgamma) * xval) + rnd (rnd (rgamma * xval) * xval))))

/-- The astrometric error for one visit, PPAddUncertainties.py:209, 214 and `calcRandomAstrometricErrorPerCoord`, PPAddUncertainties.py:276. -/
def astrometric (rnd sq pw : ℚ → ℚ) (mag m5 fwhm errorSys : ℚ) : ℚ :=
  let errorRand := rnd (rnd (rnd 0.6 * fwhm) / snr rnd sq pw mag m5)
  sq (rnd (rnd (errorSys * errorSys) + rnd (errorRand * errorRand)))

/-- `calcPhotometricUncertainty`, PPAddUncertainties.py:297. -/
def photometric (rnd sq pw lg : ℚ → ℚ) (mag m5 : ℚ) : ℚ := rnd (2.5 * lg (rnd (1 + rnd (1 / snr rnd sq pw mag m5))))

namespace Props

variable {rnd : ℚ → ℚ}

theorem rnd_pos (hr : Nearest rnd) {x : ℚ} (h : 0 < x) : 0 < rnd x := by
  have p : (0 : ℚ) < 2 ^ Int.log 2 x := zpow_pos (by norm_num) _
  have l : (2 : ℚ) ^ Int.log 2 x ≤ x := by
    have := Int.zpow_log_le_self (b := 2) (by norm_num) h
    exact_mod_cast this
  exact p.trans_le (rnd_ge hr ⟨1, Int.log 2 x, by simp, by norm_num⟩ l)

/-- C24 (DES, floating point): the computed probability lies between 0 and the product of efficiency and scaling as computed, and does not rise with magnitude. -/
theorem C24_float_des (hr : Nearest rnd) {ex : ℚ → ℚ} (he : ∀ z, 0 ≤ ex z) (hm : Monotone ex) (mag mag' lim c k e : ℚ) (hc : IsDouble c) (h0 : 0 ≤ c) (hk : 0 ≤ k)
    (h1 : 0 ≤ e) (h : mag ≤ mag') :
    0 ≤ desFading rnd ex mag lim c k e ∧ desFading rnd ex mag lim c k e ≤ rnd (e * c) ∧ desFading rnd ex mag' lim c k e ≤ desFading rnd ex mag lim c k e := by
  unfold desFading
  have g : ∀ z, 1 ≤ rnd (1 + ex z) := fun z => rnd_ge hr d1 (by linarith [he z])
  refine ⟨rnd_ge hr d0 (mul_nonneg h1 (rnd_ge hr d0 (div_nonneg h0 (by linarith [g (rnd (k * rnd (mag - lim)))])))), ?_, ?_⟩
  · exact rnd_mono hr (mul_le_mul_of_nonneg_left (rnd_le hr hc (div_le_self h0 (g _))) h1)
  · refine rnd_mono hr (mul_le_mul_of_nonneg_left (rnd_mono hr (div_le_div_of_nonneg_left h0 (by linarith [g (rnd (k * rnd (mag - lim)))]) ?_)) h1)
    exact rnd_mono hr (add_le_add le_rfl (hm (rnd_mono hr (mul_le_mul_of_nonneg_left (rnd_mono hr (by linarith)) hk))))

/-- What is used of the numerical library: powers, square roots and logarithms keep the order and the sign. -/
structure Library (sq pw lg : ℚ → ℚ) : Prop where
  sqMono : Monotone sq
  sqPos : ∀ z, 0 < z → 0 < sq z
  pwMono : Monotone pw
  pwPos : ∀ z, 0 < pw z
  lgMono : Monotone lg
  lgOne : lg 1 = 0

section
variable {sq pw lg : ℚ → ℚ}

theorem snr_aux (hr : Nearest rnd) (hL : Library sq pw lg) {x y : ℚ} (hx : 0 < x) (h : x ≤ y) :
    0 < rnd (rnd (rnd (rnd 0.04 - rnd 0.039) * x) + rnd (rnd (rnd 0.039 * x) * x)) ∧
    rnd (rnd (rnd (rnd 0.04 - rnd 0.039) * x) + rnd (rnd (rnd 0.039 * x) * x)) ≤ rnd (rnd (rnd (rnd 0.04 - rnd 0.039) * y) + rnd (rnd (rnd 0.039 * y) * y)) := by
  have a : 0 ≤ rnd (rnd 0.04 - rnd 0.039) := rnd_ge hr d0 (sub_nonneg.2 (rnd_mono hr (by norm_num)))
  have b : 0 < rnd 0.039 := rnd_pos hr (by norm_num)
  have bx : 0 < rnd (rnd 0.039 * x) := rnd_pos hr (mul_pos b hx)
  have bxy : rnd (rnd 0.039 * x) ≤ rnd (rnd 0.039 * y) := rnd_mono hr (mul_le_mul_of_nonneg_left h b.le)
  refine ⟨rnd_pos hr (add_pos_of_nonneg_of_pos (rnd_ge hr d0 (mul_nonneg a hx.le)) (rnd_pos hr (mul_pos bx hx))), ?_⟩
  exact rnd_mono hr (add_le_add (rnd_mono hr (mul_le_mul_of_nonneg_left h a)) (rnd_mono hr (mul_le_mul bxy h hx.le (bx.le.trans bxy))))

/-- The signal-to-noise ratio is positive and does not rise with magnitude or fall with depth. -/
theorem snr_order (hr : Nearest rnd) (hL : Library sq pw lg) (mag mag' m5 m5' : ℚ) (h : mag ≤ mag') (hd : m5' ≤ m5) :
    0 < snr rnd sq pw mag' m5' ∧ snr rnd sq pw mag' m5' ≤ snr rnd sq pw mag m5 := by
  unfold snr
  dsimp only
  have q : 0 ≤ rnd 0.4 := rnd_ge hr d0 (by norm_num)
  have z : rnd (rnd 0.4 * rnd (mag - m5)) ≤ rnd (rnd 0.4 * rnd (mag' - m5')) := rnd_mono hr (mul_le_mul_of_nonneg_left (rnd_mono hr (by linarith)) q)
  have x0 := hL.pwPos (rnd (rnd 0.4 * rnd (mag - m5)))
  have x1 := hL.pwPos (rnd (rnd 0.4 * rnd (mag' - m5')))
  have x := hL.pwMono z
  generalize pw (rnd (rnd 0.4 * rnd (mag - m5))) = u at x0 x
  generalize pw (rnd (rnd 0.4 * rnd (mag' - m5'))) = v at x1 x
  obtain ⟨p, le⟩ := snr_aux hr hL x0 x
  obtain ⟨p', -⟩ := snr_aux hr hL x1 le_rfl
  exact ⟨rnd_pos hr (one_div_pos.2 (hL.sqPos _ p')), rnd_mono hr (one_div_le_one_div_of_le (hL.sqPos _ p) (hL.sqMono le))⟩

/-- C25 (floating point): as computed, the signal-to-noise ratio is positive and does not rise with magnitude or fall with depth; the photometric uncertainty is not
negative and does not fall with magnitude or rise with depth; the same holds for the astrometric uncertainty, which is never below the systematic one of 10 mas. -/
theorem C25_float (hr : Nearest rnd) (hL : Library sq pw lg) (h100 : sq 100 = 10) (mag mag' m5 m5' fwhm : ℚ) (hf : 0 ≤ fwhm) (h : mag ≤ mag') (hd : m5' ≤ m5) :
    (0 < snr rnd sq pw mag' m5' ∧ snr rnd sq pw mag' m5' ≤ snr rnd sq pw mag m5) ∧
    (0 ≤ photometric rnd sq pw lg mag m5 ∧ photometric rnd sq pw lg mag m5 ≤ photometric rnd sq pw lg mag' m5') ∧
    (10 ≤ astrometric rnd sq pw mag m5 fwhm 10 ∧ astrometric rnd sq pw mag m5 fwhm 10 ≤ astrometric rnd sq pw mag' m5' fwhm 10) := by
  have s := snr_order hr hL mag mag' m5 m5' h hd
  have s0 : 0 < snr rnd sq pw mag m5 := s.1.trans_le s.2
  refine ⟨s, ⟨?_, ?_⟩, ?_, ?_⟩
  · unfold photometric
    have one : 1 ≤ rnd (1 + rnd (1 / snr rnd sq pw mag m5)) := rnd_ge hr d1 (by linarith [rnd_pos hr (one_div_pos.2 s0)])
    have := hL.lgMono one
    rw [hL.lgOne] at this
    exact rnd_ge hr d0 (mul_nonneg (by norm_num) this)
  · unfold photometric
    exact rnd_mono hr (mul_le_mul_of_nonneg_left (hL.lgMono (rnd_mono hr (add_le_add le_rfl (rnd_mono hr (one_div_le_one_div_of_le s.1 s.2))))) (by norm_num))
  · unfold astrometric
    dsimp only
    generalize rnd (rnd (rnd 0.6 * fwhm) / snr rnd sq pw mag m5) = e
    have d100 : IsDouble 100 := by simpa using nat_double 100 (by norm_num)
    refine h100.symm.le.trans (hL.sqMono (rnd_ge hr d100 ?_))
    have : (100 : ℚ) ≤ rnd (10 * 10) := rnd_ge hr d100 (by norm_num)
    have := rnd_ge hr d0 (mul_self_nonneg e)
    linarith
  · unfold astrometric
    dsimp only
    have n : 0 ≤ rnd (rnd 0.6 * fwhm) := rnd_ge hr d0 (mul_nonneg (rnd_ge hr d0 (by norm_num)) hf)
    have a : 0 ≤ rnd (rnd (rnd 0.6 * fwhm) / snr rnd sq pw mag m5) := rnd_ge hr d0 (div_nonneg n s0.le)
    have b : rnd (rnd (rnd 0.6 * fwhm) / snr rnd sq pw mag m5) ≤ rnd (rnd (rnd 0.6 * fwhm) / snr rnd sq pw mag' m5') :=
      rnd_mono hr (div_le_div_of_nonneg_left n s.1 s.2)
    exact hL.sqMono (rnd_mono hr (add_le_add le_rfl (rnd_mono hr (mul_le_mul b b a (a.trans b)))))
end

/-- Functions of this kind, coarse ones. -/
example : Library (fun z => if z ≤ 0 then z else if z < 100 then 1 else 10) (fun z => (2 : ℚ) ^ ⌊z⌋) (fun z => z - 1) ∧
    (fun z : ℚ => if z ≤ 0 then z else if z < 100 then 1 else 10) 100 = 10 := by
  refine ⟨⟨?_, ?_, fun _ _ h => zpow_le_zpow_right₀ (by norm_num) (Int.floor_mono h), fun _ => zpow_pos (by norm_num) _, fun _ _ h => by simpa using h, by norm_num⟩,
    by norm_num⟩
  · intro a b h
    dsimp only
    split_ifs <;> linarith
  · intro z hz
    split_ifs <;> linarith

end Props
end Sorcha.Photom.Float
