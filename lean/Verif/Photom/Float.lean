import Verif.Turn.Props
import Mathlib.Analysis.Complex.ExponentialBounds
import Mathlib.Topology.Instances.Real.Lemmas

/-!
# C23 and C24 in floating point numbers

The values are floating point numbers; `rnd` rounds the result of each operation to a nearest one. `ex`, `lg` and `sq` are the `exp`, `log10` and `sqrt` of the numerical
library, of which only what is said in the hypotheses is used. Overflow is not modelled.
-/

namespace Sorcha.Photom.Float

open Sorcha.Turn.Spec (Nearest IsDouble)
open Sorcha.Turn.Props (rnd_ge rnd_le d0 nat_double double_multiple nearest nearest_nearest)

/-- `calcDetectionProbability`, PPDetectionProbability.py:49: `fillFactor / (1.0 + np.exp((mag - limmag) / w))`. -/
def fading (rnd ex : ℚ → ℚ) (mag limmag fillFactor w : ℚ) : ℚ :=
  rnd (fillFactor / rnd (1 + ex (rnd (rnd (mag - limmag) / w))))

/-- `calcTrailingLoss`, PPTrailingLoss.py:83-92, with the fit parameters `a` and `b` of the model. -/
def trailing (rnd sq lg : ℚ → ℚ) (a b dRaCosDec dDec seeing texp : ℚ) : ℚ :=
  let vel := sq (rnd (rnd (dRaCosDec ^ 2) + rnd (dDec ^ 2)))
  let vel := rnd (vel / 24)
  let x := rnd (rnd (vel * texp) / seeing)
  rnd (1.25 * lg (rnd (1 + rnd (rnd (a * rnd (x ^ 2)) / rnd (1 + rnd (b * x))))))

/-- The choice in `PPDropObservations`, PPDropObservations.py:31-32: a number in [0, 1) is drawn for each row, the row is kept if the probability is at least this number. -/
def kept (p draw : ℚ) : Bool := decide (draw ≤ p)

namespace Props

variable {rnd : ℚ → ℚ}

theorem rnd_fix (hr : Nearest rnd) {f : ℚ} (hf : IsDouble f) : rnd f = f :=
  le_antisymm (rnd_le hr hf le_rfl) (rnd_ge hr hf le_rfl)

theorem rnd_mono (hr : Nearest rnd) {x y : ℚ} (h : x ≤ y) : rnd x ≤ rnd y := by
  rcases h.eq_or_lt with rfl | h
  · exact le_rfl
  by_contra hc
  push Not at hc
  have a := hr.near x _ (hr.double y)
  have b := hr.near y _ (hr.double x)
  rcases le_total x (rnd y) with h1 | h1
  · rw [abs_of_nonneg (by linarith), abs_of_nonneg (by linarith)] at a
    linarith
  rcases le_total (rnd x) y with h2 | h2
  · rw [abs_of_nonpos (by linarith), abs_of_nonpos (by linarith)] at b
    linarith
  rw [abs_of_nonneg (by linarith), abs_of_nonpos (by linarith)] at a
  rw [abs_of_nonpos (by linarith), abs_of_nonneg (by linarith)] at b
  linarith

theorem d1 : IsDouble 1 := by simpa using nat_double 1 (by norm_num)
theorem d2 : IsDouble 2 := by simpa using nat_double 2 (by norm_num)

theorem half_double {F : ℚ} (h : IsDouble F) : IsDouble (F / 2) := by
  obtain ⟨m, e, rfl, hm⟩ := h
  exact ⟨m, e - 1, by rw [zpow_sub_one₀ (by norm_num)]; ring, hm⟩

theorem neg_double {F : ℚ} (h : IsDouble F) : IsDouble (-F) := by
  obtain ⟨m, e, rfl, hm⟩ := h
  exact ⟨-m, e, by push_cast; ring, by rwa [abs_neg]⟩

/-- C24 (floating point): the computed detection probability lies between 0 and the peak efficiency. -/
theorem C24_float (hr : Nearest rnd) {ex : ℚ → ℚ} (he : ∀ z, 0 ≤ ex z) (mag lim F w : ℚ) (hF : IsDouble F) (h0 : 0 ≤ F) :
    0 ≤ fading rnd ex mag lim F w ∧ fading rnd ex mag lim F w ≤ F := by
  unfold fading
  have h1 : 1 ≤ rnd (1 + ex (rnd (rnd (mag - lim) / w))) := rnd_ge hr d1 (by linarith [he (rnd (rnd (mag - lim) / w))])
  exact ⟨rnd_ge hr d0 (by positivity), rnd_le hr hF (div_le_self h0 h1)⟩

/-- C24 (floating point, half): at the limiting magnitude it is exactly half of the peak efficiency. -/
theorem C24_float_half (hr : Nearest rnd) {ex : ℚ → ℚ} (he : ex 0 = 1) (lim F w : ℚ) (hF : IsDouble F) : fading rnd ex lim lim F w = F / 2 := by
  unfold fading
  rw [sub_self, rnd_fix hr d0, zero_div, rnd_fix hr d0, he, one_add_one_eq_two, rnd_fix hr d2, rnd_fix hr (half_double hF)]

/-- C24 (floating point, order): it does not rise with magnitude and does not fall with depth, if the exponential of the library does not fall. -/
theorem C24_float_order (hr : Nearest rnd) {ex : ℚ → ℚ} (he : ∀ z, 0 ≤ ex z) (hm : Monotone ex) (mag mag' lim lim' F w : ℚ) (h0 : 0 ≤ F) (hw : 0 < w)
    (h : mag ≤ mag') (hl : lim' ≤ lim) : fading rnd ex mag' lim' F w ≤ fading rnd ex mag lim F w := by
  unfold fading
  have h1 : 1 ≤ rnd (1 + ex (rnd (rnd (mag - lim) / w))) := rnd_ge hr d1 (by linarith [he (rnd (rnd (mag - lim) / w))])
  refine rnd_mono hr (div_le_div_of_nonneg_left h0 (by linarith) (rnd_mono hr (add_le_add le_rfl (hm (rnd_mono hr ?_)))))
  exact div_le_div_of_nonneg_right (rnd_mono hr (by linarith)) hw.le

/-- Just above 1 everything is rounded to 1. -/
theorem rnd_one (hr : Nearest rnd) {e : ℚ} (h0 : 0 ≤ e) (h1 : e < 1 / 2 ^ 53) : rnd (1 + e) = 1 := by
  have l := rnd_ge hr (x := 1 + e) d1 (by linarith)
  have u := hr.near (1 + e) _ d1
  have g := hr.double (1 + e)
  generalize rnd (1 + e) = r at l u g
  obtain ⟨n, hn⟩ := double_multiple g 0 (by rw [abs_of_nonneg (by linarith)]; simpa using l)
  have e2 : (2 : ℚ) ^ (0 - 52 : ℤ) = 1 / 2 ^ 52 := by norm_num
  rw [e2] at hn
  have u' : r < 1 + 1 / 2 ^ 52 := by
    rw [show |(1 : ℚ) - (1 + e)| = e by rw [show (1 : ℚ) - (1 + e) = -e by ring, abs_neg, abs_of_nonneg h0], abs_le] at u
    have := u.2
    norm_num at *
    linarith
  rw [hn] at l u' ⊢
  have n0 : (2 ^ 52 : ℚ) ≤ n := by norm_num at *; linarith
  have n1 : (n : ℚ) < 2 ^ 52 + 1 := by norm_num at *; linarith
  have n0' : (2 ^ 52 : ℤ) ≤ n := by exact_mod_cast n0
  have n1' : n < 2 ^ 52 + 1 := by exact_mod_cast n1
  have : n = 2 ^ 52 := by omega
  rw [this]
  norm_num

/-- The exponential of the library is close to the exponential, up to a part in 2^50. -/
def CloseExp (ex : ℚ → ℚ) : Prop := ∀ z : ℚ, 0 ≤ ex z ∧ |(ex z : ℝ) - Real.exp z| ≤ Real.exp z / 2 ^ 50

theorem exp_small {z : ℝ} (h : z ≤ -38) : Real.exp z < 1 / 2 ^ 54 := by
  have h1 : Real.exp z ≤ Real.exp (-38) := Real.exp_le_exp.2 h
  have h2 : Real.exp (-38) = 1 / Real.exp 1 ^ 38 := by
    rw [Real.exp_neg, ← Real.exp_nat_mul]
    norm_num
  have h3 : (2 : ℝ) ^ 54 < Real.exp 1 ^ 38 := by
    calc (2 : ℝ) ^ 54 < 2.7182818283 ^ 38 := by norm_num
      _ ≤ Real.exp 1 ^ 38 := by
        have := Real.exp_one_gt_d9
        gcongr
  rw [h2] at h1
  exact h1.trans_lt (one_div_lt_one_div_of_lt (by positivity) h3)

/-- C24 (floating point, bright): a source brighter than the limit by at least 38 widths has exactly the peak efficiency as probability; so with peak efficiency 1 it is
kept whatever is drawn. -/
theorem C24_float_bright (hr : Nearest rnd) {ex : ℚ → ℚ} (he : CloseExp ex) (mag lim F w D : ℚ) (hF : IsDouble F) (hw : 0 < w) (hD : IsDouble D)
    (h : 38 * w ≤ D) (hm : mag + D ≤ lim) :
    fading rnd ex mag lim F w = F ∧ (F = 1 → ∀ draw : ℚ, draw < 1 → kept (fading rnd ex mag lim F w) draw = true) := by
  have key : fading rnd ex mag lim F w = F := by
    unfold fading
    have a : rnd (mag - lim) ≤ -D := rnd_le hr (neg_double hD) (by linarith)
    have b : rnd (mag - lim) / w ≤ -38 := by
      rw [div_le_iff₀ hw]
      linarith
    have d38 : IsDouble (-38) := by simpa using nat_double (-38) (by norm_num)
    have c : rnd (rnd (mag - lim) / w) ≤ -38 := rnd_le hr d38 b
    generalize rnd (rnd (mag - lim) / w) = z at c
    obtain ⟨e0, e1⟩ := he z
    have c' : (z : ℝ) ≤ -38 := by exact_mod_cast c
    have s := exp_small c'
    have e2 : (ex z : ℝ) < 1 / 2 ^ 53 := by
      have := (abs_le.1 e1).2
      have p := Real.exp_pos (z : ℝ)
      norm_num at *
      linarith
    have e3 : ex z < 1 / 2 ^ 53 := by
      have : ((ex z : ℚ) : ℝ) < ((1 / 2 ^ 53 : ℚ) : ℝ) := by push_cast; exact e2
      exact_mod_cast this
    rw [rnd_one hr e0 e3, div_one, rnd_fix hr hF]
  refine ⟨key, fun h1 draw hd => ?_⟩
  rw [key, h1]
  simpa [kept] using hd.le

/-- **C24 fails** in one case of the draw: with peak efficiency 0 a row is still kept if the number drawn is 0. -/
theorem C24_zero_draw_fails (hr : Nearest rnd) (ex : ℚ → ℚ) (mag lim w : ℚ) : kept (fading rnd ex mag lim 0 w) 0 = true := by
  unfold fading
  rw [zero_div, rnd_fix hr d0]
  rfl

/-- C23 (floating point): the computed trailing loss is never negative, and zero for a source that does not move. -/
theorem C23_float (hr : Nearest rnd) {sq lg : ℚ → ℚ} (hs : ∀ z, 0 ≤ z → 0 ≤ sq z) (hs0 : sq 0 = 0) (hl : ∀ z, 1 ≤ z → 0 ≤ lg z) (hl1 : lg 1 = 0)
    (a b u v seeing texp : ℚ) (ha : 0 ≤ a) (hb : 0 ≤ b) (hsee : 0 < seeing) (ht : 0 ≤ texp) :
    0 ≤ trailing rnd sq lg a b u v seeing texp ∧ trailing rnd sq lg a b 0 0 seeing texp = 0 := by
  have nn : ∀ {x : ℚ}, 0 ≤ x → 0 ≤ rnd x := fun h => rnd_ge hr d0 h
  constructor
  · unfold trailing
    dsimp only
    have v0 : 0 ≤ rnd (sq (rnd (rnd (u ^ 2) + rnd (v ^ 2))) / 24) :=
      nn (div_nonneg (hs _ (nn (add_nonneg (nn (sq_nonneg _)) (nn (sq_nonneg _))))) (by norm_num))
    generalize rnd (sq (rnd (rnd (u ^ 2) + rnd (v ^ 2))) / 24) = vel at v0
    have x0 : 0 ≤ rnd (rnd (vel * texp) / seeing) := nn (div_nonneg (nn (mul_nonneg v0 ht)) hsee.le)
    generalize rnd (rnd (vel * texp) / seeing) = x at x0
    have q0 : 0 ≤ rnd (rnd (a * rnd (x ^ 2)) / rnd (1 + rnd (b * x))) :=
      nn (div_nonneg (nn (mul_nonneg ha (nn (sq_nonneg _)))) (nn (add_nonneg (by norm_num) (nn (mul_nonneg hb x0)))))
    exact nn (mul_nonneg (by norm_num) (hl _ (rnd_ge hr d1 (by linarith))))
  · unfold trailing
    simp [rnd_fix hr d0, rnd_fix hr d1, hs0, hl1]

/-- There is a rounding, and there are such functions. -/
theorem exists_closeExp : ∃ ex, CloseExp ex ∧ ex 0 = 1 := by
  have : ∀ z : ℚ, ∃ q : ℚ, (0 ≤ q ∧ |(q : ℝ) - Real.exp z| ≤ Real.exp z / 2 ^ 50) ∧ (z = 0 → q = 1) := by
    intro z
    by_cases hz : z = 0
    · subst hz
      exact ⟨1, by norm_num, fun _ => rfl⟩
    · have p := Real.exp_pos (z : ℝ)
      obtain ⟨q, h1, h2⟩ := exists_rat_btwn (show Real.exp z < Real.exp z + Real.exp z / 2 ^ 50 by linarith [show 0 < Real.exp (z : ℝ) / 2 ^ 50 by positivity])
      refine ⟨q, ⟨?_, by rw [abs_of_nonneg (by linarith)]; linarith⟩, fun h => absurd h hz⟩
      have : (0 : ℝ) ≤ (q : ℝ) := by linarith
      exact_mod_cast this
  choose ex h using this
  exact ⟨ex, fun z => (h z).1, (h 0).2 rfl⟩

/-- With width 1/16 and a limit of 24.5 a source of magnitude 20 is always kept. -/
example : ∃ ex, CloseExp ex ∧ fading nearest ex 20 (49 / 2) 1 (1 / 16) = 1 ∧ fading nearest ex (49 / 2) (49 / 2) 1 (1 / 16) = 1 / 2 := by
  obtain ⟨ex, h, h0⟩ := exists_closeExp
  exact ⟨ex, h, (C24_float_bright nearest_nearest h 20 (49 / 2) 1 (1 / 16) 4 d1 (by norm_num) (by simpa using nat_double 4 (by norm_num)) (by norm_num) (by norm_num)).1,
    by simpa using C24_float_half nearest_nearest h0 (49 / 2) 1 (1 / 16) d1⟩

/-- An exponential as in `C24_float_order`. -/
example : (∀ z : ℚ, 0 ≤ (2 : ℚ) ^ ⌊z⌋) ∧ Monotone fun z : ℚ => (2 : ℚ) ^ ⌊z⌋ :=
  ⟨fun _ => (zpow_pos (by norm_num) _).le, fun _ _ h => zpow_le_zpow_right₀ (by norm_num) (Int.floor_mono h)⟩

/-- A loss that is not zero. -/
example : trailing id (fun z => if z = 0 then 0 else 5) (fun z => z - 1) (2 / 5) (1 / 250) 3 4 1 24 = 25 / 2 / 102 * 100 := by norm_num [trailing]

end Props
end Sorcha.Photom.Float
