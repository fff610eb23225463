import Verif.Ephem.Stumpff
import Verif.Ephem.Props
import Mathlib.Analysis.Calculus.Deriv.Inverse
import Mathlib.Analysis.Calculus.MeanValue
import Mathlib.Analysis.SpecialFunctions.Trigonometric.Deriv

/-!
# Facts about motion in universal variables
-/

namespace Sorcha.Ephem
open Sorcha.Photom Sorcha.Ephem.Props Real

/-- `s^k c_k(α s²)`. -/
noncomputable def G (k : ℕ) (α s : ℝ) : ℝ := s ^ k * Spec.c k (α * s ^ 2)

theorem G0_eq (α s : ℝ) : G 0 α s = 1 - α * G 2 α s := by
  unfold G; rw [c0_eq]; ring

theorem G1_eq (α s : ℝ) : G 1 α s = s - α * G 3 α s := by
  unfold G; rw [c1_eq]; ring

theorem G1_sq (α s : ℝ) : G 1 α s ^ 2 = 2 * G 2 α s - α * G 2 α s ^ 2 := by
  have := c1_square (α * s ^ 2)
  unfold G
  linear_combination s ^ 2 * this

theorem G_zero_arg (k : ℕ) (s : ℝ) : G k 0 s = s ^ k / k.factorial := by
  unfold G; rw [zero_mul, c_zero]; ring

theorem G_pos (w s : ℝ) : G 0 (w ^ 2) s = cos (w * s) ∧ w * G 1 (w ^ 2) s = sin (w * s) := by
  unfold G
  constructor
  · rw [← c0_sq, mul_pow]; ring
  · rw [← c1_sq, mul_pow]; ring

theorem G_neg (w s : ℝ) : G 0 (-w ^ 2) s = cosh (w * s) ∧ w * G 1 (-w ^ 2) s = sinh (w * s) := by
  unfold G
  constructor
  · rw [← c0_neg, show -w ^ 2 * s ^ 2 = -(w * s) ^ 2 by ring]; ring
  · rw [← c1_neg, show -w ^ 2 * s ^ 2 = -(w * s) ^ 2 by ring]; ring

theorem G01_deriv (α s : ℝ) : HasDerivAt (G 0 α) (-α * G 1 α s) s ∧ HasDerivAt (G 1 α) (G 0 α s) s := by
  rcases sq_cases α with ⟨w, hw, rfl⟩ | rfl | ⟨w, hw, rfl⟩
  · have e0 : G 0 (w ^ 2) = fun s => cos (w * s) := funext fun s => (G_pos w s).1
    have e1 : G 1 (w ^ 2) = fun s => sin (w * s) / w := funext fun s => by rw [← (G_pos w s).2]; field_simp
    have hl : HasDerivAt (fun s => w * s) w s := by simpa using (hasDerivAt_id s).const_mul w
    constructor
    · have := (hasDerivAt_cos (w * s)).comp s hl
      rw [e0]
      refine this.congr_deriv ?_
      rw [← (G_pos w s).2]; ring
    · have := ((hasDerivAt_sin (w * s)).comp s hl).div_const w
      rw [e1, e0]
      refine this.congr_deriv ?_
      field_simp
  · have e0 : G 0 0 = fun _ => (1 : ℝ) := funext fun s => by rw [G_zero_arg]; simp
    have e1 : G 1 0 = fun s => s := funext fun s => by rw [G_zero_arg]; simp
    rw [e0, e1]
    exact ⟨by simpa using hasDerivAt_const s (1 : ℝ), hasDerivAt_id s⟩
  · have e0 : G 0 (-w ^ 2) = fun s => cosh (w * s) := funext fun s => (G_neg w s).1
    have e1 : G 1 (-w ^ 2) = fun s => sinh (w * s) / w := funext fun s => by rw [← (G_neg w s).2]; field_simp
    have hl : HasDerivAt (fun s => w * s) w s := by simpa using (hasDerivAt_id s).const_mul w
    constructor
    · have := (hasDerivAt_cosh (w * s)).comp s hl
      rw [e0]
      refine this.congr_deriv ?_
      rw [← (G_neg w s).2]; ring
    · have := ((hasDerivAt_sinh (w * s)).comp s hl).div_const w
      rw [e1, e0]
      refine this.congr_deriv ?_
      field_simp

theorem G23_deriv (α s : ℝ) : HasDerivAt (G 2 α) (G 1 α s) s ∧ HasDerivAt (G 3 α) (G 2 α s) s := by
  by_cases hα : α = 0
  · subst hα
    have e2 : G 2 0 = fun s => s ^ 2 / 2 := funext fun s => by rw [G_zero_arg]; simp
    have e3 : G 3 0 = fun s => s ^ 3 / 6 := funext fun s => by rw [G_zero_arg]; norm_num [Nat.factorial]
    constructor
    · rw [e2]
      refine ((hasDerivAt_pow 2 s).div_const 2).congr_deriv ?_
      rw [G_zero_arg]; simp
    · rw [e3]
      refine ((hasDerivAt_pow 3 s).div_const 6).congr_deriv ?_
      rw [G_zero_arg]; norm_num; ring
  · have e2 : G 2 α = fun s => (1 - G 0 α s) / α := funext fun s => by rw [G0_eq]; field_simp; ring
    have e3 : G 3 α = fun s => (s - G 1 α s) / α := funext fun s => by rw [G1_eq]; field_simp; ring
    have d := G01_deriv α s
    constructor
    · have := (d.1.const_sub 1).div_const α
      rw [e2]
      refine this.congr_deriv ?_
      field_simp
    · have := ((hasDerivAt_id s).sub d.2).div_const α
      rw [e3]
      refine this.congr_deriv ?_
      rw [e2]

theorem G2_nonneg (α s : ℝ) : 0 ≤ G 2 α s := by
  rcases sq_cases α with ⟨w, hw, rfl⟩ | rfl | ⟨w, hw, rfl⟩
  · have h := G0_eq (w ^ 2) s
    rw [(G_pos w s).1] at h
    have := cos_le_one (w * s)
    by_contra hn
    push Not at hn
    have : 0 < w ^ 2 := by positivity
    nlinarith
  · rw [G_zero_arg]; positivity
  · have h := G0_eq (-w ^ 2) s
    rw [(G_neg w s).1] at h
    have := one_le_cosh (w * s)
    by_contra hn
    push Not at hn
    have : 0 < w ^ 2 := by positivity
    nlinarith

/-! ## The orbit in its plane, as functions of the universal anomaly -/

section
variable (mu q e : ℝ)

/-- Reciprocal semi-major axis times `mu`. -/
noncomputable def al : ℝ := mu * (1 - e) / q

/-- Distance. -/
noncomputable def rad (s : ℝ) : ℝ := q + mu * e * G 2 (al mu q e) s

/-- Position and velocity components. -/
noncomputable def px (s : ℝ) : ℝ := q - mu * G 2 (al mu q e) s
noncomputable def py (s : ℝ) : ℝ := q * √(mu * (1 + e) / q) * G 1 (al mu q e) s
noncomputable def ux (s : ℝ) : ℝ := -mu * G 1 (al mu q e) s / rad mu q e s
noncomputable def uy (s : ℝ) : ℝ := q * √(mu * (1 + e) / q) * G 0 (al mu q e) s / rad mu q e s

theorem keplerTime_eq (s : ℝ) : Spec.keplerTime mu q e s = q * G 1 (al mu q e) s + mu * G 3 (al mu q e) s := by
  unfold Spec.keplerTime G al
  ring

variable {mu q e} (hmu : 0 < mu) (hq : 0 < q) (he : 0 ≤ e)
include hmu hq he

theorem rad_ge (s : ℝ) : q ≤ rad mu q e s := by
  unfold rad
  have := mul_nonneg (mul_nonneg hmu.le he) (G2_nonneg (al mu q e) s)
  linarith

theorem rad_pos (s : ℝ) : 0 < rad mu q e s := hq.trans_le (rad_ge hmu hq he s)

omit hmu he in
theorem rad_eq (s : ℝ) : q * G 0 (al mu q e) s + mu * G 2 (al mu q e) s = rad mu q e s := by
  have hne := hq.ne'
  unfold rad
  rw [G0_eq]
  unfold al
  field_simp
  ring

omit hmu he in
theorem time_deriv (s : ℝ) : HasDerivAt (Spec.keplerTime mu q e) (rad mu q e s) s := by
  have d1 := (G01_deriv (al mu q e) s).2
  have d3 := (G23_deriv (al mu q e) s).2
  have := (d1.const_mul q).add (d3.const_mul mu)
  rw [rad_eq hq s] at this
  exact this.congr_of_eventuallyEq (Filter.Eventually.of_forall fun s => keplerTime_eq mu q e s)

theorem time_mono {s s' : ℝ} (h : s ≤ s') : q * (s' - s) ≤ Spec.keplerTime mu q e s' - Spec.keplerTime mu q e s := by
  rcases h.eq_or_lt with rfl | h
  · simp
  · obtain ⟨x, -, hx⟩ := exists_hasDerivAt_eq_slope (Spec.keplerTime mu q e) (rad mu q e) h
      (fun x _ => (time_deriv hq x).continuousAt.continuousWithinAt) (fun x _ => time_deriv hq x)
    have := rad_ge hmu hq he x
    rw [hx, le_div_iff₀ (by linarith)] at this
    exact this

theorem time_zero : Spec.keplerTime mu q e 0 = 0 := by unfold Spec.keplerTime; ring

theorem time_surj (t : ℝ) : ∃ s, Spec.keplerTime mu q e s = t := by
  have hc : Continuous (Spec.keplerTime mu q e) := continuous_iff_continuousAt.2 fun s => (time_deriv hq s).continuousAt
  apply mem_range_of_exists_le_of_exists_ge hc
  · refine ⟨-(|t| / q), ?_⟩
    have := time_mono hmu hq he (s := -(|t| / q)) (s' := 0) (by rw [neg_nonpos]; positivity)
    rw [time_zero hmu hq he] at this
    have e : q * (0 - -(|t| / q)) = |t| := by field_simp; ring
    rw [e] at this
    linarith [neg_abs_le t]
  · refine ⟨|t| / q, ?_⟩
    have := time_mono hmu hq he (s := 0) (s' := |t| / q) (by positivity)
    rw [time_zero hmu hq he] at this
    have e : q * (|t| / q - 0) = |t| := by field_simp; ring
    rw [e] at this
    linarith [le_abs_self t]

theorem time_inj {s s' : ℝ} (h : Spec.keplerTime mu q e s = Spec.keplerTime mu q e s') : s = s' := by
  rcases le_total s s' with hl | hl
  · have := time_mono hmu hq he hl
    rw [h, sub_self] at this
    nlinarith
  · have := time_mono hmu hq he hl
    rw [h, sub_self] at this
    nlinarith

/-- The inverse of `keplerTime` has derivative `1 / r`. -/
theorem inverse_deriv (σ : ℝ → ℝ) (h : ∀ t, Spec.keplerTime mu q e (σ t) = t) (t : ℝ) : HasDerivAt σ (rad mu q e (σ t))⁻¹ t := by
  apply HasDerivAt.of_local_left_inverse _ (time_deriv hq (σ t)) (rad_pos hmu hq he _).ne' (Filter.Eventually.of_forall h)
  rw [Metric.continuousAt_iff]
  intro ε hε
  refine ⟨q * ε, by positivity, fun {x} hx => ?_⟩
  rw [Real.dist_eq] at hx ⊢
  have key : q * |σ x - σ t| ≤ |x - t| := by
    rcases le_total (σ x) (σ t) with hl | hl
    · have := time_mono hmu hq he hl
      rw [h, h] at this
      rw [abs_of_nonpos (by linarith : σ x - σ t ≤ 0)]
      have := neg_abs_le (x - t)
      linarith
    · have := time_mono hmu hq he hl
      rw [h, h] at this
      rw [abs_of_nonneg (by linarith : 0 ≤ σ x - σ t)]
      have := le_abs_self (x - t)
      linarith
  nlinarith

omit hmu he in
theorem px_deriv (s : ℝ) : HasDerivAt (px mu q e) (-mu * G 1 (al mu q e) s) s := by
  have := ((G23_deriv (al mu q e) s).1.const_mul mu).const_sub q
  refine this.congr_deriv ?_
  ring

omit hmu he in
theorem py_deriv (s : ℝ) : HasDerivAt (py mu q e) (q * √(mu * (1 + e) / q) * G 0 (al mu q e) s) s :=
  (G01_deriv (al mu q e) s).2.const_mul _

omit hmu he in
theorem rad_deriv (s : ℝ) : HasDerivAt (rad mu q e) (mu * e * G 1 (al mu q e) s) s :=
  ((G23_deriv (al mu q e) s).1.const_mul _).const_add q

theorem ux_deriv (s : ℝ) : HasDerivAt (ux mu q e) (-mu * px mu q e s / rad mu q e s ^ 2) s := by
  have hr := (rad_pos hmu hq he s).ne'
  have := ((G01_deriv (al mu q e) s).2.const_mul (-mu)).div (rad_deriv hq s) hr
  refine this.congr_deriv ?_
  congr 1
  have key : G 0 (al mu q e) s * rad mu q e s - mu * e * G 1 (al mu q e) s ^ 2 = px mu q e s := by
    rw [G1_sq, G0_eq]
    unfold rad px
    have hα : al mu q e * q = mu * (1 - e) := by unfold al; field_simp
    linear_combination -G 2 (al mu q e) s * hα
  linear_combination -mu * key

theorem uy_deriv (s : ℝ) : HasDerivAt (uy mu q e) (-mu * py mu q e s / rad mu q e s ^ 2) s := by
  have hr := (rad_pos hmu hq he s).ne'
  have := ((G01_deriv (al mu q e) s).1.const_mul (q * √(mu * (1 + e) / q))).div (rad_deriv hq s) hr
  refine this.congr_deriv ?_
  congr 1
  have key : al mu q e * rad mu q e s + mu * e * G 0 (al mu q e) s = mu := by
    rw [G0_eq]
    unfold rad
    have hα : al mu q e * q = mu * (1 - e) := by unfold al; field_simp
    linear_combination hα
  unfold py
  linear_combination -(q * √(mu * (1 + e) / q) * G 1 (al mu q e) s) * key

theorem dist_sq (s : ℝ) : px mu q e s ^ 2 + py mu q e s ^ 2 = rad mu q e s ^ 2 := by
  have h2 : √(mu * (1 + e) / q) ^ 2 = mu * (1 + e) / q := Real.sq_sqrt (by positivity)
  unfold py px rad
  have hα : al mu q e * q = mu * (1 - e) := by unfold al; field_simp
  have e1 : (q * √(mu * (1 + e) / q) * G 1 (al mu q e) s) ^ 2 = q * (mu * (1 + e)) * G 1 (al mu q e) s ^ 2 := by
    rw [mul_pow, mul_pow, h2]; field_simp
  rw [e1, G1_sq]
  linear_combination -mu * (1 + e) * G 2 (al mu q e) s ^ 2 * hα

end

end Sorcha.Ephem
