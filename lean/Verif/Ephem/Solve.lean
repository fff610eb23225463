import Verif.Ephem.OrbitProps
import Mathlib.Analysis.SpecialFunctions.Log.Deriv
import Mathlib.Analysis.Complex.ExponentialBounds

/-!
# Lemmas about the search for the universal anomaly
-/

namespace Sorcha.Ephem
open Sorcha.Photom Sorcha.Ephem.Props Sorcha.Ephem.OrbitProps Real

/-- Value and first two derivatives of Kepler's equation minus the time. -/
noncomputable def keplerF (mu q e t : ℝ) (s : ℝ) : ℝ × ℝ × ℝ := (Spec.keplerTime mu q e s - t, rad mu q e s, mu * e * G 1 (al mu q e) s)

theorem rootFunction_kepler {mu q e : ℝ} (hq : 0 < q) (t : ℝ) :
    (fun s => ((rootFunction Spec.exact s mu (2 * mu / q - mu * (1 + e) / q) q 0 t).1,
      (rootFunction Spec.exact s mu (2 * mu / q - mu * (1 + e) / q) q 0 t).2.1,
      (rootFunction Spec.exact s mu (2 * mu / q - mu * (1 + e) / q) q 0 t).2.2.1)) = keplerF mu q e t := by
  funext s
  have hq' := hq.ne'
  unfold keplerF
  refine Prod.ext ?_ (Prod.ext ?_ ?_)
  · exact root_iff hq s t
  · simp only
    rw [← rad_eq hq]
    unfold rootFunction Spec.exact G al
    rw [show (2 * mu / q - mu * (1 + e) / q) * s * s = mu * (1 - e) / q * s ^ 2 by ring]
    simp only
    ring
  · simp only
    unfold rootFunction Spec.exact G al
    rw [show (2 * mu / q - mu * (1 + e) / q) * s * s = mu * (1 - e) / q * s ^ 2 by ring]
    simp only
    field_simp
    ring

section
variable {mu q e : ℝ} (hmu : 0 < mu) (hq : 0 < q) (he : 0 ≤ e)
include hmu hq he

/-- The distance changes at a relative rate of at most twice the speed at perihelion. -/
theorem slope_bound (s : ℝ) : |mu * e * G 1 (al mu q e) s| ≤ 2 * √(mu * (1 + e) / q) * rad mu q e s := by
  have hr := rad_pos hmu hq he s
  apply abs_le_of_sq_le_sq _ (by positivity)
  have hv : √(mu * (1 + e) / q) ^ 2 = mu * (1 + e) / q := Real.sq_sqrt (by positivity)
  rw [mul_pow, mul_pow, mul_pow, mul_pow, G1_sq, hv]
  unfold rad
  set g := G 2 (al mu q e) s with hg
  have hx : 0 ≤ mu * e * g := mul_nonneg (mul_nonneg hmu.le he) (G2_nonneg _ _)
  unfold al
  have h1 : (mu * e) ^ 2 * (2 * g - mu * (1 - e) / q * g ^ 2) = mu / q * (2 * e * q * (mu * e * g) - (1 - e) * (mu * e * g) ^ 2) := by
    field_simp
  have h2 : 2 ^ 2 * (mu * (1 + e) / q) * (q + mu * e * g) ^ 2 = mu / q * (4 * (1 + e) * (q + mu * e * g) ^ 2) := by
    field_simp
    ring
  have h3 : (mu ^ 2 * e ^ 2) * (2 * g - mu * (1 - e) / q * g ^ 2) = (mu * e) ^ 2 * (2 * g - mu * (1 - e) / q * g ^ 2) := by ring
  rw [h3, h1, h2]
  apply mul_le_mul_of_nonneg_left _ (by positivity)
  set x := mu * e * g
  have a1 : 0 ≤ q * x := by positivity
  have a2 : 0 ≤ e * (q * x) := by positivity
  have a3 : 0 ≤ e * x ^ 2 := by positivity
  have a4 : 0 ≤ e * q ^ 2 := by positivity
  nlinarith [sq_nonneg x, sq_nonneg q]

/-- The distances at two anomalies. -/
theorem rad_ratio {a b : ℝ} (h : a < b) : |log (rad mu q e b) - log (rad mu q e a)| ≤ 2 * √(mu * (1 + e) / q) * (b - a) := by
  have hd : ∀ s, HasDerivAt (fun s => log (rad mu q e s)) (mu * e * G 1 (al mu q e) s / rad mu q e s) s :=
    fun s => (rad_deriv hq s).log (rad_pos hmu hq he s).ne'
  obtain ⟨x, -, hx⟩ := exists_hasDerivAt_eq_slope (fun s => log (rad mu q e s)) (fun s => mu * e * G 1 (al mu q e) s / rad mu q e s) h
    (fun x _ => (hd x).continuousAt.continuousWithinAt) (fun x _ => hd x)
  have hab : 0 < b - a := by linarith
  rw [eq_div_iff hab.ne'] at hx
  rw [← hx, abs_mul, abs_of_pos hab]
  apply mul_le_mul_of_nonneg_right _ hab.le
  have hr := rad_pos hmu hq he x
  rw [abs_div, abs_of_pos hr, div_le_iff₀ hr]
  exact slope_bound hmu hq he x

theorem speed_pos : 0 < √(mu * (1 + e) / q) := Real.sqrt_pos.2 (by positivity)

/-- Within a certain distance the time differs by at least a third of what the slope says. -/
theorem time_gap {a b : ℝ} (h : a < b) (hK : 2 * √(mu * (1 + e) / q) * (b - a) ≤ 1) :
    rad mu q e a * (b - a) < 3 * (Spec.keplerTime mu q e b - Spec.keplerTime mu q e a) ∧
    rad mu q e b * (b - a) < 3 * (Spec.keplerTime mu q e b - Spec.keplerTime mu q e a) := by
  obtain ⟨x, ⟨hx1, hx2⟩, hx⟩ := exists_hasDerivAt_eq_slope (Spec.keplerTime mu q e) (rad mu q e) h
    (fun x _ => (time_deriv hq x).continuousAt.continuousWithinAt) (fun x _ => time_deriv hq x)
  have hab : 0 < b - a := by linarith
  rw [eq_div_iff hab.ne'] at hx
  rw [← hx]
  have hv := speed_pos hmu hq he
  have hrx := rad_pos hmu hq he x
  have key : ∀ y, |log (rad mu q e x) - log (rad mu q e y)| ≤ 1 → rad mu q e y < 3 * rad mu q e x := by
    intro y hy
    have hry := rad_pos hmu hq he y
    have h1 : log (rad mu q e y) ≤ 1 + log (rad mu q e x) := by have := (abs_le.1 hy).1; linarith
    have h2 : rad mu q e y ≤ exp 1 * rad mu q e x := by
      have := Real.exp_le_exp.2 h1
      rwa [Real.exp_log hry, Real.exp_add, Real.exp_log hrx] at this
    have h3 := Real.exp_one_lt_d9
    nlinarith
  constructor
  · have := key a ((rad_ratio hmu hq he hx1).trans (by nlinarith))
    nlinarith
  · have := key b (by rw [abs_sub_comm]; exact (rad_ratio hmu hq he hx2).trans (by nlinarith))
    nlinarith

/-- If the step of Newton is short, the root is near. -/
theorem near_root {s σ N : ℝ} (hN : N = (Spec.keplerTime mu q e s - Spec.keplerTime mu q e σ) / rad mu q e s)
    (hK : 2 * √(mu * (1 + e) / q) * |N| ≤ 1 / 3) : |s - σ| ≤ 3 * |N| := by
  have hv := speed_pos hmu hq he
  have hr := rad_pos hmu hq he s
  set K := 2 * √(mu * (1 + e) / q) with hKdef
  have hKp : 0 < K := by positivity
  rcases lt_trichotomy s σ with h | h | h
  · -- below the root
    set p := min σ (s + 1 / K) with hp
    have h1 : s < p := lt_min h (by have : 0 < 1 / K := by positivity
                                    linarith)
    have h2 : K * (p - s) ≤ 1 := by
      have : p ≤ s + 1 / K := min_le_right _ _
      have h' : K * (p - s) ≤ K * (1 / K) := mul_le_mul_of_nonneg_left (by linarith) hKp.le
      rwa [mul_one_div_cancel hKp.ne'] at h'
    have h3 := (time_gap hmu hq he h1 h2).1
    have h4 : Spec.keplerTime mu q e p ≤ Spec.keplerTime mu q e σ := by
      have := time_mono hmu hq he (s := p) (s' := σ) (min_le_left _ _)
      have h5 : 0 ≤ q * (σ - p) := mul_nonneg hq.le (by have := min_le_left σ (s + 1 / K); linarith)
      linarith
    have hNn : N ≤ 0 := by rw [hN]; apply div_nonpos_of_nonpos_of_nonneg _ hr.le; nlinarith
    have h6 : p - s < 3 * |N| := by
      rw [abs_of_nonpos hNn, hN, ← neg_div, mul_div_assoc', lt_div_iff₀ hr]
      nlinarith
    have h7 : p = σ := by
      by_contra hne
      have h8 : p = s + 1 / K := by
        rcases min_choice σ (s + 1 / K) with h' | h'
        · exact absurd h' hne
        · exact h'
      have : K * (p - s) = 1 := by rw [h8]; field_simp; ring
      nlinarith
    rw [abs_of_neg (by linarith)]
    rw [h7] at h6
    linarith
  · rw [h, sub_self, abs_zero]; positivity
  · set p := max σ (s - 1 / K) with hp
    have h1 : p < s := max_lt h (by have : 0 < 1 / K := by positivity
                                    linarith)
    have h2 : K * (s - p) ≤ 1 := by
      have : s - 1 / K ≤ p := le_max_right _ _
      have h' : K * (s - p) ≤ K * (1 / K) := mul_le_mul_of_nonneg_left (by linarith) hKp.le
      rwa [mul_one_div_cancel hKp.ne'] at h'
    have h3 := (time_gap hmu hq he h1 h2).2
    have h4 : Spec.keplerTime mu q e σ ≤ Spec.keplerTime mu q e p := by
      have := time_mono hmu hq he (s := σ) (s' := p) (le_max_left _ _)
      have h5 : 0 ≤ q * (p - σ) := mul_nonneg hq.le (by have := le_max_left σ (s - 1 / K); linarith)
      linarith
    have hNn : 0 ≤ N := by rw [hN]; apply div_nonneg _ hr.le; nlinarith
    have h6 : s - p < 3 * |N| := by
      rw [abs_of_nonneg hNn, hN, mul_div_assoc', lt_div_iff₀ hr]
      nlinarith
    have h7 : p = σ := by
      by_contra hne
      have h8 : p = s - 1 / K := by
        rcases max_choice σ (s - 1 / K) with h' | h'
        · exact absurd h' hne
        · exact h'
      have : K * (s - p) = 1 := by rw [h8]; field_simp; ring
      nlinarith
    rw [abs_of_pos (by linarith)]
    rw [h7] at h6
    linarith

/-- If the step of Halley is short, its end is near the root. -/
theorem halley_near {s σ d : ℝ} {t : ℝ} (hσ : Spec.keplerTime mu q e σ = t) (hden : 2 * rad mu q e s * rad mu q e s - (keplerF mu q e t s).1 * (keplerF mu q e t s).2.2 ≠ 0)
    (hd : d = 2 * (keplerF mu q e t s).1 * rad mu q e s / (2 * rad mu q e s * rad mu q e s - (keplerF mu q e t s).1 * (keplerF mu q e t s).2.2))
    (hv : √(mu * (1 + e) / q) * |d| ≤ 1 / 10) : |s - d - σ| ≤ 5 * |d| := by
  have hr := rad_pos hmu hq he s
  have hvp := speed_pos hmu hq he
  set v := √(mu * (1 + e) / q) with hvdef
  have hsl := slope_bound hmu hq he s
  rw [← hvdef] at hsl
  have hf : (keplerF mu q e t s).1 = Spec.keplerTime mu q e s - t := rfl
  have hfpp : (keplerF mu q e t s).2.2 = mu * e * G 1 (al mu q e) s := rfl
  rw [hf, hfpp] at hd hden
  set f := Spec.keplerTime mu q e s - t with hfdef
  set g := mu * e * G 1 (al mu q e) s with hg
  set r := rad mu q e s with hrdef
  set N := f / r with hN
  have hfr : f = N * r := by rw [hN]; field_simp
  have hc : |g / (2 * r)| ≤ v := by
    rw [abs_div, abs_of_pos (by positivity : (0 : ℝ) < 2 * r), div_le_iff₀ (by positivity)]
    linarith
  set c := g / (2 * r) with hcdef
  have hgc : g = 2 * r * c := by rw [hcdef]; field_simp
  have heq : N * (1 + d * c) = d := by
    have : d * (2 * r * r - f * g) = 2 * f * r := by rw [hd]; exact div_mul_cancel₀ _ hden
    rw [hfr, hgc] at this
    have h2 : 2 * r ^ 2 * (N * (1 + d * c) - d) = 0 := by linear_combination -this
    have h3 : (2 * r ^ 2) ≠ 0 := by positivity
    have := (mul_eq_zero.1 h2).resolve_left h3
    linarith
  have hdc : |d * c| ≤ 1 / 10 := by
    rw [abs_mul]
    calc |d| * |c| ≤ |d| * v := mul_le_mul_of_nonneg_left hc (abs_nonneg _)
      _ ≤ 1 / 10 := by rw [mul_comm]; exact hv
  have h9 : 9 / 10 ≤ 1 + d * c := by have := (abs_le.1 hdc).1; linarith
  have hNd : 9 / 10 * |N| ≤ |d| := by
    have : |N| * (1 + d * c) = |d| := by rw [← heq, abs_mul, abs_of_pos (by linarith : (0 : ℝ) < 1 + d * c), heq]
    have := abs_nonneg N
    nlinarith
  have hnear := near_root hmu hq he (s := s) (σ := σ) (N := N) (by rw [hN, hfdef, hσ]) (by rw [← hvdef]; nlinarith [abs_nonneg N])
  have : |s - d - σ| ≤ |s - σ| + |d| := by
    have := abs_sub (s - σ) d
    rw [show s - d - σ = s - σ - d by ring]
    exact this
  linarith [abs_nonneg N, abs_nonneg d]

end
end Sorcha.Ephem
