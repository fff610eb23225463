import Verif.Ephem.SolveProps

/-!
# C66: what the accuracy of the search means for positions and velocities on ellipses
-/

namespace Sorcha.Ephem.SolveProps
open Sorcha.Photom Sorcha.Geom Sorcha.Ephem Sorcha.Ephem.Props Sorcha.Ephem.OrbitProps Real

/-- A bound on the derivative bounds the change. -/
theorem change_le {g g' : ℝ → ℝ} {M : ℝ} (hd : ∀ s, HasDerivAt g (g' s) s) (hM : ∀ s, |g' s| ≤ M) (a b : ℝ) : |g a - g b| ≤ M * |a - b| := by
  have := Convex.norm_image_sub_le_of_norm_hasDerivWithin_le (f := g) (f' := g') (C := M) (s := Set.univ)
    (fun x _ => (hd x).hasDerivWithinAt) (fun x _ => by rw [Real.norm_eq_abs]; exact hM x) convex_univ (Set.mem_univ b) (Set.mem_univ a)
  simpa [Real.norm_eq_abs] using this

section
variable {mu q e : ℝ} (hmu : 0 < mu) (hq : 0 < q) (he : 0 ≤ e)
include hmu hq he

/-- The state the code computes for an anomaly that need not be the solution. -/
theorem planeState_any (s t : ℝ) : planeState Spec.exact mu q e t s =
    (⟨px mu q e s, (t - mu * G 3 (al mu q e) s) * √(mu * (1 + e) / q), 0⟩, ⟨ux mu q e s, uy mu q e s, 0⟩) := by
  have h2 := planeState_eq hmu hq he s _ rfl
  have hv : (planeState Spec.exact mu q e t s).2 = (planeState Spec.exact mu q e (Spec.keplerTime mu q e s) s).2 := rfl
  have hp : (planeState Spec.exact mu q e t s).1 = (planeState Spec.exact mu q e (Spec.keplerTime mu q e s) s).1 +
      ⟨0, (t - Spec.keplerTime mu q e s) * √(mu * (1 + e) / q), 0⟩ := by
    unfold planeState
    apply vec_ext <;> simp only [add_x, add_y, add_z, scale] <;> ring
  ext1
  · rw [hp, h2]
    apply vec_ext
    · simp only [add_x]; ring
    · simp only [add_y]
      rw [keplerTime_eq]
      unfold py
      ring
    · simp only [add_z]; ring
  · rw [hv, h2]

/-- Bounds on an ellipse. -/
theorem ellipse_bounds (h1 : e < 1) (s : ℝ) : |G 1 (al mu q e) s| ≤ 1 / √(al mu q e) ∧ |G 2 (al mu q e) s| ≤ 2 / al mu q e := by
  have h1' : 0 < 1 - e := by linarith
  have hα : 0 < al mu q e := by unfold al; positivity
  have hw : 0 < √(al mu q e) := Real.sqrt_pos.2 hα
  have hw2 : √(al mu q e) ^ 2 = al mu q e := Real.sq_sqrt hα.le
  set w := √(al mu q e) with hwdef
  constructor
  · rw [le_div_iff₀ hw]
    have := (G_pos w s).2
    rw [hw2] at this
    rw [mul_comm, ← abs_of_pos hw, ← abs_mul, this]
    exact abs_sin_le_one _
  · rw [abs_of_nonneg (G2_nonneg _ _), le_div_iff₀ hα]
    have h0 := G0_eq (al mu q e) s
    have := (G_pos w s).1
    rw [hw2] at this
    have hc := neg_one_le_cos (w * s)
    rw [this] at h0
    linarith

/-- On an ellipse the anomaly of a time within one period is within one revolution, and so is nearly every answer. -/
theorem ellipse_anomaly (h1 : e < 1) (tp epoch : ℝ) {σ : ℝ} (hσ : Spec.keplerTime mu q e σ = timeSincePerihelion mu q e tp epoch) :
    0 ≤ σ ∧ σ ≤ 2 * π / √(al mu q e) := by
  have h0 := time_zero hmu hq he
  obtain ⟨hP, hper, -⟩ := period_facts hmu hq he h1 0 1
  unfold timeSincePerihelion at hσ
  rw [if_pos h1] at hσ
  simp only at hσ
  set P := 2 * π / √(mu / (q / (1 - e) * (q / (1 - e)) * (q / (1 - e))))
  have hm : 0 ≤ mod (epoch - tp) P ∧ mod (epoch - tp) P ≤ P := by
    unfold mod
    have a1 := Int.floor_le ((epoch - tp) / P)
    have a2 := Int.lt_floor_add_one ((epoch - tp) / P)
    rw [le_div_iff₀ hP] at a1
    rw [div_lt_iff₀ hP] at a2
    constructor <;> nlinarith
  have hper' : Spec.keplerTime mu q e (2 * π / √(al mu q e)) = P := by
    have : (0 : ℝ) + ((1 : ℤ) : ℝ) * (2 * π / √(al mu q e)) = 2 * π / √(al mu q e) := by push_cast; ring
    rw [this, h0] at hper
    rw [hper]
    push_cast
    ring
  exact root_between hmu hq he (by rw [h0]; exact hm.1) (by rw [hper']; exact hm.2) hσ

theorem ellipse_error (h1 : e < 1) (tp epoch : ℝ) {n : ℕ} {x fp σ : ℝ}
    (h : anomaly Spec.exact mu q e (timeSincePerihelion mu q e tp epoch) n = some (.root x fp))
    (hx : √(mu * (1 + e) / q) * |x| ≤ 1e13) (hσ : Spec.keplerTime mu q e σ = timeSincePerihelion mu q e tp epoch) :
    |x - σ| ≤ 3.2e-13 / √(al mu q e) := by
  have h1' : 0 < 1 - e := by linarith
  have hα : 0 < al mu q e := by unfold al; positivity
  have hw : 0 < √(al mu q e) := Real.sqrt_pos.2 hα
  have ha := C66_accuracy hmu hq he h hx hσ
  obtain ⟨b0, b1⟩ := ellipse_anomaly hmu hq he h1 tp epoch hσ
  have hxs : |x| ≤ |x - σ| + σ := by
    have := abs_add_le (x - σ) σ
    rw [sub_add_cancel, abs_of_nonneg b0] at this
    exact this
  have hpi := Real.pi_lt_d2
  rw [le_div_iff₀ hw] at b1 ⊢
  have e1 : |x - σ| * (1 - 5e-14) ≤ 5e-14 * σ := by linarith
  nlinarith [abs_nonneg (x - σ)]

omit hmu hq he in
theorem fromTo_comb (a b a' b' i Ω ω : ℝ) :
    Spec.length (Spec.fromTo (Spec.times a (Spec.perihelionDir i Ω ω) + Spec.times b (Spec.motionDir i Ω ω))
      (Spec.times a' (Spec.perihelionDir i Ω ω) + Spec.times b' (Spec.motionDir i Ω ω))) ≤ |a' - a| + |b' - b| := by
  have : Spec.fromTo (Spec.times a (Spec.perihelionDir i Ω ω) + Spec.times b (Spec.motionDir i Ω ω))
      (Spec.times a' (Spec.perihelionDir i Ω ω) + Spec.times b' (Spec.motionDir i Ω ω)) =
      Spec.times (a' - a) (Spec.perihelionDir i Ω ω) + Spec.times (b' - b) (Spec.motionDir i Ω ω) := by
    apply vec_ext <;> simp only [add_x, add_y, add_z, Spec.fromTo, Spec.times] <;> ring
  rw [this, length_comb]
  apply Real.sqrt_le_iff.2
  refine ⟨by positivity, ?_⟩
  have h1 := sq_abs (a' - a)
  have h2 := sq_abs (b' - b)
  have := mul_nonneg (abs_nonneg (a' - a)) (abs_nonneg (b' - b))
  nlinarith

/-- C66 (positions and velocities on ellipses): with the anomaly the search answers with, the position and the velocity differ from those for the
solution of Kepler's equation by at most 1e-12 of the semi-major axis times `√((1+e)/(1-e))`, and by at most 1e-12 of the speed at perihelion over
`√(1-e²)`; for every orientation and epoch. -/
theorem C66_state (h1 : e < 1) (i Ω ω tp epoch : ℝ) {n : ℕ} {x fp σ : ℝ}
    (h : anomaly Spec.exact mu q e (timeSincePerihelion mu q e tp epoch) n = some (.root x fp))
    (hx : √(mu * (1 + e) / q) * |x| ≤ 1e13) (hσ : Spec.keplerTime mu q e σ = timeSincePerihelion mu q e tp epoch) :
    Spec.length (Spec.fromTo (universalCartesian Spec.exact mu q e i Ω ω tp epoch σ).1 (universalCartesian Spec.exact mu q e i Ω ω tp epoch x).1) ≤
      1e-12 * (q / (1 - e)) * √((1 + e) / (1 - e)) ∧
    Spec.length (Spec.fromTo (universalCartesian Spec.exact mu q e i Ω ω tp epoch σ).2 (universalCartesian Spec.exact mu q e i Ω ω tp epoch x).2) ≤
      1e-12 * √(mu * (1 + e) / q) / √(1 - e ^ 2) := by
  have h1' : 0 < 1 - e := by linarith
  have hα : 0 < al mu q e := by unfold al; positivity
  have hw : 0 < √(al mu q e) := Real.sqrt_pos.2 hα
  have hw2 : √(al mu q e) ^ 2 = al mu q e := Real.sq_sqrt hα.le
  have hv := speed_pos hmu hq he
  have hv2 : √(mu * (1 + e) / q) ^ 2 = mu * (1 + e) / q := Real.sq_sqrt (by positivity)
  have herr := ellipse_error hmu hq he h1 tp epoch h hx hσ
  have hratio : √(mu * (1 + e) / q) = √((1 + e) / (1 - e)) * √(al mu q e) := by
    rw [← Real.sqrt_mul (by positivity)]
    congr 1
    unfold al
    field_simp
  have hone : 1 ≤ √((1 + e) / (1 - e)) := by
    rw [Real.one_le_sqrt, one_le_div h1']
    linarith
  set w := √(al mu q e) with hwdef
  set v := √(mu * (1 + e) / q) with hvdef
  set k := √((1 + e) / (1 - e)) with hkdef
  have hA : mu / al mu q e = q / (1 - e) := by unfold al; field_simp
  unfold universalCartesian
  simp only [planeState_any hmu hq he, orient_eq, ← hvdef]
  constructor
  · refine (fromTo_comb _ _ _ _ i Ω ω).trans ?_
    have d1 : |px mu q e x - px mu q e σ| ≤ mu / w * |x - σ| := by
      refine change_le (fun s => px_deriv hq s) (fun s => ?_) x σ
      rw [abs_mul, abs_neg, abs_of_pos hmu, div_eq_mul_one_div]
      exact mul_le_mul_of_nonneg_left (ellipse_bounds hmu hq he h1 s).1 hmu.le
    have d2 : |G 3 (al mu q e) x - G 3 (al mu q e) σ| ≤ 2 / al mu q e * |x - σ| :=
      change_le (fun s => (G23_deriv _ s).2) (fun s => (ellipse_bounds hmu hq he h1 s).2) x σ
    have d3 : |(timeSincePerihelion mu q e tp epoch - mu * G 3 (al mu q e) x) * v - (timeSincePerihelion mu q e tp epoch - mu * G 3 (al mu q e) σ) * v| ≤
        mu * v * (2 / al mu q e * |x - σ|) := by
      have : (timeSincePerihelion mu q e tp epoch - mu * G 3 (al mu q e) x) * v - (timeSincePerihelion mu q e tp epoch - mu * G 3 (al mu q e) σ) * v =
          -(mu * v * (G 3 (al mu q e) x - G 3 (al mu q e) σ)) := by ring
      rw [this, abs_neg, abs_mul, abs_of_pos (by positivity)]
      exact mul_le_mul_of_nonneg_left d2 (by positivity)
    have e1 : mu / w * |x - σ| ≤ 3.2e-13 * (q / (1 - e)) := by
      refine (mul_le_mul_of_nonneg_left herr (by positivity)).trans (le_of_eq ?_)
      rw [← hA, ← hw2]
      field_simp
    have e2 : mu * v * (2 / al mu q e * |x - σ|) ≤ 6.4e-13 * (q / (1 - e)) * k := by
      have : mu * v * (2 / al mu q e * |x - σ|) ≤ mu * v * (2 / al mu q e * (3.2e-13 / w)) := by gcongr
      refine this.trans (le_of_eq ?_)
      rw [← hA, hratio]
      field_simp
      norm_num
    have hqe : 0 < q / (1 - e) := by positivity
    nlinarith
  · refine (fromTo_comb _ _ _ _ i Ω ω).trans ?_
    have hbound : ∀ s, |-mu * px mu q e s / rad mu q e s ^ 2| ≤ mu / q ∧ |-mu * py mu q e s / rad mu q e s ^ 2| ≤ mu / q := by
      intro s
      have hr := rad_pos hmu hq he s
      have hge := rad_ge hmu hq he s
      have hds := dist_sq hmu hq he s
      have key : ∀ y, y ^ 2 ≤ rad mu q e s ^ 2 → |-mu * y / rad mu q e s ^ 2| ≤ mu / q := by
        intro y hy
        have hy' : |y| ≤ rad mu q e s := abs_le_of_sq_le_sq hy hr.le
        rw [abs_div, abs_mul, abs_neg, abs_of_pos hmu, abs_of_pos (by positivity : 0 < rad mu q e s ^ 2), div_le_div_iff₀ (by positivity) hq]
        have : |y| * q ≤ rad mu q e s ^ 2 := by nlinarith [abs_nonneg y]
        nlinarith
      exact ⟨key _ (by nlinarith [sq_nonneg (py mu q e s)]), key _ (by nlinarith [sq_nonneg (px mu q e s)])⟩
    have d1 := change_le (fun s => ux_deriv hmu hq he s) (fun s => (hbound s).1) x σ
    have d2 := change_le (fun s => uy_deriv hmu hq he s) (fun s => (hbound s).2) x σ
    have e1 : mu / q * |x - σ| ≤ 3.2e-13 * (v / √(1 - e ^ 2)) := by
      refine (mul_le_mul_of_nonneg_left herr (by positivity)).trans ?_
      have he2 : 0 < 1 - e ^ 2 := by nlinarith
      have hs : √(1 - e ^ 2) = (1 - e) * k := by
        rw [hkdef, ← Real.sqrt_sq h1'.le, ← Real.sqrt_mul (by positivity), Real.sqrt_sq h1'.le]
        congr 1
        field_simp
        ring
      have hkw : w = v / k := by rw [hratio]; field_simp
      rw [hs, hkw]
      have hkp : 0 < k := by linarith
      have hk2 : k ^ 2 = (1 + e) / (1 - e) := Real.sq_sqrt (by positivity)
      have e3 : mu / q * (3.2e-13 / (v / k)) = 3.2e-13 * (mu / q * k / v) := by field_simp
      rw [e3]
      apply mul_le_mul_of_nonneg_left _ (by norm_num)
      rw [div_le_div_iff₀ hv (by positivity)]
      have e4 : mu / q * k * ((1 - e) * k) = mu * (1 + e) / q := by
        have : mu / q * k * ((1 - e) * k) = mu / q * (1 - e) * k ^ 2 := by ring
        rw [this, hk2]
        field_simp
      rw [e4, ← hv2]
      exact le_of_eq (by ring)
    have e5 : 1e-12 * v / √(1 - e ^ 2) = 1e-12 * (v / √(1 - e ^ 2)) := by ring
    rw [e5]
    have : 0 ≤ v / √(1 - e ^ 2) := by positivity
    linarith

end

/-- A circle of radius 3: the equation is linear, and the search finds its solution with a step of Halley from the middle of the bracket. -/
example : anomaly Spec.exact 1 3 0 12 2 = some (.root 4 3) ∧ Spec.keplerTime 1 3 0 4 = 12 ∧ √(1 * (1 + 0) / 3) * |(4 : ℝ)| ≤ 1e13 ∧ (4 : ℝ) / 3 ≤ 2 := by
  have hT : ∀ s, Spec.keplerTime 1 3 0 s = 3 * s := by
    intro s
    rw [keplerTime_eq, G1_eq]
    unfold al
    ring
  have hF : keplerF 1 3 0 12 = fun s => (3 * s - 12, 3, 0) := by
    funext s
    unfold keplerF rad
    rw [hT]
    norm_num
  refine ⟨?_, by rw [hT]; norm_num, ?_, by norm_num⟩
  · unfold anomaly
    simp only [rootFunction_kepler (mu := 1) (q := 3) (e := 0) (by norm_num) 12]
    rw [hF]
    have hf : (fun s => (rootFunction Spec.exact s 1 (2 * 1 / 3 - 1 * (1 + 0) / 3) 3 0 12).1) = fun s => 3 * s - 12 := by
      funext s
      rw [root_iff (by norm_num), hT]
    have hb : bracket (fun s : ℝ => 3 * s - 12) (12 / 4) 2 0 (0 + 12 / 4) = some (3, 6) := by
      norm_num [bracket]
    rw [hf, hb]
    have hs : halleySafe (fun s : ℝ => ((3 * s - 12, 3, 0) : ℝ × ℝ × ℝ)) 3 6 1e-14 100 = .root 4 3 := by
      unfold halleySafe
      norm_num [halleyLoop, halleyStep, mustBisect, endPass, halley, rebracket, abs_of_pos, abs_of_neg]
    simp only [hs]
  · have : √((1 : ℝ) * (1 + 0) / 3) ≤ 1 := by rw [Real.sqrt_le_one]; norm_num
    rw [abs_of_pos (by norm_num : (0 : ℝ) < 4)]
    linarith

end Sorcha.Ephem.SolveProps
