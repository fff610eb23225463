import Verif.Ephem.Kepler

/-!
# Properties C46, C49 and C56: angles, Stumpff functions and two-body motion
-/

namespace Sorcha.Ephem.OrbitProps
open Sorcha.Photom Sorcha.Geom Sorcha.Ephem Sorcha.Ephem.Props Real

/-! ## C49 -/

/-- C49 (accuracy, arguments of bound orbits): for `0 ≤ x ≤ 1e17` every value differs from the Stumpff function by at most
`1e-17 (1 + x)`. -/
theorem C49_accuracy_nonneg (x : ℝ) (h0 : 0 ≤ x) (hx : x ≤ 1e17) :
    |(stumpff x).1 - Spec.c 0 x| ≤ (1 + x) * 1e-17 ∧ |(stumpff x).2.1 - Spec.c 1 x| ≤ (1 + x) * 1e-17 ∧
    |(stumpff x).2.2.1 - Spec.c 2 x| ≤ (1 + x) * 1e-17 ∧ |(stumpff x).2.2.2 - Spec.c 3 x| ≤ (1 + x) * 1e-17 := by
  have hb := base_accuracy _ (reductions_spec x)
  have habs : |x| = x := abs_of_nonneg h0
  have hf := final_error (x := x) (u := 4 ^ reductions x * 1e-19) (by rw [habs]; exact hx) (by positivity)
    (mul_le_mul_of_nonneg_right (reductions_bound x) (by norm_num))
  have hle : (1e-20 : ℝ) ≤ 1e-19 / (1 - 1e-19) := by norm_num
  have h := iterate_within x h0 (reductions x) (u := 1e-19) (by norm_num) hf.1 (stumpffBase (x / 4 ^ reductions x))
    ⟨hb.1.trans hle, hb.2.1.trans hle, hb.2.2.1.trans hle, hb.2.2.2.trans hle⟩
  have hF := hf.2
  rw [habs] at hF
  exact ⟨h.1.trans hF, h.2.1.trans hF, h.2.2.1.trans hF, h.2.2.2.trans hF⟩

/-- C49 (accuracy, arguments of unbound orbits): for `-1e17 ≤ x < 0` every value differs from the Stumpff function by at most the
fraction `1e-17 (1 + |x|)` of it. -/
theorem C49_accuracy_neg (x : ℝ) (h0 : x < 0) (hx : -1e17 ≤ x) :
    |(stumpff x).1 - Spec.c 0 x| ≤ (1 + |x|) * 1e-17 * Spec.c 0 x ∧ |(stumpff x).2.1 - Spec.c 1 x| ≤ (1 + |x|) * 1e-17 * Spec.c 1 x ∧
    |(stumpff x).2.2.1 - Spec.c 2 x| ≤ (1 + |x|) * 1e-17 * Spec.c 2 x ∧
    |(stumpff x).2.2.2 - Spec.c 3 x| ≤ (1 + |x|) * 1e-17 * Spec.c 3 x := by
  have hb := base_accuracy _ (reductions_spec x)
  have hf := final_error (x := x) (u := 4 ^ reductions x * 1e-19) (by rw [abs_of_neg h0]; linarith) (by positivity)
    (mul_le_mul_of_nonneg_right (reductions_bound x) (by norm_num))
  have b := c_bounds_neg (x / 4 ^ reductions x) (div_neg_of_neg_of_pos h0 (by positivity))
  have b' := c_bounds_neg x h0
  have hle : ∀ k : ℝ, 0.1 ≤ k → (1e-20 : ℝ) ≤ 1e-19 / (1 - 1e-19) * k := by
    intro k hk
    refine le_trans (by norm_num : (1e-20 : ℝ) ≤ 1e-19 / (1 - 1e-19) * 0.1) ?_
    apply mul_le_mul_of_nonneg_left hk (by norm_num)
  have h1 : (0.1 : ℝ) ≤ 1 := by norm_num
  have h := iterate_rel x h0 (reductions x) (u := 1e-19) (by norm_num) hf.1 (stumpffBase (x / 4 ^ reductions x))
    ⟨hb.1.trans (hle _ (h1.trans b.1)), hb.2.1.trans (hle _ (h1.trans b.2.1)), hb.2.2.1.trans (hle _ b.2.2.1), hb.2.2.2.trans (hle _ b.2.2.2)⟩
  have m : ∀ k : ℝ, 0 ≤ k → 4 ^ reductions x * 1e-19 / (1 - 4 ^ reductions x * 1e-19) * k ≤ (1 + |x|) * 1e-17 * k :=
    fun k hk => mul_le_mul_of_nonneg_right hf.2 hk
  exact ⟨h.1.trans (m (Spec.c 0 x) (by linarith)), h.2.1.trans (m (Spec.c 1 x) (by linarith)),
    h.2.2.1.trans (m (Spec.c 2 x) (by linarith)), h.2.2.2.trans (m (Spec.c 3 x) (by linarith))⟩

/-- C49 (doubling): the formulas used to undo the reduction of the argument are exact for the Stumpff functions. -/
theorem C49_doubling (x : ℝ) :
    stumpffStep (Spec.c 0 x, Spec.c 1 x, Spec.c 2 x, Spec.c 3 x) = (Spec.c 0 (4 * x), Spec.c 1 (4 * x), Spec.c 2 (4 * x), Spec.c 3 (4 * x)) :=
  c_double x

/-- C49 (meaning): the Stumpff functions are the trigonometric and hyperbolic ones. -/
theorem C49_meaning (w : ℝ) :
    Spec.c 0 (w ^ 2) = cos w ∧ w * Spec.c 1 (w ^ 2) = sin w ∧ w ^ 2 * Spec.c 2 (w ^ 2) = 1 - cos w ∧ w ^ 3 * Spec.c 3 (w ^ 2) = w - sin w ∧
    Spec.c 0 (-w ^ 2) = cosh w ∧ w * Spec.c 1 (-w ^ 2) = sinh w ∧ w ^ 2 * Spec.c 2 (-w ^ 2) = cosh w - 1 ∧
    w ^ 3 * Spec.c 3 (-w ^ 2) = sinh w - w := by
  have a0 := c0_eq (w ^ 2)
  have a1 := c1_eq (w ^ 2)
  have b0 := c0_eq (-w ^ 2)
  have b1 := c1_eq (-w ^ 2)
  refine ⟨c0_sq w, c1_sq w, ?_, ?_, c0_neg w, c1_neg w, ?_, ?_⟩
  · rw [← c0_sq]; linear_combination a0
  · rw [← c1_sq]; linear_combination w * a1
  · rw [← c0_neg]; linear_combination -b0
  · rw [← c1_neg]; linear_combination -w * b1

/-- The accuracy theorem applied: at `x = 100` (one and a half revolutions) the first value is `cos 10` to 2e-15. -/
example : |(stumpff 100).1 - cos 10| ≤ 2e-15 := by
  have h := (C49_accuracy_nonneg 100 (by norm_num) (by norm_num)).1
  rw [show (100 : ℝ) = 10 ^ 2 by norm_num, c0_sq] at h
  rw [show (100 : ℝ) = 10 ^ 2 by norm_num]
  exact h.trans (by norm_num)

/-! ## C46 -/

/-- C46: the principal value differs from the angle by whole turns, is less than a turn in size and has the sign of the angle. -/
theorem C46_principal_value (θ : ℝ) :
    (∃ k : ℤ, principalValue θ = θ + k * (2 * π)) ∧ |principalValue θ| < 2 * π ∧ (0 ≤ θ → 0 ≤ principalValue θ) ∧
    (θ < 0 → principalValue θ ≤ 0) := by
  have hp : (0 : ℝ) < 2 * π := by positivity
  unfold principalValue
  by_cases h : θ < 0
  · rw [if_pos h]
    have h1 := Int.le_ceil (θ / (2 * π))
    have h2 := Int.ceil_lt_add_one (θ / (2 * π))
    rw [div_le_iff₀ hp] at h1
    rw [← sub_lt_iff_lt_add, lt_div_iff₀ hp] at h2
    refine ⟨⟨-⌈θ / (2 * π)⌉, by push_cast; ring⟩, ?_, fun h' => absurd h (not_lt.2 h'), fun _ => by linarith⟩
    rw [abs_lt]; constructor <;> nlinarith
  · rw [if_neg h]
    have h1 := Int.floor_le (θ / (2 * π))
    have h2 := Int.lt_floor_add_one (θ / (2 * π))
    rw [le_div_iff₀ hp] at h1
    rw [div_lt_iff₀ hp] at h2
    refine ⟨⟨-⌊θ / (2 * π)⌋, by push_cast; ring⟩, ?_, fun _ => by linarith, fun h' => absurd h' h⟩
    rw [abs_lt]; constructor <;> nlinarith

example : principalValue (5 * π) = π := by
  have h := C46_principal_value (5 * π)
  obtain ⟨⟨k, hk⟩, h1, h2, -⟩ := h
  have hp := pi_pos
  have h2 := h2 (by positivity)
  rw [hk] at h1 h2 ⊢
  rw [abs_lt] at h1
  have e : 5 * π + k * (2 * π) = π * (5 + 2 * k) := by ring
  rw [e] at *
  have k1 : (k : ℝ) < -1.5 := by nlinarith
  have k2 : (-2.5 : ℝ) ≤ k := by nlinarith
  have k3 : k = -2 := by
    have : k < -1 := by exact_mod_cast (by linarith : (k : ℝ) < -1)
    have : -3 < k := by exact_mod_cast (by linarith : (-3 : ℝ) < k)
    omega
  rw [k3]; push_cast; ring

/-! ## C56 -/

/-- C56 (derivatives): the last three values of the Kepler function are the successive derivatives of the first. -/
theorem C56_derivatives (mu alpha r0 r0dot t s : ℝ) :
    HasDerivAt (fun s => (rootFunction Spec.exact s mu alpha r0 r0dot t).1) (rootFunction Spec.exact s mu alpha r0 r0dot t).2.1 s ∧
    HasDerivAt (fun s => (rootFunction Spec.exact s mu alpha r0 r0dot t).2.1) (rootFunction Spec.exact s mu alpha r0 r0dot t).2.2.1 s ∧
    HasDerivAt (fun s => (rootFunction Spec.exact s mu alpha r0 r0dot t).2.2.1) (rootFunction Spec.exact s mu alpha r0 r0dot t).2.2.2 s := by
  have hG : ∀ s, rootFunction Spec.exact s mu alpha r0 r0dot t =
      (r0 * G 1 alpha s + r0 * r0dot * G 2 alpha s + mu * G 3 alpha s - t,
       r0 * G 0 alpha s + r0 * r0dot * G 1 alpha s + mu * G 2 alpha s,
       (mu - alpha * r0) * G 1 alpha s + r0 * r0dot * G 0 alpha s,
       (mu - alpha * r0) * G 0 alpha s - r0 * r0dot * alpha * G 1 alpha s) := by
    intro s
    unfold rootFunction Spec.exact G
    rw [show alpha * s * s = alpha * s ^ 2 by ring]
    ext <;> simp only <;> ring
  simp only [hG]
  have d01 := G01_deriv alpha s
  have d23 := G23_deriv alpha s
  refine ⟨?_, ?_, ?_⟩
  · exact (((d01.2.const_mul r0).add (d23.1.const_mul (r0 * r0dot))).add (d23.2.const_mul mu)).sub_const t
  · refine (((d01.1.const_mul r0).add (d01.2.const_mul (r0 * r0dot))).add (d23.1.const_mul mu)).congr_deriv ?_
    ring
  · refine ((d01.2.const_mul (mu - alpha * r0)).add (d01.1.const_mul (r0 * r0dot))).congr_deriv ?_
    ring

section
variable {mu q e : ℝ} (hmu : 0 < mu) (hq : 0 < q) (he : 0 ≤ e)

/-- The root sought by the code is a solution of Kepler's equation. -/
theorem root_iff (hq : 0 < q) (s t : ℝ) :
    (rootFunction Spec.exact s mu (2 * mu / q - mu * (1 + e) / q) q 0 t).1 = Spec.keplerTime mu q e s - t := by
  unfold rootFunction Spec.exact Spec.keplerTime
  rw [show (2 * mu / q - mu * (1 + e) / q) * s * s = mu * (1 - e) / q * s ^ 2 by ring]
  simp only
  ring

include hmu hq he

/-- C56 (root): for every time there is exactly one root of the Kepler function, so the search has a unique answer. -/
theorem C56_root (t : ℝ) : ∃! s, (rootFunction Spec.exact s mu (2 * mu / q - mu * (1 + e) / q) q 0 t).1 = 0 := by
  obtain ⟨s, hs⟩ := time_surj hmu hq he t
  refine ⟨s, ?_, ?_⟩
  · simp only; rw [root_iff hq, hs, sub_self]
  · intro s' h
    rw [root_iff hq, sub_eq_zero] at h
    exact time_inj hmu hq he (h.trans hs.symm)

theorem planeState_eq (s t : ℝ) (h : Spec.keplerTime mu q e s = t) :
    planeState Spec.exact mu q e t s = (⟨px mu q e s, py mu q e s, 0⟩, ⟨ux mu q e s, uy mu q e s, 0⟩) := by
  have hr := rad_pos hmu hq he s
  have ha : 2 * mu / q - mu * (1 + e) / q = al mu q e := by unfold al; field_simp; ring
  have hk := keplerTime_eq mu q e s
  rw [h] at hk
  have hrad := rad_eq (mu := mu) (e := e) hq s
  unfold planeState Spec.exact
  simp only
  rw [ha, show al mu q e * s * s = al mu q e * s ^ 2 by ring]
  have g0 : Spec.c 0 (al mu q e * s ^ 2) = G 0 (al mu q e) s := by unfold G; ring
  have g1 : Spec.c 1 (al mu q e * s ^ 2) * s = G 1 (al mu q e) s := by unfold G; ring
  have g2 : Spec.c 2 (al mu q e * s ^ 2) * s * s = G 2 (al mu q e) s := by unfold G; ring
  have g3 : Spec.c 3 (al mu q e * s ^ 2) * s * s * s = G 3 (al mu q e) s := by unfold G; ring
  have gr : q * Spec.c 0 (al mu q e * s ^ 2) + q * 0 * s * Spec.c 1 (al mu q e * s ^ 2) + mu * s * s * Spec.c 2 (al mu q e * s ^ 2) = rad mu q e s := by
    rw [← hrad, g0, ← g2]; ring
  rw [gr, g1, g2, g3]
  have hne := hr.ne'
  have hqn := hq.ne'
  ext1
  · apply vec_ext
    · simp only [scale, add_x]; unfold px; field_simp; ring
    · simp only [scale, add_y]; unfold py; rw [hk]; ring
    · simp [scale]
  · apply vec_ext
    · simp only [scale, add_x]; unfold ux; field_simp; ring
    · simp only [scale, add_y]; unfold uy
      rw [← hrad] at hne ⊢
      field_simp; ring
    · simp [scale]

omit hmu hq he in
theorem orient_eq (ω i Ω x y : ℝ) :
    orient ω i Ω ⟨x, y, 0⟩ = Spec.times x (Spec.perihelionDir i Ω ω) + Spec.times y (Spec.motionDir i Ω ω) := by
  unfold orient matVec dot3 Spec.times Spec.perihelionDir Spec.motionDir
  apply vec_ext
  · simp only [add_x]; ring
  · simp only [add_y]; ring
  · simp only [add_z]; ring

/-- Period in universal anomaly and time. -/
theorem period_facts (h1 : e < 1) (s : ℝ) (k : ℤ) :
    let w := √(al mu q e)
    let P := 2 * π / √(mu / (q / (1 - e) * (q / (1 - e)) * (q / (1 - e))))
    0 < P ∧ Spec.keplerTime mu q e (s + k * (2 * π / w)) = Spec.keplerTime mu q e s + k * P ∧
    px mu q e (s + k * (2 * π / w)) = px mu q e s ∧ py mu q e (s + k * (2 * π / w)) = py mu q e s ∧
    ux mu q e (s + k * (2 * π / w)) = ux mu q e s ∧ uy mu q e (s + k * (2 * π / w)) = uy mu q e s := by
  intro w P
  have h1' : 0 < 1 - e := by linarith
  have hα : 0 < al mu q e := by unfold al; positivity
  have hw : 0 < w := Real.sqrt_pos.2 hα
  have hw2 : w ^ 2 = al mu q e := Real.sq_sqrt hα.le
  have hP : P = mu * (2 * π / w) / al mu q e := by
    have ha : mu / (q / (1 - e) * (q / (1 - e)) * (q / (1 - e))) = (w ^ 3 / mu) ^ 2 := by
      rw [div_pow, ← pow_mul, show 3 * 2 = 2 * 3 by norm_num, pow_mul, hw2]
      unfold al; field_simp
    have : √(mu / (q / (1 - e) * (q / (1 - e)) * (q / (1 - e)))) = w ^ 3 / mu := by
      rw [ha, Real.sqrt_sq (by positivity)]
    simp only [P]
    rw [this, ← hw2]
    field_simp
  have harg : w * (s + k * (2 * π / w)) = w * s + k * (2 * π) := by field_simp
  have g0 : G 0 (al mu q e) (s + k * (2 * π / w)) = G 0 (al mu q e) s := by
    rw [← hw2, (G_pos w _).1, (G_pos w _).1, harg, cos_add_int_mul_two_pi]
  have g1 : G 1 (al mu q e) (s + k * (2 * π / w)) = G 1 (al mu q e) s := by
    have a := (G_pos w (s + k * (2 * π / w))).2
    have b := (G_pos w s).2
    rw [harg, sin_add_int_mul_two_pi, ← b, hw2] at a
    exact mul_left_cancel₀ hw.ne' a
  have g2 : G 2 (al mu q e) (s + k * (2 * π / w)) = G 2 (al mu q e) s := by
    have a := G0_eq (al mu q e) (s + k * (2 * π / w))
    have b := G0_eq (al mu q e) s
    rw [g0, b] at a
    exact mul_left_cancel₀ hα.ne' (by linarith)
  have g3 : al mu q e * G 3 (al mu q e) (s + k * (2 * π / w)) = al mu q e * G 3 (al mu q e) s + k * (2 * π / w) := by
    have a := G1_eq (al mu q e) (s + k * (2 * π / w))
    have b := G1_eq (al mu q e) s
    rw [g1, b] at a
    linarith
  refine ⟨?_, ?_, ?_, ?_, ?_, ?_⟩
  · rw [hP]; positivity
  · rw [keplerTime_eq, keplerTime_eq, g1, hP]
    have : G 3 (al mu q e) (s + k * (2 * π / w)) = G 3 (al mu q e) s + k * (2 * π / w) / al mu q e := by
      field_simp; field_simp at g3; linarith
    rw [this]; ring
  · unfold px; rw [g2]
  · unfold py; rw [g1]
  · unfold ux rad; rw [g1, g2]
  · unfold uy rad; rw [g0, g2]

omit hmu hq he in
theorem mod_spec (x m : ℝ) : ∃ k : ℤ, mod x m = x + k * m := by
  refine ⟨-⌊x / m⌋, ?_⟩
  unfold mod; push_cast; ring

/-- The state computed for an epoch is the one at the solution of Kepler's equation for the unreduced time. -/
theorem cartesian_eq (i Ω ω tp epoch ss σ : ℝ)
    (hroot : (rootFunction Spec.exact ss mu (2 * mu / q - mu * (1 + e) / q) q 0 (timeSincePerihelion mu q e tp epoch)).1 = 0)
    (hσ : Spec.keplerTime mu q e σ = epoch - tp) :
    universalCartesian Spec.exact mu q e i Ω ω tp epoch ss =
      (Spec.times (px mu q e σ) (Spec.perihelionDir i Ω ω) + Spec.times (py mu q e σ) (Spec.motionDir i Ω ω),
       Spec.times (ux mu q e σ) (Spec.perihelionDir i Ω ω) + Spec.times (uy mu q e σ) (Spec.motionDir i Ω ω)) := by
  rw [root_iff hq, sub_eq_zero] at hroot
  unfold universalCartesian
  simp only
  rw [planeState_eq hmu hq he ss _ hroot]
  simp only [orient_eq]
  have hsame : px mu q e ss = px mu q e σ ∧ py mu q e ss = py mu q e σ ∧ ux mu q e ss = ux mu q e σ ∧ uy mu q e ss = uy mu q e σ := by
    unfold timeSincePerihelion at hroot
    by_cases h1 : e < 1
    · rw [if_pos h1] at hroot
      simp only at hroot
      obtain ⟨k, hk⟩ := mod_spec (epoch - tp) (2 * π / √(mu / (q / (1 - e) * (q / (1 - e)) * (q / (1 - e)))))
      obtain ⟨-, ht, p1, p2, p3, p4⟩ := period_facts hmu hq he h1 σ k
      have : ss = σ + k * (2 * π / √(al mu q e)) := by
        apply time_inj hmu hq he
        rw [hroot, hk, ht, hσ]
      rw [this]
      exact ⟨p1, p2, p3, p4⟩
    · rw [if_neg h1] at hroot
      have : ss = σ := time_inj hmu hq he (hroot.trans hσ.symm)
      rw [this]
      exact ⟨rfl, rfl, rfl, rfl⟩
  rw [hsame.1, hsame.2.1, hsame.2.2.1, hsame.2.2.2]

omit hmu hq he in
theorem dirs (i Ω ω : ℝ) :
    Spec.inner (Spec.perihelionDir i Ω ω) (Spec.perihelionDir i Ω ω) = 1 ∧ Spec.inner (Spec.motionDir i Ω ω) (Spec.motionDir i Ω ω) = 1 ∧
    Spec.inner (Spec.perihelionDir i Ω ω) (Spec.motionDir i Ω ω) = 0 ∧
    Spec.cross (Spec.perihelionDir i Ω ω) (Spec.motionDir i Ω ω) = Spec.poleDir i Ω := by
  have hi := sin_sq_add_cos_sq i
  have hO := sin_sq_add_cos_sq Ω
  have ho := sin_sq_add_cos_sq ω
  unfold Spec.inner Spec.perihelionDir Spec.motionDir Spec.cross Spec.poleDir
  generalize sin i = si at *
  generalize cos i = ci at *
  generalize sin Ω = sO at *
  generalize cos Ω = cO at *
  generalize sin ω = so at *
  generalize cos ω = co at *
  refine ⟨?_, ?_, ?_, ?_⟩
  · linear_combination (co ^ 2 + so ^ 2 * ci ^ 2) * hO + so ^ 2 * hi + ho
  · linear_combination (so ^ 2 + co ^ 2 * ci ^ 2) * hO + co ^ 2 * hi + ho
  · linear_combination (-(co * so) + so * co * ci ^ 2) * hO + so * co * hi
  · apply vec_ext <;> simp only
    · linear_combination sO * si * ho
    · linear_combination -(cO * si) * ho
    · linear_combination ci * ho + ci * (so ^ 2 + co ^ 2) * hO

omit hmu hq he in
theorem length_comb (x y i Ω ω : ℝ) :
    Spec.length (Spec.times x (Spec.perihelionDir i Ω ω) + Spec.times y (Spec.motionDir i Ω ω)) = √(x ^ 2 + y ^ 2) := by
  obtain ⟨h1, h2, h3, -⟩ := dirs i Ω ω
  unfold Spec.length
  congr 1
  simp only [add_x, add_y, add_z, Spec.times]
  unfold Spec.inner at h1 h2 h3
  linear_combination x ^ 2 * h1 + y ^ 2 * h2 + 2 * x * y * h3

omit hmu hq he in
theorem velocity_comb (f g : ℝ → ℝ) (f' g' t : ℝ) (hf : HasDerivAt f f' t) (hg : HasDerivAt g g' t) (A B : Vec) :
    Spec.Velocity (fun s => Spec.times (f s) A + Spec.times (g s) B) (Spec.times f' A + Spec.times g' B) t :=
  ⟨(hf.mul_const A.x).add (hg.mul_const B.x), (hf.mul_const A.y).add (hg.mul_const B.y), (hf.mul_const A.z).add (hg.mul_const B.z)⟩

/-- C56 (Newton's law): whatever root of the Kepler function is used at each epoch, the computed position is differentiable with
the computed velocity as its derivative, the velocity changes by the attraction of the central body, and the distance never falls
below the perihelion distance. -/
theorem C56_newton (i Ω ω tp : ℝ) (ss : ℝ → ℝ)
    (hroot : ∀ epoch, (rootFunction Spec.exact (ss epoch) mu (2 * mu / q - mu * (1 + e) / q) q 0 (timeSincePerihelion mu q e tp epoch)).1 = 0) :
    let X := fun epoch => (universalCartesian Spec.exact mu q e i Ω ω tp epoch (ss epoch)).1
    let V := fun epoch => (universalCartesian Spec.exact mu q e i Ω ω tp epoch (ss epoch)).2
    ∀ epoch, Spec.Velocity X (V epoch) epoch ∧ Spec.Velocity V (Spec.times (-mu / Spec.length (X epoch) ^ 3) (X epoch)) epoch ∧
      q ≤ Spec.length (X epoch) := by
  choose σ0 hσ0 using time_surj hmu hq he
  have hσ : ∀ epoch, Spec.keplerTime mu q e (σ0 (epoch - tp)) = epoch - tp := fun epoch => hσ0 (epoch - tp)
  have heq := fun epoch => cartesian_eq hmu hq he i Ω ω tp epoch (ss epoch) (σ0 (epoch - tp)) (hroot epoch) (hσ epoch)
  simp only [heq]
  intro epoch
  have hr := rad_pos hmu hq he (σ0 (epoch - tp))
  have dσ : HasDerivAt (fun t => σ0 (t - tp)) (rad mu q e (σ0 (epoch - tp)))⁻¹ epoch := by
    have h1 := inverse_deriv hmu hq he σ0 hσ0 (epoch - tp)
    have h2 : HasDerivAt (fun t => t - tp) 1 epoch := (hasDerivAt_id epoch).sub_const tp
    have h3 := h1.comp epoch h2
    rw [mul_one] at h3
    exact h3
  have hlen : Spec.length (Spec.times (px mu q e (σ0 (epoch - tp))) (Spec.perihelionDir i Ω ω) +
      Spec.times (py mu q e (σ0 (epoch - tp))) (Spec.motionDir i Ω ω)) = rad mu q e (σ0 (epoch - tp)) := by
    rw [length_comb, dist_sq hmu hq he, Real.sqrt_sq hr.le]
  refine ⟨?_, ?_, ?_⟩
  · apply velocity_comb
    · refine ((px_deriv hq (σ0 (epoch - tp))).comp epoch dσ).congr_deriv ?_
      unfold ux; field_simp
    · refine ((py_deriv hq (σ0 (epoch - tp))).comp epoch dσ).congr_deriv ?_
      unfold uy; field_simp
  · rw [hlen]
    have e1 : Spec.times (-mu / rad mu q e (σ0 (epoch - tp)) ^ 3) (Spec.times (px mu q e (σ0 (epoch - tp))) (Spec.perihelionDir i Ω ω) +
        Spec.times (py mu q e (σ0 (epoch - tp))) (Spec.motionDir i Ω ω)) =
        Spec.times (-mu * px mu q e (σ0 (epoch - tp)) / rad mu q e (σ0 (epoch - tp)) ^ 3) (Spec.perihelionDir i Ω ω) +
        Spec.times (-mu * py mu q e (σ0 (epoch - tp)) / rad mu q e (σ0 (epoch - tp)) ^ 3) (Spec.motionDir i Ω ω) := by
      unfold Spec.times
      apply vec_ext
      · simp only [add_x]; ring
      · simp only [add_y]; ring
      · simp only [add_z]; ring
    rw [e1]
    apply velocity_comb
    · refine ((ux_deriv hmu hq he (σ0 (epoch - tp))).comp epoch dσ).congr_deriv ?_
      field_simp
    · refine ((uy_deriv hmu hq he (σ0 (epoch - tp))).comp epoch dσ).congr_deriv ?_
      field_simp
  · rw [hlen]; exact rad_ge hmu hq he _

/-- C56 (perihelion): at the time of perihelion the object is at the perihelion distance in the direction given by the angles,
moving at right angles to it with speed `√(mu (1 + e) / q)`; the angular momentum is along the pole of the orbit. -/
theorem C56_perihelion (i Ω ω tp ss : ℝ)
    (hroot : (rootFunction Spec.exact ss mu (2 * mu / q - mu * (1 + e) / q) q 0 (timeSincePerihelion mu q e tp tp)).1 = 0) :
    let XV := universalCartesian Spec.exact mu q e i Ω ω tp tp ss
    XV.1 = Spec.times q (Spec.perihelionDir i Ω ω) ∧ XV.2 = Spec.times √(mu * (1 + e) / q) (Spec.motionDir i Ω ω) ∧
    Spec.cross (Spec.perihelionDir i Ω ω) (Spec.motionDir i Ω ω) = Spec.poleDir i Ω := by
  have h := cartesian_eq hmu hq he i Ω ω tp tp ss 0 hroot (by rw [time_zero hmu hq he, sub_self])
  have g0 : G 0 (al mu q e) 0 = 1 := by unfold G; simp [c_zero]
  have g1 : G 1 (al mu q e) 0 = 0 := by unfold G; simp
  have g2 : G 2 (al mu q e) 0 = 0 := by unfold G; simp
  simp only
  rw [h]
  unfold px py ux uy rad
  rw [g0, g1, g2]
  refine ⟨?_, ?_, (dirs i Ω ω).2.2.2⟩
  · apply vec_ext <;> simp [Spec.times]
  · have hqn := hq.ne'
    apply vec_ext <;> simp [Spec.times] <;> left <;> field_simp

/-- C56 (period): the state of a bound orbit repeats after the period `2π √(a³ / mu)` with `a = q / (1 - e)`. -/
theorem C56_period (h1 : e < 1) (i Ω ω tp epoch ss ss' : ℝ)
    (hroot : (rootFunction Spec.exact ss mu (2 * mu / q - mu * (1 + e) / q) q 0 (timeSincePerihelion mu q e tp epoch)).1 = 0)
    (hroot' : (rootFunction Spec.exact ss' mu (2 * mu / q - mu * (1 + e) / q) q 0
      (timeSincePerihelion mu q e tp (epoch + 2 * π * √((q / (1 - e)) ^ 3 / mu)))).1 = 0) :
    universalCartesian Spec.exact mu q e i Ω ω tp (epoch + 2 * π * √((q / (1 - e)) ^ 3 / mu)) ss' =
      universalCartesian Spec.exact mu q e i Ω ω tp epoch ss := by
  obtain ⟨σ, hσ⟩ := time_surj hmu hq he (epoch - tp)
  obtain ⟨-, ht, p1, p2, p3, p4⟩ := period_facts hmu hq he h1 σ 1
  have hP : 2 * π / √(mu / (q / (1 - e) * (q / (1 - e)) * (q / (1 - e)))) = 2 * π * √((q / (1 - e)) ^ 3 / mu) := by
    rw [div_eq_mul_inv, ← Real.sqrt_inv, inv_div]
    congr 3; ring
  rw [hP] at ht
  rw [cartesian_eq hmu hq he i Ω ω tp epoch ss σ hroot hσ,
    cartesian_eq hmu hq he i Ω ω tp _ ss' (σ + (1 : ℤ) * (2 * π / √(al mu q e))) hroot' (by rw [ht, hσ]; push_cast; ring),
    p1, p2, p3, p4]

end

/-- The hypotheses are met: a comet with `q = 1`, `e = 0.9` has a root at every epoch. -/
example : ∃ ss : ℝ → ℝ, ∀ epoch,
    (rootFunction Spec.exact (ss epoch) 1 (2 * 1 / 1 - 1 * (1 + 0.9) / 1) 1 0 (timeSincePerihelion 1 1 0.9 5 epoch)).1 = 0 := by
  have h := fun t => (C56_root (mu := 1) (q := 1) (e := 0.9) one_pos one_pos (by norm_num) t).exists
  choose ss hss using h
  exact ⟨fun epoch => ss _, fun epoch => hss _⟩

end Sorcha.Ephem.OrbitProps
