import Verif.Ephem.OrbitProps
import Mathlib.Analysis.SpecialFunctions.Complex.Arg

/-!
# Property C47: orbital elements from a state vector
-/

namespace Sorcha.Ephem.ElementsProps
open Sorcha.Photom Sorcha.Geom Sorcha.Ephem Sorcha.Ephem.Props Sorcha.Ephem.OrbitProps Real

theorem cross3_eq (a b : Vec) : cross3 a b = Spec.cross a b := rfl
theorem dot3_eq (a b : Vec) : dot3 a b = Spec.inner a b := rfl
theorem norm3_len (a : Vec) : norm3 a = Spec.length a := by rw [norm3_eq]

theorem lagrange_identity (a b : Vec) :
    Spec.inner (Spec.cross a b) (Spec.cross a b) = Spec.inner a a * Spec.inner b b - Spec.inner a b ^ 2 := by
  unfold Spec.inner Spec.cross; ring

theorem length_sq (a : Vec) : Spec.length a ^ 2 = Spec.inner a a := by
  unfold Spec.length Spec.inner
  rw [Real.sq_sqrt (by positivity)]; ring

theorem inner_self_nonneg (a : Vec) : 0 ≤ Spec.inner a a := by rw [← length_sq]; positivity

/-- C47 (conic): for every position away from the origin, every velocity and every mass: the eccentricity is not negative, the
semi-latus rectum `q (1 + e)` is the squared angular momentum over `mu`, the energy relation `1 - e² = q (1 + e) α / mu` holds with
`α = 2 mu / r - v²` (so `q = a (1 - e)` with `a = mu / α` unless the orbit is parabolic), and the perihelion is not farther than the
object. `e` is the value before it is set to 1 within 1e-15. -/
theorem C47_conic (mu : ℝ) (hmu : 0 < mu) (pos vel : Vec) (hr : 0 < Spec.length pos) :
    let q := (shape mu pos vel).2.2.2.1
    let e := (shape mu pos vel).2.2.1
    let α := 2 * mu / Spec.length pos - Spec.length vel ^ 2
    0 ≤ e ∧ 0 ≤ q ∧ q ≤ Spec.length pos ∧ q * (1 + e) = Spec.length (Spec.cross pos vel) ^ 2 / mu ∧ 1 - e ^ 2 = q * (1 + e) * α / mu ∧
    (α ≠ 0 → Spec.cross pos vel ≠ ⟨0, 0, 0⟩ → q = mu / α * (1 - e)) := by
  set r := Spec.length pos with hrdef
  have hL := lagrange_identity pos vel
  have hr2 := length_sq pos
  rw [← hrdef] at hr2
  unfold shape
  simp only [cross3_eq, dot3_eq, norm3_len, ← hrdef]
  set hs := Spec.inner (Spec.cross pos vel) (Spec.cross pos vel) with hhs
  have hs0 : 0 ≤ hs := inner_self_nonneg _
  set rv := Spec.inner pos vel with hrv
  have hv2 := length_sq vel
  set v2 := Spec.inner vel vel with hv2d
  have hsq : √hs ^ 2 = hs := Real.sq_sqrt hs0
  set e := √((hs / mu / r - 1) * (hs / mu / r - 1) + rv / r * √hs / mu * (rv / r * √hs / mu)) with he
  have he0 : 0 ≤ e := Real.sqrt_nonneg _
  have he2 : e ^ 2 = (hs / mu / r - 1) * (hs / mu / r - 1) + rv / r * √hs / mu * (rv / r * √hs / mu) :=
    Real.sq_sqrt (by have := mul_self_nonneg (hs / mu / r - 1); have := mul_self_nonneg (rv / r * √hs / mu); linarith)
  have hp0 : 0 ≤ hs / mu := by positivity
  have hq : hs / mu / (1 + e) * (1 + e) = hs / mu := by field_simp
  have hlen : Spec.length (Spec.cross pos vel) ^ 2 = hs := length_sq _
  have hen : 1 - e ^ 2 = hs / mu * (2 * mu / r - v2) / mu := by
    rw [he2, show rv / r * √hs / mu * (rv / r * √hs / mu) = rv ^ 2 * √hs ^ 2 / (r ^ 2 * mu ^ 2) by field_simp, hsq]
    have : rv ^ 2 = r ^ 2 * v2 - hs := by rw [hr2]; linarith
    rw [this]
    field_simp
    ring
  have hcos : hs / mu / r - 1 ≤ e := by
    rw [he]
    apply Real.le_sqrt_of_sq_le
    have := mul_self_nonneg (rv / r * √hs / mu)
    nlinarith
  refine ⟨he0, by positivity, ?_, by rw [hq, hlen], by rw [hq, hv2, hen], ?_⟩
  · rw [div_le_iff₀ (by positivity)]
    have : hs / mu / r ≤ 1 + e := by linarith
    rwa [div_le_iff₀ hr, mul_comm] at this
  · intro hα hc
    rw [hv2] at hα ⊢
    have hpos : 0 < hs := by
      apply lt_of_le_of_ne hs0
      intro h0
      apply hc
      have h00 : hs = 0 := h0.symm
      rw [hhs] at h00
      unfold Spec.inner at h00
      have hx := mul_self_nonneg (Spec.cross pos vel).x
      have hy := mul_self_nonneg (Spec.cross pos vel).y
      have hz := mul_self_nonneg (Spec.cross pos vel).z
      apply vec_ext
      · exact mul_self_eq_zero.1 (by linarith)
      · exact mul_self_eq_zero.1 (by linarith)
      · exact mul_self_eq_zero.1 (by linarith)
    have h1 : 1 + e ≠ 0 := by positivity
    have e3 : (1 - e) * (1 + e) = hs / mu * (2 * mu / r - v2) / mu := by rw [← hen]; ring
    have e4 : 1 - e = hs / mu * (2 * mu / r - v2) / mu / (1 + e) := by rw [← e3]; field_simp
    rw [e4]
    generalize 2 * mu / r - v2 = α at hα
    field_simp

/-! ## From elements to a state and back -/

section
variable {mu q e : ℝ} (hmu : 0 < mu) (hq : 0 < q) (he : 0 ≤ e)
include hmu hq he

/-- Angular momentum. -/
theorem ang (s : ℝ) : px mu q e s * uy mu q e s - py mu q e s * ux mu q e s = q * √(mu * (1 + e) / q) := by
  have hr := (rad_pos hmu hq he s).ne'
  have hα : al mu q e * q = mu * (1 - e) := by unfold al; field_simp
  have key : (q - mu * G 2 (al mu q e) s) * G 0 (al mu q e) s + mu * G 1 (al mu q e) s ^ 2 = rad mu q e s := by
    rw [G1_sq, G0_eq]; unfold rad
    linear_combination -G 2 (al mu q e) s * hα
  unfold px py ux uy
  rw [← key] at hr ⊢
  field_simp
  try ring

theorem radial (s : ℝ) : px mu q e s * ux mu q e s + py mu q e s * uy mu q e s = mu * e * G 1 (al mu q e) s := by
  have hr := (rad_pos hmu hq he s).ne'
  have hα : al mu q e * q = mu * (1 - e) := by unfold al; field_simp
  have h2 : √(mu * (1 + e) / q) ^ 2 = mu * (1 + e) / q := Real.sq_sqrt (by positivity)
  have key : px mu q e s * (-mu * G 1 (al mu q e) s) + py mu q e s * (q * √(mu * (1 + e) / q) * G 0 (al mu q e) s) =
      mu * e * G 1 (al mu q e) s * rad mu q e s := by
    unfold px py rad
    have e1 : q * √(mu * (1 + e) / q) * G 1 (al mu q e) s * (q * √(mu * (1 + e) / q) * G 0 (al mu q e) s) =
        q * (mu * (1 + e)) * G 1 (al mu q e) s * G 0 (al mu q e) s := by
      have : q ^ 2 * √(mu * (1 + e) / q) ^ 2 = q * (mu * (1 + e)) := by rw [h2]; field_simp
      linear_combination G 1 (al mu q e) s * G 0 (al mu q e) s * this
    rw [e1, G0_eq]
    linear_combination -mu * (1 + e) * G 1 (al mu q e) s * G 2 (al mu q e) s * hα
  unfold ux uy
  field_simp
  linear_combination key

theorem visviva (s : ℝ) : 2 * mu / rad mu q e s - (ux mu q e s ^ 2 + uy mu q e s ^ 2) = al mu q e := by
  have hr := (rad_pos hmu hq he s).ne'
  have hα : al mu q e * q = mu * (1 - e) := by unfold al; field_simp
  have h2 : √(mu * (1 + e) / q) ^ 2 = mu * (1 + e) / q := Real.sq_sqrt (by positivity)
  have e1 : ux mu q e s ^ 2 + uy mu q e s ^ 2 = (mu ^ 2 * G 1 (al mu q e) s ^ 2 + q * (mu * (1 + e)) * G 0 (al mu q e) s ^ 2) / rad mu q e s ^ 2 := by
    unfold ux uy
    rw [div_pow, div_pow, mul_pow, mul_pow, mul_pow, h2, ← add_div]
    congr 1
    field_simp
  rw [e1, G1_sq]
  have key : 2 * mu * rad mu q e s - (mu ^ 2 * (2 * G 2 (al mu q e) s - al mu q e * G 2 (al mu q e) s ^ 2) +
      q * (mu * (1 + e)) * G 0 (al mu q e) s ^ 2) = al mu q e * rad mu q e s ^ 2 := by
    rw [G0_eq]; unfold rad
    linear_combination (2 * mu * (1 + e) * G 2 (al mu q e) s - al mu q e * mu * (1 + e) * G 2 (al mu q e) s ^ 2 - q - 2 * mu * e * G 2 (al mu q e) s) * hα
  field_simp
  linear_combination key

theorem halfsum (s : ℝ) : rad mu q e s + px mu q e s = q * (1 + G 0 (al mu q e) s) := by
  have hα : al mu q e * q = mu * (1 - e) := by unfold al; field_simp
  rw [G0_eq]; unfold rad px
  linear_combination G 2 (al mu q e) s * hα

end

theorem arctan2_of {R θ x y : ℝ} (hR : 0 < R) (hx : x = R * cos θ) (hy : y = R * sin θ) : ∃ k : ℤ, arctan2 y x = θ + k * (2 * π) := by
  have h := Complex.arg_mul_cos_add_sin_mul_I_eq_toIocMod hR θ
  have e : (⟨x, y⟩ : ℂ) = R * (Complex.cos θ + Complex.sin θ * Complex.I) := by
    rw [hx, hy, ← Complex.ofReal_cos, ← Complex.ofReal_sin]
    generalize cos θ = c
    generalize sin θ = s
    apply Complex.ext <;> simp
  unfold arctan2
  rw [e, h]
  refine ⟨-toIocDiv two_pi_pos (-π) θ, ?_⟩
  unfold toIocMod
  rw [zsmul_eq_mul]
  push_cast
  ring

theorem arctan2_range (x y : ℝ) (hy : y ≠ 0) : -π < arctan2 y x ∧ arctan2 y x < π := by
  unfold arctan2
  refine ⟨Complex.neg_pi_lt_arg _, lt_of_le_of_ne (Complex.arg_le_pi _) ?_⟩
  intro h
  rw [Complex.arg_eq_pi_iff] at h
  exact hy h.2

/-- Half-angle of `arctan2`. -/
theorem tan_half {R x y : ℝ} (hR : 0 < R) (hxy : x ^ 2 + y ^ 2 = R ^ 2) (hy : y ≠ 0) : tan (arctan2 y x / 2) = y / (R + x) := by
  have hz : (⟨x, y⟩ : ℂ) ≠ 0 := fun h => hy (congrArg Complex.im h)
  have hn : ‖(⟨x, y⟩ : ℂ)‖ = R := by
    rw [Complex.norm_def, Complex.normSq_mk]
    rw [show x * x + y * y = R ^ 2 by rw [← hxy]; ring, Real.sqrt_sq hR.le]
  have hc : cos (arctan2 y x) = x / R := by unfold arctan2; rw [Complex.cos_arg hz, hn]
  have hs : sin (arctan2 y x) = y / R := by unfold arctan2; rw [Complex.sin_arg, hn]
  set ν := arctan2 y x with hν
  have h2 : sin ν = 2 * sin (ν / 2) * cos (ν / 2) := by rw [← sin_two_mul]; congr 1; ring
  have hcne : cos (ν / 2) ≠ 0 := by
    intro h0
    rw [h0, mul_zero] at h2
    rw [h2] at hs
    field_simp at hs
    exact hy (by linarith)
  rw [tan_eq_sin_div_cos]
  have h3 : R + x = 2 * R * cos (ν / 2) ^ 2 := by
    rw [cos_sq, show 2 * (ν / 2) = ν by ring, hc]; field_simp
  have h4 : y = R * (2 * sin (ν / 2) * cos (ν / 2)) := by rw [← h2, hs]; field_simp
  rw [h3, h4]
  field_simp

theorem two_arctan_tan (θ : ℝ) (h : sin θ ≠ 0) : ∃ k : ℤ, 2 * arctan (sin θ / (1 + cos θ)) = θ + k * (2 * π) := by
  have h2 : sin θ = 2 * sin (θ / 2) * cos (θ / 2) := by rw [← sin_two_mul]; congr 1; ring
  have hc : cos (θ / 2) ≠ 0 := by
    intro h0; rw [h0, mul_zero] at h2; exact h h2
  have h3 : 1 + cos θ = 2 * cos (θ / 2) ^ 2 := by rw [cos_sq, show 2 * (θ / 2) = θ by ring]; ring
  have h4 : sin θ / (1 + cos θ) = tan (θ / 2) := by
    rw [h3, h2, tan_eq_sin_div_cos]; field_simp
  rw [h4]
  -- an angle in (-π/2, π/2) with the same tangent
  obtain ⟨k, hk⟩ : ∃ k : ℤ, tan (θ / 2) = tan (θ / 2 + k * π) ∧ -(π / 2) < θ / 2 + k * π ∧ θ / 2 + k * π < π / 2 := by
    have hp := pi_pos
    refine ⟨-round (θ / 2 / π), ?_⟩
    have hr := abs_sub_round (θ / 2 / π)
    rw [abs_le] at hr
    have e : θ / 2 + ((-round (θ / 2 / π) : ℤ) : ℝ) * π = (θ / 2 / π - round (θ / 2 / π)) * π := by push_cast; field_simp; ring
    refine ⟨(tan_add_int_mul_pi _ _).symm, ?_, ?_⟩
    · apply lt_of_le_of_ne
      · rw [e]; nlinarith
      · intro heq
        apply hc
        have : θ / 2 = -(π / 2) - ((-round (θ / 2 / π) : ℤ) : ℝ) * π := by linarith
        rw [this, Real.cos_sub_int_mul_pi, cos_neg, cos_pi_div_two, mul_zero]
    · apply lt_of_le_of_ne
      · rw [e]; nlinarith
      · intro heq
        apply hc
        have : θ / 2 = π / 2 - ((-round (θ / 2 / π) : ℤ) : ℝ) * π := by linarith
        rw [this, Real.cos_sub_int_mul_pi, cos_pi_div_two, mul_zero]
  refine ⟨k, ?_⟩
  rw [hk.1, arctan_tan hk.2.1 hk.2.2]
  ring

theorem two_arctanh_tanh (y : ℝ) : 2 * arctanh (sinh y / (1 + cosh y)) = y := by
  have h1 := cosh_pos y
  unfold arctanh
  have h2 : 0 < 1 + cosh y := by linarith
  have e1 : (1 + sinh y / (1 + cosh y)) / (1 - sinh y / (1 + cosh y)) = exp y := by
    have ec := cosh_add_sinh y
    have es := cosh_sub_sinh y
    have hne : 1 + cosh y - sinh y ≠ 0 := by
      have : 0 < cosh y - sinh y := by rw [es]; exact exp_pos _
      linarith
    have e2 : (1 + sinh y / (1 + cosh y)) / (1 - sinh y / (1 + cosh y)) = (1 + cosh y + sinh y) / (1 + cosh y - sinh y) := by
      field_simp
    rw [e2, div_eq_iff hne]
    have hm : exp y * exp (-y) = 1 := by rw [← exp_add]; simp
    rw [show 1 + cosh y + sinh y = 1 + (cosh y + sinh y) by ring, show 1 + cosh y - sinh y = 1 + (cosh y - sinh y) by ring, ec, es]
    linear_combination -hm
  rw [e1, log_exp]; ring

section
variable {mu q e : ℝ} (hmu : 0 < mu) (hq : 0 < q) (he : 0 ≤ e)

/-- The position and velocity at universal anomaly `s`. -/
noncomputable def X (mu q e i Ω ω s : ℝ) : Vec :=
  Spec.times (px mu q e s) (Spec.perihelionDir i Ω ω) + Spec.times (py mu q e s) (Spec.motionDir i Ω ω)
noncomputable def V (mu q e i Ω ω s : ℝ) : Vec :=
  Spec.times (ux mu q e s) (Spec.perihelionDir i Ω ω) + Spec.times (uy mu q e s) (Spec.motionDir i Ω ω)

theorem inner_comb (a b c d : ℝ) (i Ω ω : ℝ) :
    Spec.inner (Spec.times a (Spec.perihelionDir i Ω ω) + Spec.times b (Spec.motionDir i Ω ω))
      (Spec.times c (Spec.perihelionDir i Ω ω) + Spec.times d (Spec.motionDir i Ω ω)) = a * c + b * d := by
  obtain ⟨h1, h2, h3, -⟩ := dirs i Ω ω
  unfold Spec.inner at *
  simp only [add_x, add_y, add_z, Spec.times]
  linear_combination a * c * h1 + b * d * h2 + (a * d + b * c) * h3

theorem cross_comb (a b c d : ℝ) (i Ω ω : ℝ) :
    Spec.cross (Spec.times a (Spec.perihelionDir i Ω ω) + Spec.times b (Spec.motionDir i Ω ω))
      (Spec.times c (Spec.perihelionDir i Ω ω) + Spec.times d (Spec.motionDir i Ω ω)) = Spec.times (a * d - b * c) (Spec.poleDir i Ω) := by
  have h := (dirs i Ω ω).2.2.2
  have hx := congrArg Vec.x h
  have hy := congrArg Vec.y h
  have hz := congrArg Vec.z h
  unfold Spec.cross at *
  apply vec_ext
  · simp only [add_x, add_y, add_z, Spec.times] at *
    linear_combination (a * d - b * c) * hx
  · simp only [add_x, add_y, add_z, Spec.times] at *
    linear_combination (a * d - b * c) * hy
  · simp only [add_x, add_y, add_z, Spec.times] at *
    linear_combination (a * d - b * c) * hz

include hmu hq he

theorem cross_XV (i Ω ω s : ℝ) : Spec.cross (X mu q e i Ω ω s) (V mu q e i Ω ω s) = Spec.times (q * √(mu * (1 + e) / q)) (Spec.poleDir i Ω) := by
  unfold X V
  rw [cross_comb, ang hmu hq he]

theorem len_X (i Ω ω s : ℝ) : Spec.length (X mu q e i Ω ω s) = rad mu q e s := by
  unfold X
  rw [length_comb, dist_sq hmu hq he, Real.sqrt_sq (rad_pos hmu hq he s).le]

omit hmu hq he in
theorem pole_unit (i Ω : ℝ) : Spec.inner (Spec.poleDir i Ω) (Spec.poleDir i Ω) = 1 := by
  have hi := sin_sq_add_cos_sq i
  have hO := sin_sq_add_cos_sq Ω
  unfold Spec.inner Spec.poleDir
  simp only
  linear_combination (sin i) ^ 2 * hO + hi

theorem hs_XV (i Ω ω s : ℝ) :
    Spec.inner (Spec.cross (X mu q e i Ω ω s) (V mu q e i Ω ω s)) (Spec.cross (X mu q e i Ω ω s) (V mu q e i Ω ω s)) =
      (q * √(mu * (1 + e) / q)) ^ 2 := by
  rw [cross_XV hmu hq he]
  have := pole_unit i Ω
  unfold Spec.inner Spec.times at *
  simp only
  linear_combination (q * √(mu * (1 + e) / q)) ^ 2 * this

theorem shape_eq (i Ω ω s : ℝ) :
    shape mu (X mu q e i Ω ω s) (V mu q e i Ω ω s) =
      (q * (1 + e), al mu q e, e, q,
        if e * py mu q e s / rad mu q e s ≠ 0 ∧ e * px mu q e s / rad mu q e s ≠ 0 then
          arctan2 (e * py mu q e s / rad mu q e s) (e * px mu q e s / rad mu q e s) else 0) := by
  have hr := rad_pos hmu hq he s
  have hrn := hr.ne'
  have hH : 0 ≤ q * √(mu * (1 + e) / q) := by positivity
  have h2 : √(mu * (1 + e) / q) ^ 2 = mu * (1 + e) / q := Real.sq_sqrt (by positivity)
  have hp : (q * √(mu * (1 + e) / q)) ^ 2 / mu = q * (1 + e) := by rw [mul_pow, h2]; field_simp
  have hrv : Spec.inner (X mu q e i Ω ω s) (V mu q e i Ω ω s) = mu * e * G 1 (al mu q e) s := by
    unfold X V; rw [inner_comb, radial hmu hq he]
  have hvv : 2 * mu / rad mu q e s - Spec.inner (V mu q e i Ω ω s) (V mu q e i Ω ω s) = al mu q e := by
    unfold V; rw [inner_comb, ← visviva hmu hq he s]; ring
  have hds := dist_sq hmu hq he s
  have hcos : q * (1 + e) / rad mu q e s - 1 = e * px mu q e s / rad mu q e s := by
    field_simp; unfold rad px; ring
  have hsin : mu * e * G 1 (al mu q e) s / rad mu q e s * (q * √(mu * (1 + e) / q)) / mu = e * py mu q e s / rad mu q e s := by
    unfold py; field_simp
  have hee : √(e * px mu q e s / rad mu q e s * (e * px mu q e s / rad mu q e s) + e * py mu q e s / rad mu q e s * (e * py mu q e s / rad mu q e s)) = e := by
    refine Eq.trans (congrArg Real.sqrt ?_) (Real.sqrt_sq he)
    field_simp
    linear_combination e ^ 2 * hds
  unfold shape
  simp only [cross3_eq, dot3_eq, norm3_len, hs_XV hmu hq he, len_X hmu hq he, Real.sqrt_sq hH, hp, hrv, hvv, hcos, hsin, hee]
  congr 3
  congr 1
  field_simp

/-- The time since perihelion is recovered, up to whole periods. -/
theorem since_eq (hcase : e = 1 ∨ 1e-15 ≤ |e - 1|) (he' : 0 < e) (s : ℝ) (hpy : py mu q e s ≠ 0) :
    ∃ k : ℤ, (1 ≤ e → k = 0) ∧
      sincePerihelion mu (q * (1 + e)) (al mu q e) e (arctan2 (e * py mu q e s / rad mu q e s) (e * px mu q e s / rad mu q e s)) =
        Spec.keplerTime mu q e s + k * (2 * π / √(mu / (q / (1 - e) * (q / (1 - e)) * (q / (1 - e))))) := by
  have hr := rad_pos hmu hq he s
  have hds := dist_sq hmu hq he s
  have hth : tan (arctan2 (e * py mu q e s / rad mu q e s) (e * px mu q e s / rad mu q e s) / 2) = py mu q e s / (rad mu q e s + px mu q e s) := by
    rw [tan_half he' (by field_simp; linarith) (by positivity)]
    have : e + e * px mu q e s / rad mu q e s = e / rad mu q e s * (rad mu q e s + px mu q e s) := by field_simp
    rw [this]
    rcases eq_or_ne (rad mu q e s + px mu q e s) 0 with h0 | h0
    · rw [h0]; simp
    · field_simp
  rw [halfsum hmu hq he] at hth
  have hqn := hq.ne'
  have hG1 : G 1 (al mu q e) s ≠ 0 := by
    intro h0; apply hpy; unfold py; rw [h0, mul_zero]
  have hth' : tan (arctan2 (e * py mu q e s / rad mu q e s) (e * px mu q e s / rad mu q e s) / 2) =
      √(mu * (1 + e) / q) * (G 1 (al mu q e) s / (1 + G 0 (al mu q e) s)) := by
    rw [hth]; unfold py; rw [mul_assoc, mul_div_mul_left _ _ hqn]; ring
  have hk := keplerTime_eq mu q e s
  have he1 : (if |e - 1| < 1e-15 then 1 else e) = e := by
    rcases hcase with h | h
    · rw [h]; simp
    · rw [if_neg (not_lt.2 h)]
  unfold sincePerihelion
  simp only [he1]
  rcases lt_trichotomy e 1 with h | h | h
  · rw [if_pos h, hth']
    have h1' : 0 < 1 - e := by linarith
    have hα : 0 < al mu q e := by unfold al; positivity
    set w := √(al mu q e) with hwd
    have hw : 0 < w := Real.sqrt_pos.2 hα
    have hw2 : w ^ 2 = al mu q e := Real.sq_sqrt hα.le
    have gp := G_pos w s
    rw [hw2] at gp
    have harg : √((1 - e) / (1 + e)) * (√(mu * (1 + e) / q) * (G 1 (al mu q e) s / (1 + G 0 (al mu q e) s))) = sin (w * s) / (1 + cos (w * s)) := by
      rw [← mul_assoc, ← Real.sqrt_mul (by positivity), show (1 - e) / (1 + e) * (mu * (1 + e) / q) = al mu q e by unfold al; field_simp, ← hwd, gp.1, ← gp.2]
      ring
    rw [harg]
    have hsn : sin (w * s) ≠ 0 := by rw [← gp.2]; exact mul_ne_zero hw.ne' hG1
    obtain ⟨k, hk1⟩ := two_arctan_tan (w * s) hsn
    rw [hk1, sin_add_int_mul_two_pi]
    obtain ⟨⟨k', hk2⟩, -⟩ := C46_principal_value (w * s + k * (2 * π) - e * sin (w * s))
    rw [hk2]
    refine ⟨k + k', fun h' => absurd h (not_lt.2 h'), ?_⟩
    have ha : mu / (mu / al mu q e * (mu / al mu q e) * (mu / al mu q e)) = (w ^ 3 / mu) ^ 2 := by
      rw [← hw2]; field_simp
    have ha' : mu / (q / (1 - e) * (q / (1 - e)) * (q / (1 - e))) = (w ^ 3 / mu) ^ 2 := by
      rw [← ha]; unfold al; field_simp
    have hs2 : √((w ^ 3 / mu) ^ 2) = w ^ 3 / mu := Real.sqrt_sq (by positivity)
    rw [ha, ha', hs2, hk]
    have g1 : G 1 (al mu q e) s = sin (w * s) / w := by rw [← gp.2]; field_simp
    have g3 : G 3 (al mu q e) s = (s - sin (w * s) / w) / w ^ 2 := by
      have := G1_eq (al mu q e) s
      rw [g1, ← hw2] at this
      rw [← hw2]; field_simp; field_simp at this; linarith
    rw [g1, g3]
    have hqw : q * w ^ 2 = mu * (1 - e) := by rw [hw2]; unfold al; field_simp
    push_cast
    field_simp
    linear_combination -sin (w * s) * hqw
  · refine ⟨0, fun _ => rfl, ?_⟩
    rw [if_neg (by rw [h]; exact lt_irrefl 1), if_pos h]
    have half : ∀ x : ℝ, 0.5 * x = x / 2 := by intro x; norm_num; ring
    simp only [half]
    rw [hth', hk]
    have hal : al mu q e = 0 := by unfold al; rw [h]; simp
    rw [hal, G_zero_arg, G_zero_arg, G_zero_arg]
    subst h
    set v := √(mu * (1 + 1) / q) with hv
    have hvp : 0 < v := Real.sqrt_pos.2 (by positivity)
    have hv2 : v ^ 2 = mu * (1 + 1) / q := Real.sq_sqrt (by positivity)
    have hmu' : mu = q * v ^ 2 / 2 := by rw [hv2]; field_simp; norm_num
    have hsq : √(mu / (q * (1 + 1) * (q * (1 + 1)) * (q * (1 + 1)))) = v / (4 * q) := by
      refine Eq.trans (congrArg Real.sqrt ?_) (Real.sqrt_sq (by positivity : 0 ≤ v / (4 * q)))
      rw [hmu']; field_simp; norm_num
    rw [hsq]
    simp only [pow_zero, pow_one, Nat.factorial_zero, Nat.factorial_one, Nat.cast_one, div_one]
    rw [show (Nat.factorial 3 : ℝ) = 6 by norm_num [Nat.factorial]]
    push_cast
    rw [hmu']
    field_simp
    ring
  · refine ⟨0, fun _ => rfl, ?_⟩
    rw [if_neg (by linarith), if_neg h.ne', hth', hk]
    have h1' : 0 < e - 1 := by linarith
    have hα : 0 < -al mu q e := by
      have : -al mu q e = mu * (e - 1) / q := by unfold al; ring
      rw [this]; positivity
    set w := √(-al mu q e) with hwd
    have hw : 0 < w := Real.sqrt_pos.2 hα
    have hw2 : -w ^ 2 = al mu q e := by rw [Real.sq_sqrt hα.le]; ring
    have gp := G_neg w s
    rw [hw2] at gp
    have harg : √((e - 1) / (e + 1)) * (√(mu * (1 + e) / q) * (G 1 (al mu q e) s / (1 + G 0 (al mu q e) s))) = sinh (w * s) / (1 + cosh (w * s)) := by
      rw [← mul_assoc, ← Real.sqrt_mul (by positivity), show (e - 1) / (e + 1) * (mu * (1 + e) / q) = -al mu q e by unfold al; field_simp; ring, ← hwd, gp.1, ← gp.2]
      ring
    rw [harg, two_arctanh_tanh]
    have ha : -mu / (mu / al mu q e * (mu / al mu q e) * (mu / al mu q e)) = (w ^ 3 / mu) ^ 2 := by
      rw [← hw2]; field_simp
    have hs2 : √((w ^ 3 / mu) ^ 2) = w ^ 3 / mu := Real.sqrt_sq (by positivity)
    rw [ha, hs2]
    have g1 : G 1 (al mu q e) s = sinh (w * s) / w := by rw [← gp.2]; field_simp
    have g3 : G 3 (al mu q e) s = (sinh (w * s) / w - s) / w ^ 2 := by
      have := G1_eq (al mu q e) s
      rw [g1, ← hw2] at this
      rw [← hw2]; field_simp; field_simp at this; linarith
    rw [g1, g3]
    have hqw : q * w ^ 2 = mu * (e - 1) := by
      have : w ^ 2 = -al mu q e := by linarith
      rw [this]; unfold al; field_simp; ring
    push_cast
    field_simp
    linear_combination -sinh (w * s) * hqw

/-- The orientation is recovered up to whole turns. -/
theorem angles_eq (i Ω ω s : ℝ) (hi0 : 0 < i) (hi1 : i < π) (hi2 : cos i ≠ 0) (hΩ1 : sin Ω ≠ 0) (hΩ2 : cos Ω ≠ 0)
    (hx : (X mu q e i Ω ω s).x * cos Ω + (X mu q e i Ω ω s).y * sin Ω ≠ 0) (hz : (X mu q e i Ω ω s).z ≠ 0)
    (θ : ℝ) (hc : px mu q e s = rad mu q e s * cos θ) (hs : py mu q e s = rad mu q e s * sin θ) :
    (angles (X mu q e i Ω ω s) (V mu q e i Ω ω s)).1 = i ∧
    (∃ k : ℤ, (angles (X mu q e i Ω ω s) (V mu q e i Ω ω s)).2.1 = Ω + k * (2 * π)) ∧
    ∃ k : ℤ, (angles (X mu q e i Ω ω s) (V mu q e i Ω ω s)).2.2 = ω + θ + k * (2 * π) := by
  have hr := rad_pos hmu hq he s
  have hH : 0 < q * √(mu * (1 + e) / q) := by
    have : 0 < √(mu * (1 + e) / q) := Real.sqrt_pos.2 (by positivity)
    positivity
  have hsi := sin_pos_of_pos_of_lt_pi hi0 hi1
  unfold angles
  simp only [cross3_eq, dot3_eq]
  simp only [hs_XV hmu hq he, Real.sqrt_sq hH.le]
  simp only [cross_XV hmu hq he]
  set H := q * √(mu * (1 + e) / q) with hHd
  have h1 : (Spec.times H (Spec.poleDir i Ω)).z / H = cos i := by simp only [Spec.times, Spec.poleDir]; field_simp
  have hn : (Spec.times H (Spec.poleDir i Ω)).x ≠ 0 ∧ (Spec.times H (Spec.poleDir i Ω)).y ≠ 0 := by
    refine ⟨?_, ?_⟩
    · simp only [Spec.times, Spec.poleDir]; positivity
    · exact mul_ne_zero hH.ne' (neg_ne_zero.2 (mul_ne_zero hΩ2 hsi.ne'))
  obtain ⟨k, hk⟩ := arctan2_of (R := H * sin i) (θ := Ω) (x := -(Spec.times H (Spec.poleDir i Ω)).y) (y := (Spec.times H (Spec.poleDir i Ω)).x)
    (by positivity) (by simp only [Spec.times, Spec.poleDir]; ring) (by simp only [Spec.times, Spec.poleDir]; ring)
  simp only [h1, arccos_cos hi0.le hi1.le, if_pos hn]
  simp only [hk, cos_add_int_mul_two_pi, sin_add_int_mul_two_pi]
  have hO := sin_sq_add_cos_sq Ω
  have e1 : (X mu q e i Ω ω s).x * cos Ω + (X mu q e i Ω ω s).y * sin Ω = rad mu q e s * cos (ω + θ) := by
    unfold X Spec.times Spec.perihelionDir Spec.motionDir
    simp only [add_x, add_y]
    rw [hc, hs, cos_add]
    linear_combination (rad mu q e s * cos θ * cos ω - rad mu q e s * sin θ * sin ω) * hO
  have e2 : ((X mu q e i Ω ω s).y * cos Ω - (X mu q e i Ω ω s).x * sin Ω) / cos i = rad mu q e s * sin (ω + θ) := by
    rw [div_eq_iff hi2]
    unfold X Spec.times Spec.perihelionDir Spec.motionDir
    simp only [add_x, add_y]
    rw [hc, hs, sin_add]
    linear_combination (rad mu q e s * cos θ * sin ω + rad mu q e s * sin θ * cos ω) * cos i * hO
  have e3 : (X mu q e i Ω ω s).z = rad mu q e s * sin (ω + θ) * sin i := by
    unfold X Spec.times Spec.perihelionDir Spec.motionDir
    simp only [add_z]
    rw [hc, hs, sin_add]
    ring
  rw [e1] at hx
  rw [e3] at hz
  simp only [e1, e2]
  refine ⟨trivial, ⟨k, rfl⟩, ?_⟩
  simp only [if_pos (And.intro (left_ne_zero_of_mul hz) hx)]
  exact arctan2_of hr rfl rfl

/-- C47 (round trip): take any elements with `0 < e` (exactly 1, or not within 1e-15 of 1), an inclined orbit not perpendicular to the
reference plane and a node off the coordinate axes, and compute the state at an epoch. Unless the object is then on the line of
apsides (radial velocity zero), a quarter turn from it, on the line of nodes or a quarter turn from that, computing elements from
the state gives back perihelion distance, eccentricity and inclination exactly, node and argument of perihelion up to whole turns, and the
time of perihelion up to whole periods (exactly, for unbound orbits). -/
theorem C47_round_trip (i Ω ω tp epoch ss : ℝ) (hcase : e = 1 ∨ 1e-15 ≤ |e - 1|) (he' : 0 < e)
    (hi0 : 0 < i) (hi1 : i < π) (hi2 : i ≠ π / 2) (hΩ1 : sin Ω ≠ 0) (hΩ2 : cos Ω ≠ 0)
    (hroot : (rootFunction Spec.exact ss mu (2 * mu / q - mu * (1 + e) / q) q 0 (timeSincePerihelion mu q e tp epoch)).1 = 0)
    (pos vel : Vec) (hstate : universalCartesian Spec.exact mu q e i Ω ω tp epoch ss = (pos, vel))
    (hradial : Spec.inner pos vel ≠ 0) (hquarter : Spec.inner pos (Spec.perihelionDir i Ω ω) ≠ 0)
    (hnode : pos.z ≠ 0) (hnodeq : Spec.inner pos ⟨cos Ω, sin Ω, 0⟩ ≠ 0) :
    let k := universalCometary mu pos vel epoch
    k.q = q ∧ k.e = e ∧ k.incl = i ∧ (∃ n : ℤ, k.longnode = Ω + n * (2 * π)) ∧ (∃ n : ℤ, k.argperi = ω + n * (2 * π)) ∧
    ∃ n : ℤ, (1 ≤ e → n = 0) ∧ k.tp = tp + n * (2 * π * √((q / (1 - e)) ^ 3 / mu)) := by
  obtain ⟨σ, hσ⟩ := time_surj hmu hq he (epoch - tp)
  have hXV := cartesian_eq hmu hq he i Ω ω tp epoch ss σ hroot hσ
  rw [hstate] at hXV
  have hX : pos = X mu q e i Ω ω σ := congrArg Prod.fst hXV
  have hV : vel = V mu q e i Ω ω σ := congrArg Prod.snd hXV
  subst hX hV
  have hr := rad_pos hmu hq he σ
  have hpy : py mu q e σ ≠ 0 := by
    intro h0
    apply hradial
    unfold X V
    rw [inner_comb, radial hmu hq he]
    unfold py at h0
    have : 0 < √(mu * (1 + e) / q) := Real.sqrt_pos.2 (by positivity)
    have hG : G 1 (al mu q e) σ = 0 := by
      rcases mul_eq_zero.1 h0 with h | h
      · exact absurd h (by positivity)
      · exact h
    rw [hG, mul_zero]
  have hpx : px mu q e σ ≠ 0 := by
    intro h0
    apply hquarter
    obtain ⟨h1, h2, h3, -⟩ := dirs i Ω ω
    unfold X Spec.inner Spec.times at *
    simp only [add_x, add_y, add_z]
    rw [h0]
    linear_combination py mu q e σ * h3
  set ν := arctan2 (e * py mu q e σ / rad mu q e σ) (e * px mu q e σ / rad mu q e σ) with hν
  have hds := dist_sq hmu hq he σ
  have hz : (⟨e * px mu q e σ / rad mu q e σ, e * py mu q e σ / rad mu q e σ⟩ : ℂ) ≠ 0 := by
    intro h
    have := congrArg Complex.im h
    simp only [Complex.zero_im] at this
    exact absurd this (by positivity)
  have hn : ‖(⟨e * px mu q e σ / rad mu q e σ, e * py mu q e σ / rad mu q e σ⟩ : ℂ)‖ = e := by
    rw [Complex.norm_def, Complex.normSq_mk]
    refine Eq.trans (congrArg Real.sqrt ?_) (Real.sqrt_sq he)
    field_simp
    linear_combination hds
  have hcν : px mu q e σ = rad mu q e σ * cos ν := by
    rw [hν]; unfold arctan2; rw [Complex.cos_arg hz, hn]; field_simp
  have hsν : py mu q e σ = rad mu q e σ * sin ν := by
    rw [hν]; unfold arctan2; rw [Complex.sin_arg, hn]; field_simp
  have hci : cos i ≠ 0 := by
    intro h0
    apply hi2
    rw [← arccos_cos hi0.le hi1.le, h0, arccos_zero]
  obtain ⟨a1, a2, ⟨ku, a3⟩⟩ := angles_eq hmu hq he i Ω ω σ hi0 hi1 hci hΩ1 hΩ2
    (by have := hnodeq; unfold Spec.inner at this; simpa using this) hnode ν hcν hsν
  have hne : e * py mu q e σ / rad mu q e σ ≠ 0 ∧ e * px mu q e σ / rad mu q e σ ≠ 0 := ⟨by positivity, by positivity⟩
  have hsh := shape_eq hmu hq he i Ω ω σ
  rw [if_pos hne, ← hν] at hsh
  have he1 : (if |e - 1| < 1e-15 then 1 else e) = e := by
    rcases hcase with h | h
    · rw [h]; simp
    · rw [if_neg (not_lt.2 h)]
  unfold universalCometary
  simp only [hsh, he1]
  refine ⟨trivial, trivial, a1, a2, ⟨ku, by rw [a3]; ring⟩, ?_⟩
  obtain ⟨n, hn1, hn2⟩ := since_eq hmu hq he hcase he' σ hpy
  refine ⟨-n, fun h => by rw [hn1 h]; rfl, ?_⟩
  rw [← hν] at hn2
  rw [hn2, hσ]
  have hP : 2 * π / √(mu / (q / (1 - e) * (q / (1 - e)) * (q / (1 - e)))) = 2 * π * √((q / (1 - e)) ^ 3 / mu) := by
    rw [div_eq_mul_inv, ← Real.sqrt_inv, inv_div]
    congr 3; ring
  rw [hP]; push_cast; ring

end

/-! ## Where the conversion goes wrong -/

/-- C47 fails at aphelion: for an object with no radial velocity, slower than a circular orbit, the computed time of perihelion is
the epoch itself, although the object is farther out than the computed perihelion distance. -/
theorem C47_aphelion_fails (mu : ℝ) (hmu : 0 < mu) (pos vel : Vec) (hr : 0 < Spec.length pos) (hrad : Spec.inner pos vel = 0)
    (hslow : Spec.length vel ^ 2 * Spec.length pos < mu) (epoch : ℝ) :
    (universalCometary mu pos vel epoch).tp = epoch ∧ (universalCometary mu pos vel epoch).q < Spec.length pos := by
  set r := Spec.length pos with hrd
  have hL := lagrange_identity pos vel
  rw [hrad, ← length_sq pos, ← length_sq vel, ← hrd] at hL
  set v2 := Spec.length vel ^ 2 with hv2
  have hv0 : 0 ≤ v2 := by positivity
  have hsh : shape mu pos vel = (r ^ 2 * v2 / mu, 2 * mu / r - v2, 1 - r * v2 / mu, r ^ 2 * v2 / mu / (1 + (1 - r * v2 / mu)), 0) := by
    have hp : r ^ 2 * v2 / mu / r - 1 = r * v2 / mu - 1 := by field_simp
    have hle : r * v2 / mu ≤ 1 := by rw [div_le_one hmu]; linarith
    unfold shape
    simp only [cross3_eq, dot3_eq, norm3_len, ← hrd, hL, hrad, ← length_sq vel, ← hv2]
    simp only [ne_eq, OfNat.ofNat_ne_zero, not_false_eq_true, zero_pow, sub_zero, zero_div, zero_mul, mul_zero, add_zero, not_true_eq_false,
      false_and, if_false, hp]
    have he : √((r * v2 / mu - 1) * (r * v2 / mu - 1)) = 1 - r * v2 / mu := by
      refine Eq.trans (congrArg Real.sqrt ?_) (Real.sqrt_sq (by linarith : 0 ≤ 1 - r * v2 / mu))
      ring
    rw [he]
  have hlt : r * v2 / mu < 1 := by rw [div_lt_one hmu]; linarith
  have h0 : 0 ≤ r * v2 / mu := by positivity
  unfold universalCometary
  simp only [hsh]
  constructor
  · have : sincePerihelion mu (r ^ 2 * v2 / mu) (2 * mu / r - v2) (1 - r * v2 / mu) 0 = 0 := by
      unfold sincePerihelion
      simp [principalValue, arctanh]
    rw [this, sub_zero]
  · rw [div_lt_iff₀ (by linarith)]
    have : r ^ 2 * v2 / mu = r * (r * v2 / mu) := by ring
    rw [this]
    nlinarith

/-- C47 fails for a node on the y axis: for an object on the y axis leaving the reference plane, the computed node is 0, and the pole
of the computed orbit is not along the angular momentum. -/
theorem C47_node_fails (mu y vx vy vz epoch : ℝ) (hy : y ≠ 0) (hvz : vz ≠ 0) (c : ℝ) :
    (universalCometary mu ⟨0, y, 0⟩ ⟨vx, vy, vz⟩ epoch).longnode = 0 ∧
    Spec.cross ⟨0, y, 0⟩ ⟨vx, vy, vz⟩ ≠ Spec.times c (Spec.poleDir (universalCometary mu ⟨0, y, 0⟩ ⟨vx, vy, vz⟩ epoch).incl
      (universalCometary mu ⟨0, y, 0⟩ ⟨vx, vy, vz⟩ epoch).longnode) := by
  have h : (universalCometary mu ⟨0, y, 0⟩ ⟨vx, vy, vz⟩ epoch).longnode = 0 := by
    unfold universalCometary angles
    simp [cross3]
  refine ⟨h, ?_⟩
  rw [h]
  intro hh
  have := congrArg Vec.x hh
  simp [Spec.cross, Spec.times, Spec.poleDir] at this
  exact absurd this (not_or.2 ⟨hy, hvz⟩)

/-- The hypotheses of `C47_round_trip` are met: a parabola with perihelion distance 1 inclined by 60 degrees, somewhat after perihelion. -/
example : ∃ pos vel, universalCartesian Spec.exact 2 1 1 (π / 3) (π / 4) 0 0 (13 / 24) (1 / 2) = (pos, vel) ∧
    (rootFunction Spec.exact (1 / 2) 2 (2 * 2 / 1 - 2 * (1 + 1) / 1) 1 0 (timeSincePerihelion 2 1 1 0 (13 / 24))).1 = 0 ∧
    Spec.inner pos vel ≠ 0 ∧ Spec.inner pos (Spec.perihelionDir (π / 3) (π / 4) 0) ≠ 0 ∧ pos.z ≠ 0 ∧
    Spec.inner pos ⟨cos (π / 4), sin (π / 4), 0⟩ ≠ 0 ∧ sin (π / 4) ≠ 0 ∧ cos (π / 4) ≠ 0 := by
  have hx : Spec.exact 0 = (1, 1, 1 / 2, 1 / 6) := by
    simp [Spec.exact, c_zero, Nat.factorial]
  have ht : timeSincePerihelion 2 1 1 0 (13 / 24) = 13 / 24 := by simp [timeSincePerihelion]
  have hp : planeState Spec.exact 2 1 1 (13 / 24) (1 / 2) = (⟨3 / 4, 1, 0⟩, ⟨-(4 / 5), 8 / 5, 0⟩) := by
    have h4 : √(4 : ℝ) = 2 := by rw [show (4 : ℝ) = 2 ^ 2 by norm_num]; exact Real.sqrt_sq (by norm_num)
    unfold planeState
    have ha : (2 * 2 / 1 - 2 * (1 + 1) / 1 : ℝ) * (1 / 2) * (1 / 2) = 0 := by norm_num
    simp only [ha, hx]
    have hv : (2 * (1 + 1) / 1 : ℝ) = 4 := by norm_num
    rw [hv, h4]
    apply Prod.ext <;> apply vec_ext <;> simp only [add_x, add_y, add_z, scale] <;> norm_num
  have hs : (√2 : ℝ) ≠ 0 := by positivity
  have h3 : (√3 : ℝ) ≠ 0 := by positivity
  have h22 : √2 * √2 = (2 : ℝ) := Real.mul_self_sqrt (by norm_num)
  refine ⟨Spec.times (3 / 4) (Spec.perihelionDir (π / 3) (π / 4) 0) + Spec.times 1 (Spec.motionDir (π / 3) (π / 4) 0),
    Spec.times (-(4 / 5)) (Spec.perihelionDir (π / 3) (π / 4) 0) + Spec.times (8 / 5) (Spec.motionDir (π / 3) (π / 4) 0),
    ?_, ?_, ?_, ?_, ?_, ?_, ?_, ?_⟩
  · unfold universalCartesian
    rw [ht, hp]
    simp only [orient_eq]
  · rw [ht]
    have ha : (2 * 2 / 1 - 2 * (1 + 1) / 1 : ℝ) * (1 / 2) * (1 / 2) = 0 := by norm_num
    unfold rootFunction
    simp only [ha, hx]
    norm_num
  · rw [inner_comb]; norm_num
  · obtain ⟨h1, h2, h3, -⟩ := dirs (π / 3) (π / 4) 0
    unfold Spec.inner at *
    simp only [add_x, add_y, add_z, Spec.times]
    intro h
    have : (3 / 4 : ℝ) = 0 := by linear_combination h - 3 / 4 * h1 - h3
    norm_num at this
  · simp [Spec.times, Spec.perihelionDir, Spec.motionDir, add_z, h3]
  · simp only [Spec.inner, add_x, add_y, add_z, Spec.times, Spec.perihelionDir, Spec.motionDir, sin_zero, cos_zero, cos_pi_div_four, sin_pi_div_four,
      cos_pi_div_three, sin_pi_div_three]
    intro h
    have : (3 / 4 : ℝ) = 0 := by linear_combination h - 3/8 * h22
    norm_num at this
  · rw [sin_pi_div_four]; positivity
  · rw [cos_pi_div_four]; positivity

example : (universalCometary 1 ⟨1, 0, 0⟩ ⟨0, 1 / 2, 0⟩ 60000).tp = 60000 ∧ (universalCometary 1 ⟨1, 0, 0⟩ ⟨0, 1 / 2, 0⟩ 60000).q < 1 := by
  have h1 : Spec.length ⟨1, 0, 0⟩ = 1 := by simp [Spec.length]
  have h2 : Spec.length ⟨0, 1 / 2, 0⟩ = 1 / 2 := by
    unfold Spec.length
    refine Eq.trans (congrArg Real.sqrt ?_) (Real.sqrt_sq (by norm_num : (0 : ℝ) ≤ 1 / 2)); norm_num
  have h := C47_aphelion_fails 1 one_pos ⟨1, 0, 0⟩ ⟨0, 1 / 2, 0⟩ (by rw [h1]; norm_num) (by simp [Spec.inner]) (by rw [h1, h2]; norm_num) 60000
  rw [h1] at h
  exact h

/-- C56 (the code's Stumpff functions): with the values computed by the code in place of the exact ones, the position for a given universal
anomaly `ss` of a bound or parabolic orbit moves by at most `mu ss² (1 + v |ss|) ε` with `v` the speed at perihelion and
`ε = 1e-17 (1 + α ss²)`, whatever the orientation and the epoch. -/
theorem C56_code {mu q e : ℝ} (hmu : 0 < mu) (hq : 0 < q) (he : 0 ≤ e) (he1 : e ≤ 1) (i Ω ω tp epoch ss : ℝ)
    (hbound : mu * (1 - e) / q * ss ^ 2 ≤ 1e17) :
    Spec.length (Spec.fromTo (universalCartesian Spec.exact mu q e i Ω ω tp epoch ss).1 (universalCartesian stumpff mu q e i Ω ω tp epoch ss).1) ≤
      mu * ss ^ 2 * (1 + √(mu * (1 + e) / q) * |ss|) * ((1 + mu * (1 - e) / q * ss ^ 2) * 1e-17) := by
  set t := timeSincePerihelion mu q e tp epoch with htdef
  have hal : (2 * mu / q - mu * (1 + e) / q) * ss * ss = mu * (1 - e) / q * ss ^ 2 := by ring
  have ha0 : 0 ≤ mu * (1 - e) / q * ss ^ 2 := by
    have : 0 ≤ 1 - e := by linarith
    positivity
  set x := mu * (1 - e) / q * ss ^ 2 with hx
  obtain ⟨-, -, k2, k3⟩ := C49_accuracy_nonneg x ha0 hbound
  have hplane : ∀ c : ℝ → ℝ × ℝ × ℝ × ℝ, (universalCartesian c mu q e i Ω ω tp epoch ss).1 =
      Spec.times ((1 - mu / q * ((c x).2.2.1 * ss * ss)) * q) (Spec.perihelionDir i Ω ω) +
      Spec.times ((t - mu * ((c x).2.2.2 * ss * ss * ss)) * √(mu * (1 + e) / q)) (Spec.motionDir i Ω ω) := by
    intro c
    have hps : (planeState c mu q e t ss).1 =
        ⟨(1 - mu / q * ((c x).2.2.1 * ss * ss)) * q, (t - mu * ((c x).2.2.2 * ss * ss * ss)) * √(mu * (1 + e) / q), 0⟩ := by
      unfold planeState
      simp only [hal]
      apply vec_ext <;> simp only [add_x, add_y, add_z, scale] <;> ring
    unfold universalCartesian
    simp only [← htdef]
    rw [hps, orient_eq]
  have hdiff : Spec.fromTo (universalCartesian Spec.exact mu q e i Ω ω tp epoch ss).1 (universalCartesian stumpff mu q e i Ω ω tp epoch ss).1 =
      Spec.times (-(mu * ss ^ 2 * ((stumpff x).2.2.1 - Spec.c 2 x))) (Spec.perihelionDir i Ω ω) +
      Spec.times (-(mu * ss ^ 3 * √(mu * (1 + e) / q) * ((stumpff x).2.2.2 - Spec.c 3 x))) (Spec.motionDir i Ω ω) := by
    rw [hplane, hplane]
    have e2 : (Spec.exact x).2.2.1 = Spec.c 2 x := rfl
    have e3 : (Spec.exact x).2.2.2 = Spec.c 3 x := rfl
    rw [e2, e3]
    have hq' := hq.ne'
    apply vec_ext <;> simp only [add_x, add_y, add_z, Spec.fromTo, Spec.times] <;> field_simp <;> ring
  rw [hdiff, length_comb]
  set a := -(mu * ss ^ 2 * ((stumpff x).2.2.1 - Spec.c 2 x))
  set b := -(mu * ss ^ 3 * √(mu * (1 + e) / q) * ((stumpff x).2.2.2 - Spec.c 3 x))
  have hab : √(a ^ 2 + b ^ 2) ≤ |a| + |b| := by
    apply Real.sqrt_le_iff.2
    refine ⟨by positivity, ?_⟩
    have := mul_nonneg (abs_nonneg a) (abs_nonneg b)
    have h1 := sq_abs a
    have h2 := sq_abs b
    nlinarith
  refine hab.trans ?_
  have hv := Real.sqrt_nonneg (mu * (1 + e) / q)
  have ha : |a| ≤ mu * ss ^ 2 * ((1 + x) * 1e-17) := by
    simp only [a, abs_neg, abs_mul, abs_of_pos hmu, abs_of_nonneg (sq_nonneg ss)]
    exact mul_le_mul_of_nonneg_left k2 (by positivity)
  have hb : |b| ≤ mu * |ss| ^ 3 * √(mu * (1 + e) / q) * ((1 + x) * 1e-17) := by
    simp only [b, abs_neg, abs_mul, abs_of_pos hmu, abs_pow, abs_of_nonneg hv]
    exact mul_le_mul_of_nonneg_left k3 (by positivity)
  have h3 : |ss| ^ 3 = ss ^ 2 * |ss| := by rw [← sq_abs ss]; ring
  rw [h3] at hb
  calc |a| + |b| ≤ _ := add_le_add ha hb
    _ = _ := by ring

end Sorcha.Ephem.ElementsProps
