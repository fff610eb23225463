import Verif.Ephem.Model
import Verif.Ephem.Spec
import Verif.Photom.Lemmas
import Mathlib.Tactic.Ring
import Mathlib.Tactic.Positivity
import Mathlib.Tactic.FieldSimp
import Mathlib.Tactic.Linarith
import Mathlib.Tactic.LinearCombination
import Mathlib.Tactic.NormNum
import Mathlib.Analysis.Calculus.Deriv.Mul

/-!
# Properties C34, C48, C53, C54: frames, rates and light time
-/

namespace Sorcha.Ephem.Props
open Sorcha.Ephem Sorcha.Photom Sorcha.Geom Real

section components
@[simp] theorem add_x (a b : Vec) : (a + b).x = a.x + b.x := rfl
@[simp] theorem add_y (a b : Vec) : (a + b).y = a.y + b.y := rfl
@[simp] theorem add_z (a b : Vec) : (a + b).z = a.z + b.z := rfl
@[simp] theorem sub_x (a b : Vec) : (a - b).x = a.x - b.x := rfl
@[simp] theorem sub_y (a b : Vec) : (a - b).y = a.y - b.y := rfl
@[simp] theorem sub_z (a b : Vec) : (a - b).z = a.z - b.z := rfl
theorem vec_ext {a b : Vec} (h1 : a.x = b.x) (h2 : a.y = b.y) (h3 : a.z = b.z) : a = b := by
  cases a; cases b; simp only at h1 h2 h3; rw [h1, h2, h3]
theorem norm3_eq (a : Vec) : norm3 a = Spec.length a := by
  unfold norm3 dot3 Spec.length; congr 1; ring
theorem length_toE (a : Vec) : Spec.length a = ‖a.toE‖ := by rw [norm_toE]; rfl
theorem toE_sub (a b : Vec) : (a - b).toE = a.toE - b.toE := by
  unfold Vec.toE
  ext i
  fin_cases i <;> simp
theorem fromTo_eq (a b : Vec) : Spec.fromTo a b = b - a := rfl
end components

/-! ## C34 -/

/-- C34: the two rotations undo each other. -/
theorem C34_inverse (v : Vec) :
    equatorialToEcliptic (eclipticToEquatorial v) = v ∧ eclipticToEquatorial (equatorialToEcliptic v) = v := by
  have h := sin_sq_add_cos_sq obliquity
  constructor <;>
  · unfold equatorialToEcliptic eclipticToEquatorial vecMat eclToEqMatrix
    apply vec_ext
    · simp
    · simp only [cos_neg, sin_neg]
      linear_combination v.y * h
    · simp only [cos_neg, sin_neg]
      linear_combination v.z * h

/-- C34: both rotations preserve inner products, hence lengths and angles, and orientation. -/
theorem C34_isometry (u v : Vec) :
    Spec.inner (eclipticToEquatorial u) (eclipticToEquatorial v) = Spec.inner u v ∧
    Spec.inner (equatorialToEcliptic u) (equatorialToEcliptic v) = Spec.inner u v ∧
    cross3 (eclipticToEquatorial u) (eclipticToEquatorial v) = eclipticToEquatorial (cross3 u v) := by
  have h := sin_sq_add_cos_sq obliquity
  refine ⟨?_, ?_, ?_⟩
  · unfold Spec.inner eclipticToEquatorial vecMat eclToEqMatrix
    simp only [cos_neg]
    linear_combination (u.y * v.y + u.z * v.z) * h
  · unfold Spec.inner equatorialToEcliptic vecMat eclToEqMatrix
    simp only [cos_neg, sin_neg]
    linear_combination (u.y * v.y + u.z * v.z) * h
  · unfold cross3 eclipticToEquatorial vecMat eclToEqMatrix
    apply vec_ext
    · simp only [cos_neg]
      linear_combination (u.y * v.z - u.z * v.y) * h
    · simp only [cos_neg]; ring
    · simp only [cos_neg]; ring

/-- C34: the equinox is common to both frames, the ecliptic pole is at right ascension 270 degrees and declination 90 degrees
minus the obliquity (84381.448 arcseconds), and the point of the ecliptic at longitude 90 degrees has right ascension 90 degrees and
declination equal to the obliquity. -/
theorem C34_sense :
    eclipticToEquatorial ⟨1, 0, 0⟩ = ⟨1, 0, 0⟩ ∧
    eclipticToEquatorial ⟨0, 0, 1⟩ = Spec.sky 1 (270 * (π / 180)) ((90 - 84381.448 / 3600) * (π / 180)) ∧
    eclipticToEquatorial ⟨0, 1, 0⟩ = Spec.sky 1 (90 * (π / 180)) (84381.448 / 3600 * (π / 180)) := by
  have ho : obliquity = 84381.448 / 3600 * (π / 180) := by unfold obliquity; ring
  have h90 : (90 : ℝ) * (π / 180) = π / 2 := by ring
  have h270 : (270 : ℝ) * (π / 180) = π / 2 + π := by ring
  have hs : (90 - 84381.448 / 3600 : ℝ) * (π / 180) = π / 2 - obliquity := by rw [ho]; ring
  rw [hs, ← ho, h90, h270]
  unfold eclipticToEquatorial vecMat eclToEqMatrix Spec.sky
  refine ⟨by simp, ?_, ?_⟩
  · rw [cos_pi_div_two_sub, sin_pi_div_two_sub, cos_add_pi, sin_add_pi]
    simp
  · simp

/-! ## C54: right ascension and declination -/

/-- C54: the right ascension and declination reported for a direction are in [0, 360) and [-90, 90], and pointing in them
gives back the direction. -/
theorem C54_round_trip (v : Vec) (h : Spec.length v = 1) :
    0 ≤ (vec2raDec v).1 ∧ (vec2raDec v).1 < 360 ∧ -90 ≤ (vec2raDec v).2 ∧ (vec2raDec v).2 ≤ 90 ∧
    raDec2vec (vec2raDec v).1 (vec2raDec v).2 = v := by
  have hp := pi_pos
  have hsq : v.x ^ 2 + v.y ^ 2 + v.z ^ 2 = 1 := by
    unfold Spec.length at h; exact Real.sqrt_eq_one.1 h
  obtain ⟨h1, h2⟩ := mod_mem (180 / π * arctan2 v.y v.x) 360 (by norm_num)
  have hz1 : -1 ≤ v.z := by nlinarith [sq_nonneg v.x, sq_nonneg v.y]
  have hz2 : v.z ≤ 1 := by nlinarith [sq_nonneg v.x, sq_nonneg v.y]
  have e1 : ∀ x, 180 / π * x = x * 180 / π := by intro x; ring
  refine ⟨h1, h2, ?_, ?_, ?_⟩
  · unfold vec2raDec
    simp only
    have := neg_pi_div_two_le_arcsin v.z
    rw [e1, le_div_iff₀ hp]; linarith
  · unfold vec2raDec
    simp only
    have := arcsin_le_pi_div_two v.z
    rw [e1, div_le_iff₀ hp]; linarith
  · have hdec : (vec2raDec v).2 * (π / 180) = arcsin v.z := by
      unfold vec2raDec; simp only; field_simp
    obtain ⟨k, hk⟩ : ∃ k : ℤ, (vec2raDec v).1 * (π / 180) = arctan2 v.y v.x + k * (2 * π) := by
      refine ⟨-⌊180 / π * arctan2 v.y v.x / 360⌋, ?_⟩
      unfold vec2raDec mod
      simp only
      push_cast
      field_simp
      ring
    unfold raDec2vec
    simp only
    rw [hdec, hk, cos_add_int_mul_two_pi, sin_add_int_mul_two_pi, sin_arcsin hz1 hz2, cos_arcsin]
    have hab : √(1 - v.z ^ 2) = ‖(⟨v.x, v.y⟩ : ℂ)‖ := by
      rw [Complex.norm_eq_sqrt_sq_add_sq]
      congr 1; simp only; linarith
    rw [hab]
    unfold arctan2
    apply vec_ext
    · simp only
      rw [mul_comm]
      exact Complex.norm_mul_cos_arg _
    · simp only
      rw [mul_comm]
      exact Complex.norm_mul_sin_arg _
    · rfl

/-- C54: conversely a right ascension in [0, 360) and a declination strictly between the poles are recovered from their
direction, which is a unit vector. -/
theorem C54_inverse (ra dec : ℝ) (h1 : 0 ≤ ra) (h2 : ra < 360) (h3 : -90 < dec) (h4 : dec < 90) :
    Spec.length (raDec2vec ra dec) = 1 ∧ vec2raDec (raDec2vec ra dec) = (ra, dec) := by
  have hp := pi_pos
  have hc : 0 < cos (dec * (π / 180)) := by
    apply cos_pos_of_mem_Ioo
    constructor <;> nlinarith
  constructor
  · unfold Spec.length raDec2vec
    rw [Real.sqrt_eq_one]
    simp only
    have := sin_sq_add_cos_sq (ra * (π / 180))
    have := sin_sq_add_cos_sq (dec * (π / 180))
    linear_combination this + cos (dec * (π / 180)) ^ 2 * ‹sin (ra * (π / 180)) ^ 2 + cos (ra * (π / 180)) ^ 2 = 1›
  · unfold vec2raDec raDec2vec
    simp only
    rw [arcsin_sin (by nlinarith) (by nlinarith)]
    refine Prod.ext ?_ (by simp only; field_simp)
    simp only
    obtain ⟨k, hk⟩ : ∃ k : ℤ, arctan2 (sin (ra * (π / 180)) * cos (dec * (π / 180))) (cos (ra * (π / 180)) * cos (dec * (π / 180))) =
        ra * (π / 180) + k * (2 * π) := by
      have hz : (⟨cos (ra * (π / 180)) * cos (dec * (π / 180)), sin (ra * (π / 180)) * cos (dec * (π / 180))⟩ : ℂ) =
          (cos (dec * (π / 180)) : ℝ) * (Complex.cos (ra * (π / 180) : ℝ) + Complex.sin (ra * (π / 180) : ℝ) * Complex.I) := by
        rw [← Complex.ofReal_cos, ← Complex.ofReal_sin]
        generalize cos (ra * (π / 180)) = u
        generalize cos (dec * (π / 180)) = w
        generalize sin (ra * (π / 180)) = z
        apply Complex.ext
        · simp [mul_comm]
        · simp [mul_comm]
      unfold arctan2
      rw [hz, Complex.arg_mul_cos_add_sin_mul_I_eq_toIocMod hc]
      refine ⟨-toIocDiv Real.two_pi_pos (-π) (ra * (π / 180)), ?_⟩
      have := toIocMod_add_toIocDiv_zsmul Real.two_pi_pos (-π) (ra * (π / 180))
      rw [zsmul_eq_mul] at this
      push_cast
      linarith
    rw [hk]
    have e : 180 / π * (ra * (π / 180) + k * (2 * π)) = ra + k * 360 := by field_simp; ring
    rw [e]
    exact mod_of_mem k (by norm_num) h1 h2

example : vec2raDec (raDec2vec 300 (-45)) = (300, -45) :=
  (C54_inverse 300 (-45) (by norm_num) (by norm_num) (by norm_num) (by norm_num)).2

/-! ## C48 -/

/-- C48 (basis): away from the poles the two directions are unit, orthogonal to each other and to the line of sight. -/
theorem C48_basis (v : Vec) (h : Spec.length v = 1) (hpole : v.z ^ 2 ≠ 1) :
    let A := (residualVectors v).1
    let D := (residualVectors v).2
    Spec.inner A A = 1 ∧ Spec.inner D D = 1 ∧ Spec.inner A D = 0 ∧ Spec.inner A v = 0 ∧ Spec.inner D v = 0 := by
  have hsq : v.x ^ 2 + v.y ^ 2 + v.z ^ 2 = 1 := by
    unfold Spec.length at h; exact Real.sqrt_eq_one.1 h
  have hpos : 0 < 1 - v.z * v.z := by
    have h0 : 0 ≤ 1 - v.z * v.z := by nlinarith [sq_nonneg v.x, sq_nonneg v.y]
    exact lt_of_le_of_ne h0 fun hh => hpole (by nlinarith)
  set c := √(1 - v.z * v.z) with hc
  have hcp : 0 < c := Real.sqrt_pos.2 hpos
  have hc2 : c ^ 2 = 1 - v.z * v.z := Real.sq_sqrt hpos.le
  unfold residualVectors Spec.inner
  simp only [← hc]
  have hxy : v.x ^ 2 + v.y ^ 2 = c ^ 2 := by rw [hc2]; linarith
  refine ⟨?_, ?_, ?_, ?_, ?_⟩
  · field_simp
    linear_combination hxy
  · have : -v.z * v.x / c * (-v.z * v.x / c) + -v.z * v.y / c * (-v.z * v.y / c) + c * c = v.z ^ 2 * (v.x ^ 2 + v.y ^ 2) / c ^ 2 + c ^ 2 := by
      field_simp
    rw [this, hxy, mul_div_assoc, div_self (by positivity), hc2]
    ring
  · field_simp; ring
  · field_simp; ring
  · have : -v.z * v.x / c * v.x + -v.z * v.y / c * v.y + c * v.z = v.z * (c ^ 2 - (v.x ^ 2 + v.y ^ 2)) / c := by
      field_simp; ring
    rw [this, hxy]; simp

/-- The residual vectors of a direction given by its right ascension and declination. -/
theorem residual_sky (a d : ℝ) (hd : 0 < cos d) :
    residualVectors (Spec.sky 1 a d) = (⟨-sin a, cos a, 0⟩, ⟨-(sin d * cos a), -(sin d * sin a), cos d⟩) := by
  have hc : √(1 - sin d * sin d) = cos d := by
    refine Eq.trans (congrArg Real.sqrt ?_) (Real.sqrt_sq hd.le)
    nlinarith [sin_sq_add_cos_sq d]
  unfold residualVectors Spec.sky
  simp only [one_mul, hc]
  refine Prod.ext (vec_ext ?_ ?_ ?_) (vec_ext ?_ ?_ ?_) <;> simp only <;> first | (rw [zero_div]) | field_simp

/-- C48 (rates): suppose the object is seen at distance `R s`, right ascension `a s` and declination `d s` at time `s`, these
are differentiable, and the velocity of the line of sight is the one the code uses. Then the reported rates are the derivative of
the right ascension times cos(dec), and of the declination, in degrees per day, the position is the reported one, and the range is
the distance. -/
theorem C48_rates (R a d : ℝ → ℝ) (R' a' d' t : ℝ) (hR : HasDerivAt R R' t) (ha : HasDerivAt a a' t) (hd : HasDerivAt d d' t)
    (hRp : 0 < R t) (hdp : 0 < cos (d t)) (rSun rObs vSun vObs rAst vAst : Vec)
    (hv : Spec.Velocity (fun s => Spec.sky (R s) (a s) (d s))
      ⟨vAst.x * (1 - Spec.inner (Spec.sky 1 (a t) (d t)) (Spec.fromTo vObs vAst) / speedOfLight) - vObs.x,
       vAst.y * (1 - Spec.inner (Spec.sky 1 (a t) (d t)) (Spec.fromTo vObs vAst) / speedOfLight) - vObs.y,
       vAst.z * (1 - Spec.inner (Spec.sky 1 (a t) (d t)) (Spec.fromTo vObs vAst) / speedOfLight) - vObs.z⟩ t) :
    let g := ratesAndGeometry rSun rObs vSun vObs (Spec.sky (R t) (a t) (d t)) rAst vAst (R t)
    g.raRate = a' * cos (d t) * (180 / π) ∧ g.decRate = d' * (180 / π) ∧ g.range = R t * auKm ∧
    raDec2vec g.ra g.dec = Spec.sky 1 (a t) (d t) := by
  have hhat : scale (1 / R t) (Spec.sky (R t) (a t) (d t)) = Spec.sky 1 (a t) (d t) := by
    unfold scale Spec.sky
    apply vec_ext <;> simp only <;> field_simp
  have hk : 1 / R t * dot3 (Spec.sky (R t) (a t) (d t)) (vAst - vObs) = Spec.inner (Spec.sky 1 (a t) (d t)) (Spec.fromTo vObs vAst) := by
    unfold dot3 Spec.inner Spec.sky Spec.fromTo
    simp only [sub_x, sub_y, sub_z]
    field_simp
  obtain ⟨hx, hy, hz⟩ := hv
  simp only [Spec.sky] at hx hy hz
  have dx := hx.unique (hR.mul ((hd.cos).mul (ha.cos)))
  have dy := hy.unique (hR.mul ((hd.cos).mul (ha.sin)))
  have dz := hz.unique (hR.mul hd.sin)
  have sa := sin_sq_add_cos_sq (a t)
  have sd := sin_sq_add_cos_sq (d t)
  set k := Spec.inner (Spec.sky 1 (a t) (d t)) (Spec.fromTo vObs vAst) with hkdef
  have hx' : vAst.x * (1 - k / speedOfLight) - vObs.x = _ := dx
  have hy' : vAst.y * (1 - k / speedOfLight) - vObs.y = _ := dy
  have hz' : vAst.z * (1 - k / speedOfLight) - vObs.z = _ := dz
  have hRn : R t ≠ 0 := hRp.ne'
  refine ⟨?_, ?_, rfl, ?_⟩
  · unfold ratesAndGeometry
    simp only [hhat, hk, residual_sky _ _ hdp]
    have : dot3 ⟨-sin (a t), cos (a t), 0⟩ (scale (1 / R t) (scale (1 - k / speedOfLight) vAst - vObs) - scale (k / R t) (Spec.sky 1 (a t) (d t))) =
        a' * cos (d t) := by
      unfold dot3 scale Spec.sky
      simp only [sub_x, sub_y, sub_z]
      rw [mul_comm _ vAst.x, mul_comm _ vAst.y, mul_comm _ vAst.z, hx', hy', hz']
      field_simp
      linear_combination (a' * cos (d t) * R t) * sa
    rw [this]; ring
  · unfold ratesAndGeometry
    simp only [hhat, hk, residual_sky _ _ hdp]
    have : dot3 ⟨-(sin (d t) * cos (a t)), -(sin (d t) * sin (a t)), cos (d t)⟩
        (scale (1 / R t) (scale (1 - k / speedOfLight) vAst - vObs) - scale (k / R t) (Spec.sky 1 (a t) (d t))) = d' := by
      unfold dot3 scale Spec.sky
      simp only [sub_x, sub_y, sub_z]
      rw [mul_comm _ vAst.x, mul_comm _ vAst.y, mul_comm _ vAst.z, hx', hy', hz']
      field_simp
      linear_combination (d' * R t * sin (d t) ^ 2 - R' * sin (d t) * cos (d t) + k * sin (d t) * cos (d t)) * sa + (d' * R t) * sd
    rw [this]; ring
  · have := (C54_round_trip (Spec.sky 1 (a t) (d t)) (by
      unfold Spec.length Spec.sky
      rw [Real.sqrt_eq_one]; simp only
      linear_combination (cos (d t) ^ 2) * sa + sd)).2.2.2.2
    unfold ratesAndGeometry
    simp only [hhat]
    exact this

/-- C48 (light time): with the light time included, so that the line of sight at time `s` ends at the position of the object at
`s - R s / c`, the reported rates differ from the true ones by terms of second order in velocity over light speed: for an object
of speed at most `V` moving at most `U` relative to the observer, the angular rates by at most `V * (U * V / (c - V)) / (c * R)` and the
range rate by at most `U * V / (c - V)`. -/
theorem C48_light_time (R a d : ℝ → ℝ) (R' a' d' t U V : ℝ) (hR : HasDerivAt R R' t) (ha : HasDerivAt a a' t) (hd : HasDerivAt d d' t)
    (hRp : 0 < R t) (hdp : 0 < cos (d t)) (rSun rObs vSun vObs rAst vAst : Vec)
    (hv : Spec.Velocity (fun s => Spec.sky (R s) (a s) (d s))
      ⟨vAst.x * (1 - R' / speedOfLight) - vObs.x, vAst.y * (1 - R' / speedOfLight) - vObs.y,
       vAst.z * (1 - R' / speedOfLight) - vObs.z⟩ t)
    (hV : Spec.length vAst ≤ V) (hVc : V < speedOfLight) (hU : Spec.length (Spec.fromTo vObs vAst) ≤ U) :
    let g := ratesAndGeometry rSun rObs vSun vObs (Spec.sky (R t) (a t) (d t)) rAst vAst (R t)
    |g.raRate - a' * cos (d t) * (180 / π)| ≤ V * (U * V / (speedOfLight - V)) / (speedOfLight * R t) * (180 / π) ∧
    |g.decRate - d' * (180 / π)| ≤ V * (U * V / (speedOfLight - V)) / (speedOfLight * R t) * (180 / π) ∧
    |g.rangeRate - R' * auKm / 86400| ≤ U * V / (speedOfLight - V) * auKm / 86400 := by
  have hp := pi_pos
  have hau : 0 < auKm := by unfold auKm; norm_num
  set c := speedOfLight with hcdef
  have hV0 : 0 ≤ V := le_trans (Real.sqrt_nonneg _) hV
  have hU0 : 0 ≤ U := le_trans (Real.sqrt_nonneg _) hU
  have hc : 0 < c := lt_of_le_of_lt hV0 hVc
  have hhat : scale (1 / R t) (Spec.sky (R t) (a t) (d t)) = Spec.sky 1 (a t) (d t) := by
    unfold scale Spec.sky
    apply vec_ext <;> simp only <;> field_simp
  set κ := Spec.inner (Spec.sky 1 (a t) (d t)) (Spec.fromTo vObs vAst) with hκ
  have hk : 1 / R t * dot3 (Spec.sky (R t) (a t) (d t)) (vAst - vObs) = κ := by
    rw [hκ]
    unfold dot3 Spec.inner Spec.sky Spec.fromTo
    simp only [sub_x, sub_y, sub_z]
    field_simp
  obtain ⟨hx, hy, hz⟩ := hv
  simp only [Spec.sky] at hx hy hz
  have dx := hx.unique (hR.mul ((hd.cos).mul (ha.cos)))
  have dy := hy.unique (hR.mul ((hd.cos).mul (ha.sin)))
  have dz := hz.unique (hR.mul hd.sin)
  have hx' : vAst.x * (1 - R' / c) - vObs.x = _ := dx
  have hy' : vAst.y * (1 - R' / c) - vObs.y = _ := dy
  have hz' : vAst.z * (1 - R' / c) - vObs.z = _ := dz
  have sa := sin_sq_add_cos_sq (a t)
  have sd := sin_sq_add_cos_sq (d t)
  have hRn : R t ≠ 0 := hRp.ne'
  -- Cauchy-Schwarz against a unit vector
  have cs : ∀ u w : Vec, u.x ^ 2 + u.y ^ 2 + u.z ^ 2 = 1 → |Spec.inner u w| ≤ Spec.length w := by
    intro u w hu
    have := abs_real_inner_le_norm u.toE w.toE
    rw [inner_toE, ← length_toE, ← length_toE] at this
    have hu1 : Spec.length u = 1 := by unfold Spec.length; rw [hu, Real.sqrt_one]
    rw [hu1, one_mul] at this
    exact this
  have hsky : (Spec.sky 1 (a t) (d t)).x ^ 2 + (Spec.sky 1 (a t) (d t)).y ^ 2 + (Spec.sky 1 (a t) (d t)).z ^ 2 = 1 := by
    unfold Spec.sky; simp only
    linear_combination (cos (d t) ^ 2) * sa + sd
  set q := Spec.inner (Spec.sky 1 (a t) (d t)) vAst with hq
  have hqV : |q| ≤ V := le_trans (cs _ _ hsky) hV
  have hκU : |κ| ≤ U := le_trans (cs _ _ hsky) hU
  have hrel : R' * (c + q) = κ * c := by
    have h1 : κ - R' / c * q = R' := by
      rw [hκ, hq]
      unfold Spec.inner Spec.sky Spec.fromTo
      simp only [one_mul]
      have : cos (d t) * cos (a t) * (vAst.x * (1 - R' / c) - vObs.x) + cos (d t) * sin (a t) * (vAst.y * (1 - R' / c) - vObs.y) +
          sin (d t) * (vAst.z * (1 - R' / c) - vObs.z) = R' := by
        rw [hx', hy', hz']
        linear_combination (R' * cos (d t) ^ 2 - R t * d' * cos (d t) * sin (d t)) * sa + R' * sd
      linear_combination this
    field_simp at h1
    linarith
  obtain ⟨q1, q2⟩ := abs_le.1 hqV
  have hcq : 0 < c + q := by linarith
  have hcV : 0 < c - V := by linarith
  have hdiff : |κ - R'| ≤ U * V / (c - V) := by
    have e : κ - R' = κ * q / (c + q) := by
      have : R' = κ * c / (c + q) := by rw [eq_div_iff hcq.ne']; exact hrel
      rw [this]; field_simp; ring
    rw [e, abs_div, abs_mul, abs_of_pos hcq]
    apply div_le_div₀ (by positivity) (mul_le_mul hκU hqV (abs_nonneg _) hU0) hcV (by linarith)
  have bound : ∀ u : Vec, u.x ^ 2 + u.y ^ 2 + u.z ^ 2 = 1 →
      |Spec.inner u vAst * (κ - R') / (c * R t)| ≤ V * (U * V / (c - V)) / (c * R t) := by
    intro u hu
    rw [abs_div, abs_mul, abs_of_pos (mul_pos hc hRp)]
    have h1 := le_trans (cs u vAst hu) hV
    gcongr
  refine ⟨?_, ?_, ?_⟩
  · unfold ratesAndGeometry
    simp only [hhat, hk, residual_sky _ _ hdp]
    have : dot3 ⟨-sin (a t), cos (a t), 0⟩ (scale (1 / R t) (scale (1 - κ / c) vAst - vObs) - scale (κ / R t) (Spec.sky 1 (a t) (d t))) =
        a' * cos (d t) - Spec.inner ⟨-sin (a t), cos (a t), 0⟩ vAst * (κ - R') / (c * R t) := by
      have e : ∀ w : ℝ, (1 - κ / c) * w = w * (1 - R' / c) - w * (κ - R') / c := by intro w; field_simp; ring
      unfold dot3 scale Spec.sky Spec.inner
      simp only [sub_x, sub_y, sub_z]
      rw [e, e, e, sub_right_comm _ _ vObs.x, sub_right_comm _ _ vObs.y, sub_right_comm _ _ vObs.z, hx', hy', hz']
      field_simp
      linear_combination (c * a' * cos (d t) * R t) * sa
    rw [this]
    have e : (a' * cos (d t) - Spec.inner ⟨-sin (a t), cos (a t), 0⟩ vAst * (κ - R') / (c * R t)) * 180 / π - a' * cos (d t) * (180 / π) =
        -(Spec.inner ⟨-sin (a t), cos (a t), 0⟩ vAst * (κ - R') / (c * R t)) * (180 / π) := by ring
    rw [e, abs_mul, abs_neg, abs_of_pos (show 0 < 180 / π by positivity)]
    have := bound ⟨-sin (a t), cos (a t), 0⟩ (by simp only; linear_combination sa)
    gcongr
  · unfold ratesAndGeometry
    simp only [hhat, hk, residual_sky _ _ hdp]
    have : dot3 ⟨-(sin (d t) * cos (a t)), -(sin (d t) * sin (a t)), cos (d t)⟩
        (scale (1 / R t) (scale (1 - κ / c) vAst - vObs) - scale (κ / R t) (Spec.sky 1 (a t) (d t))) =
        d' - Spec.inner ⟨-(sin (d t) * cos (a t)), -(sin (d t) * sin (a t)), cos (d t)⟩ vAst * (κ - R') / (c * R t) := by
      have e : ∀ w : ℝ, (1 - κ / c) * w = w * (1 - R' / c) - w * (κ - R') / c := by intro w; field_simp; ring
      unfold dot3 scale Spec.sky Spec.inner
      simp only [sub_x, sub_y, sub_z]
      rw [e, e, e, sub_right_comm _ _ vObs.x, sub_right_comm _ _ vObs.y, sub_right_comm _ _ vObs.z, hx', hy', hz']
      field_simp
      linear_combination (c * (d' * R t * sin (d t) ^ 2 - R' * sin (d t) * cos (d t) + κ * sin (d t) * cos (d t))) * sa + (c * d' * R t) * sd
    rw [this]
    have e : (d' - Spec.inner ⟨-(sin (d t) * cos (a t)), -(sin (d t) * sin (a t)), cos (d t)⟩ vAst * (κ - R') / (c * R t)) * 180 / π -
        d' * (180 / π) =
        -(Spec.inner ⟨-(sin (d t) * cos (a t)), -(sin (d t) * sin (a t)), cos (d t)⟩ vAst * (κ - R') / (c * R t)) * (180 / π) := by ring
    rw [e, abs_mul, abs_neg, abs_of_pos (show 0 < 180 / π by positivity)]
    have := bound ⟨-(sin (d t) * cos (a t)), -(sin (d t) * sin (a t)), cos (d t)⟩ (by
      simp only; linear_combination (sin (d t) ^ 2) * sa + sd)
    gcongr
  · unfold ratesAndGeometry
    simp only [hk]
    have e : κ * auKm / (24 * 60 * 60) - R' * auKm / 86400 = (κ - R') * (auKm / 86400) := by ring
    have e2 : U * V / (c - V) * auKm / 86400 = U * V / (c - V) * (auKm / 86400) := by ring
    rw [e, e2, abs_mul, abs_of_pos (show 0 < auKm / 86400 by positivity)]
    gcongr

/-- Non-trivial case for the hypotheses of both theorems: an object circling an observer at rest at distance 1 and 1 radian per
day, seen at right ascension 0 on the equator. -/
theorem circling : Spec.Velocity (fun s => Spec.sky ((fun _ => (1 : ℝ)) s) s ((fun _ => (0 : ℝ)) s)) ⟨0, 1, 0⟩ 0 := by
  have h1 := hasDerivAt_cos 0
  have h2 := hasDerivAt_sin 0
  rw [sin_zero, neg_zero] at h1
  rw [cos_zero] at h2
  refine ⟨?_, ?_, ?_⟩
  · simpa [Spec.sky] using h1
  · simpa [Spec.sky] using h2
  · simpa [Spec.sky] using hasDerivAt_const (0 : ℝ) (0 : ℝ)

example : (ratesAndGeometry ⟨0, 0, 0⟩ ⟨1, 0, 0⟩ ⟨0, 0, 0⟩ ⟨0, 0, 0⟩ (Spec.sky 1 0 0) ⟨2, 0, 0⟩ ⟨0, 1, 0⟩ 1).raRate = 180 / π := by
  have := (C48_rates (fun _ => 1) id (fun _ => 0) 0 1 0 0 (hasDerivAt_const _ _) (hasDerivAt_id _) (hasDerivAt_const _ _)
    one_pos (by simp) ⟨0, 0, 0⟩ ⟨1, 0, 0⟩ ⟨0, 0, 0⟩ ⟨0, 0, 0⟩ ⟨2, 0, 0⟩ ⟨0, 1, 0⟩ (by
      simpa [Spec.inner, Spec.sky, Spec.fromTo] using circling)).1
  simpa using this

example : |(ratesAndGeometry ⟨0, 0, 0⟩ ⟨1, 0, 0⟩ ⟨0, 0, 0⟩ ⟨0, 0, 0⟩ (Spec.sky 1 0 0) ⟨2, 0, 0⟩ ⟨0, 1, 0⟩ 1).raRate - 180 / π| ≤
    1 * (1 * 1 / (speedOfLight - 1)) / (speedOfLight * 1) * (180 / π) := by
  have := (C48_light_time (fun _ => 1) id (fun _ => 0) 0 1 0 0 1 1 (hasDerivAt_const _ _) (hasDerivAt_id _) (hasDerivAt_const _ _)
    one_pos (by simp) ⟨0, 0, 0⟩ ⟨1, 0, 0⟩ ⟨0, 0, 0⟩ ⟨0, 0, 0⟩ ⟨2, 0, 0⟩ ⟨0, 1, 0⟩ (by
      simpa [Spec.inner, Spec.sky, Spec.fromTo] using circling) (by simp [Spec.length]) (by unfold speedOfLight auKm; norm_num)
    (by simp [Spec.length, Spec.fromTo])).1
  simpa using this

/-- C48 (range rate): if the velocity of the line of sight is the difference of the velocities of object and observer, the
reported range rate is the derivative of the distance, in kilometres per second. -/
theorem C48_range_rate (rho : ℝ → Vec) (R : ℝ → ℝ) (R' t : ℝ) (rSun rObs vSun vObs rAst vAst : Vec)
    (hdist : ∀ s, R s = Spec.length (rho s)) (hpos : 0 < R t) (hR : HasDerivAt R R' t)
    (hv : Spec.Velocity rho (Spec.fromTo vObs vAst) t) :
    (ratesAndGeometry rSun rObs vSun vObs (rho t) rAst vAst (R t)).rangeRate = R' * auKm / 86400 := by
  obtain ⟨hx, hy, hz⟩ := hv
  have hsq : ∀ s, R s * R s = (rho s).x * (rho s).x + (rho s).y * (rho s).y + (rho s).z * (rho s).z := by
    intro s
    rw [hdist]
    unfold Spec.length
    rw [Real.mul_self_sqrt (by positivity)]; ring
  have h1 := hR.mul hR
  have h2 := ((hx.mul hx).add (hy.mul hy)).add (hz.mul hz)
  have heq : (R * R) = ((fun s => (rho s).x) * fun s => (rho s).x) + ((fun s => (rho s).y) * fun s => (rho s).y) +
      ((fun s => (rho s).z) * fun s => (rho s).z) := by
    funext s; exact hsq s
  rw [heq] at h1
  have := h1.unique h2
  unfold ratesAndGeometry
  simp only
  have hk : 1 / R t * dot3 (rho t) (vAst - vObs) = R' := by
    unfold dot3
    simp only [sub_x, sub_y, sub_z]
    unfold Spec.fromTo at this
    simp only at this
    field_simp
    linarith
  rw [hk]
  norm_num

/-- C48 (phase): the reported phase angle lies between 0 and 180 degrees and is the angle at the object between the
directions to the Sun and to the observer. -/
theorem C48_phase (rSun rObs vSun vObs rho rAst vAst : Vec) (rhoMag : ℝ) (h1 : rAst ≠ rSun) (h2 : rAst ≠ rObs) :
    let α := (ratesAndGeometry rSun rObs vSun vObs rho rAst vAst rhoMag).phase
    0 ≤ α ∧ α ≤ 180 ∧ cos (α * (π / 180)) * (Spec.length (Spec.fromTo rAst rSun) * Spec.length (Spec.fromTo rAst rObs)) =
      Spec.inner (Spec.fromTo rAst rSun) (Spec.fromTo rAst rObs) := by
  have hp := pi_pos
  unfold ratesAndGeometry
  simp only
  have hneg : ∀ a b : Vec, Spec.length (Spec.fromTo a b) = norm3 (a - b) := by
    intro a b; rw [norm3_eq]; unfold Spec.length Spec.fromTo; simp only [sub_x, sub_y, sub_z]; congr 1; ring
  have hdot : Spec.inner (Spec.fromTo rAst rSun) (Spec.fromTo rAst rObs) = dot3 (rAst - rSun) (rAst - rObs) := by
    unfold Spec.inner Spec.fromTo dot3; simp only [sub_x, sub_y, sub_z]; ring
  have hpos : ∀ a b : Vec, a ≠ b → 0 < norm3 (a - b) := by
    intro a b hab
    rw [norm3_eq, length_toE]
    apply norm_pos_iff.2
    intro h0
    apply hab
    have : (a - b).x = 0 ∧ (a - b).y = 0 ∧ (a - b).z = 0 := by
      have e := norm_toE (a - b)
      rw [h0, norm_zero] at e
      have e2 := (Real.sqrt_eq_zero (by positivity)).1 e.symm
      refine ⟨?_, ?_, ?_⟩ <;> nlinarith [sq_nonneg (a - b).x, sq_nonneg (a - b).y, sq_nonneg (a - b).z]
    obtain ⟨e1, e2, e3⟩ := this
    simp only [sub_x, sub_y, sub_z] at e1 e2 e3
    exact vec_ext (by linarith) (by linarith) (by linarith)
  have hs := hpos _ _ h1
  have ho := hpos _ _ h2
  rw [hneg, hneg, hdot]
  set D := dot3 (rAst - rSun) (rAst - rObs) with hD
  set M := norm3 (rAst - rSun) * norm3 (rAst - rObs) with hM
  have hMp : 0 < M := mul_pos hs ho
  have hcs : |D| ≤ M := by
    have := abs_real_inner_le_norm (rAst - rSun).toE (rAst - rObs).toE
    rw [inner_toE, ← length_toE, ← length_toE, ← norm3_eq, ← norm3_eq] at this
    exact this
  obtain ⟨c1, c2⟩ := abs_le.1 hcs
  have e1 : arccos (D / M) * 180 / π * (π / 180) = arccos (D / M) := by field_simp
  refine ⟨?_, ?_, ?_⟩
  · have := arccos_nonneg (D / M); positivity
  · rw [div_le_iff₀ hp]; have := arccos_le_pi (D / M); linarith
  · rw [e1, cos_arccos (by rw [le_div_iff₀ hMp]; linarith) (by rw [div_le_iff₀ hMp]; linarith)]
    field_simp

/-- C48 (states): the state columns are differences of the given states in kilometres and kilometres per second. -/
theorem C48_states (rSun rObs vSun vObs rho rAst vAst : Vec) (rhoMag : ℝ) :
    let g := ratesAndGeometry rSun rObs vSun vObs rho rAst vAst rhoMag
    g.objSun = scale 149597870.7 (Spec.fromTo rSun rAst) ∧ g.obsSun = scale 149597870.7 (Spec.fromTo rSun rObs) ∧
    g.objSunV = scale (149597870.7 / 86400) (Spec.fromTo vSun vAst) ∧ g.obsSunV = scale (149597870.7 / 86400) (Spec.fromTo vSun vObs) := by
  unfold ratesAndGeometry auKm
  simp only [fromTo_eq]
  norm_num

/-! ## C53: light time -/

/-- C53: the light time is consistent with the returned vector, the returned vector is the position of the object at the
previous estimate of the emission time seen from the observer, and if the object moves more slowly than light, with speed at most
`v`, every pass reduces the distance to any exact solution `τ` at least by the factor `v / c`. -/
theorem C53_light_time (pos vel : ℝ → Vec) (t : ℝ) (rObs : Vec) (c v lt0 τ : ℝ) (hc : 0 < c) (hv : 0 ≤ v)
    (hspeed : ∀ s s', Spec.length (Spec.fromTo (pos s') (pos s)) ≤ v * |s - s'|)
    (hτ : c * τ = Spec.length (Spec.fromTo rObs (pos (t - τ)))) (n : ℕ) :
    let out := integrateLightTime pos vel t rObs c lt0 n
    out.2.1 = Spec.length out.1 ∧ c * out.2.2.1 = out.2.1 ∧ out.1 = Spec.fromTo rObs out.2.2.2.1 ∧
    (∃ s, out.2.2.2 = (pos s, vel s) ∧ |(t - s) - τ| ≤ (v / c) ^ n * |lt0 - τ|) ∧
    |out.2.2.1 - τ| ≤ (v / c) ^ (n + 1) * |lt0 - τ| := by
  have step : ∀ lt, |(lightTimeStep pos vel t rObs c lt).2.2.1 - τ| ≤ v / c * |lt - τ| := by
    intro lt
    unfold lightTimeStep
    simp only
    have hτ' : τ = Spec.length (Spec.fromTo rObs (pos (t - τ))) / c := by field_simp; linarith
    have key : |norm3 (pos (t - lt) - rObs) - Spec.length (Spec.fromTo rObs (pos (t - τ)))| ≤ v * |lt - τ| := by
      rw [norm3_eq, fromTo_eq, length_toE, length_toE, toE_sub, toE_sub]
      refine le_trans (abs_norm_sub_norm_le _ _) ?_
      rw [sub_sub_sub_cancel_right, ← toE_sub, ← length_toE, ← fromTo_eq]
      refine le_trans (hspeed _ _) (le_of_eq ?_)
      congr 1
      rw [show t - lt - (t - τ) = -(lt - τ) by ring, abs_neg]
    calc |norm3 (pos (t - lt) - rObs) / c - τ|
        = |norm3 (pos (t - lt) - rObs) - Spec.length (Spec.fromTo rObs (pos (t - τ)))| / c := by
          rw [← abs_of_pos hc, ← abs_div, abs_of_pos hc, sub_div, ← hτ']
      _ ≤ v * |lt - τ| / c := by gcongr
      _ = v / c * |lt - τ| := by ring
  have conv : ∀ m, |(integrateLightTime pos vel t rObs c lt0 m).2.2.1 - τ| ≤ (v / c) ^ (m + 1) * |lt0 - τ| := by
    intro m
    induction m with
    | zero => simpa [integrateLightTime] using step lt0
    | succ m ih =>
      unfold integrateLightTime
      refine le_trans (step _) ?_
      calc v / c * |(integrateLightTime pos vel t rObs c lt0 m).2.2.1 - τ|
          ≤ v / c * ((v / c) ^ (m + 1) * |lt0 - τ|) := by gcongr
        _ = (v / c) ^ (m + 1 + 1) * |lt0 - τ| := by ring
  have shape : ∀ lt, let out := lightTimeStep pos vel t rObs c lt
      out.2.1 = Spec.length out.1 ∧ c * out.2.2.1 = out.2.1 ∧ out.1 = Spec.fromTo rObs out.2.2.2.1 ∧ out.2.2.2 = (pos (t - lt), vel (t - lt)) := by
    intro lt
    refine ⟨norm3_eq _, ?_, rfl, rfl⟩
    unfold lightTimeStep
    simp only
    rw [mul_div_cancel₀ _ hc.ne']
  cases n with
  | zero =>
    obtain ⟨s1, s2, s3, s4⟩ := shape lt0
    refine ⟨s1, s2, s3, ⟨t - lt0, s4, ?_⟩, conv 0⟩
    simp
  | succ n =>
    obtain ⟨s1, s2, s3, s4⟩ := shape (integrateLightTime pos vel t rObs c lt0 n).2.2.1
    refine ⟨s1, s2, s3, ⟨_, s4, ?_⟩, conv (n + 1)⟩
    rw [sub_sub_cancel]
    exact conv n

/-- An object at rest 3 units away, light speed 1: one pass is exact. -/
example : (integrateLightTime (fun _ => ⟨3, 0, 0⟩) (fun _ => ⟨0, 0, 0⟩) 0 ⟨0, 0, 0⟩ 1 0.01 2).2.2.1 = 3 := by
  unfold integrateLightTime lightTimeStep norm3 dot3
  simp

end Sorcha.Ephem.Props
