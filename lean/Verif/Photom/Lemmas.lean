import Verif.Photom.Model
import Mathlib.Geometry.Euclidean.Angle.Unoriented.Basic
import Mathlib.Geometry.Euclidean.Angle.Unoriented.TriangleInequality
import Mathlib.Analysis.InnerProductSpace.PiL2
import Mathlib.Tactic.Linarith
import Mathlib.Tactic.Positivity
import Mathlib.Tactic.FieldSimp
import Mathlib.Tactic.Ring
import Mathlib.Tactic.NormNum

/-!
# Lemmas about the photometric formulas
-/

namespace Sorcha.Photom
open Real

theorem log10_lt {x y : ℝ} (hx : 0 < x) (h : x < y) : log10 x < log10 y := Real.logb_lt_logb (by norm_num) hx h

theorem log10_le {x y : ℝ} (hx : 0 < x) (h : x ≤ y) : log10 x ≤ log10 y := Real.logb_le_logb_of_le (by norm_num) hx h

theorem log10_lt_iff {x y : ℝ} (hx : 0 < x) (hy : 0 < y) : log10 x < log10 y ↔ x < y :=
  Real.logb_lt_logb_iff (by norm_num) hx hy

theorem log10_one : log10 1 = 0 := Real.logb_one

theorem pow_log10 {x : ℝ} (hx : 0 < x) : (10 : ℝ) ^ log10 x = x := Real.rpow_logb (by norm_num) (by norm_num) hx

theorem log10_pow (y : ℝ) : log10 ((10 : ℝ) ^ y) = y := Real.logb_rpow (by norm_num) (by norm_num)

/-! ## Trailing -/

/-- The argument of the logarithm. -/
noncomputable def trailArg (a b x : ℝ) : ℝ := 1 + a * x ^ 2 / (1 + b * x)

theorem trailArg_one_le {a b x : ℝ} (ha : 0 < a) (hb : 0 < b) (hx : 0 ≤ x) : 1 ≤ trailArg a b x := by
  unfold trailArg
  have : 0 ≤ a * x ^ 2 / (1 + b * x) := by positivity
  linarith

theorem trailArg_lt {a b x y : ℝ} (ha : 0 < a) (hb : 0 < b) (hx : 0 ≤ x) (h : x < y) : trailArg a b x < trailArg a b y := by
  unfold trailArg
  have hy : 0 ≤ y := by linarith
  have h1 : 0 < 1 + b * x := by positivity
  have h2 : 0 < 1 + b * y := by positivity
  have : a * x ^ 2 / (1 + b * x) < a * y ^ 2 / (1 + b * y) := by
    rw [div_lt_div_iff₀ h1 h2]
    have e1 : x ^ 2 < y ^ 2 := by nlinarith
    have e2 : x ^ 2 * y ≤ x * y ^ 2 := by nlinarith [mul_nonneg hx hy, mul_nonneg (mul_nonneg hx hy) (sub_nonneg.2 h.le)]
    have e3 : 0 ≤ b * (x * y ^ 2 - x ^ 2 * y) := mul_nonneg hb.le (by linarith)
    have e4 : 0 < a * ((y ^ 2 - x ^ 2) + b * (x * y ^ 2 - x ^ 2 * y)) := mul_pos ha (by linarith)
    nlinarith
  linarith

theorem trailArg_lt_iff {a b x y : ℝ} (ha : 0 < a) (hb : 0 < b) (hx : 0 ≤ x) (hy : 0 ≤ y) :
    trailArg a b x < trailArg a b y ↔ x < y := by
  constructor
  · intro h
    by_contra hn
    rcases (not_lt.1 hn).lt_or_eq with h1 | h1
    · have := trailArg_lt ha hb hy h1; linarith
    · rw [h1] at h; exact lt_irrefl _ h
  · exact trailArg_lt ha hb hx

/-! ## Signal to noise -/

theorem xval_lt {d e : ℝ} (h : d < e) : (10 : ℝ) ^ (0.4 * d) < (10 : ℝ) ^ (0.4 * e) :=
  Real.rpow_lt_rpow_of_exponent_lt (by norm_num) (by linarith)

/-- The radicand as a function of `x = 10^(0.4 (m - m5))`. -/
noncomputable def rad (x : ℝ) : ℝ := (0.04 - 0.039) * x + 0.039 * x * x

theorem rad_pos {x : ℝ} (h : 0 < x) : 0 < rad x := by
  unfold rad
  have : 0 < x * x := by positivity
  nlinarith

theorem rad_lt {x y : ℝ} (hx : 0 < x) (h : x < y) : rad x < rad y := by
  unfold rad
  have : x * x < y * y := by nlinarith
  nlinarith

theorem calcSNR_eq (mag m5 : ℝ) : calcSNR mag m5 = 1 / √(rad ((10 : ℝ) ^ (0.4 * (mag - m5)))) := rfl

theorem calcSNR_pos (mag m5 : ℝ) : 0 < calcSNR mag m5 := by
  rw [calcSNR_eq]
  have := rad_pos (x := (10 : ℝ) ^ (0.4 * (mag - m5))) (by positivity)
  positivity

theorem calcSNR_lt {mag m5 mag' m5' : ℝ} (h : mag - m5 < mag' - m5') : calcSNR mag' m5' < calcSNR mag m5 := by
  rw [calcSNR_eq, calcSNR_eq]
  have hx : (0 : ℝ) < (10 : ℝ) ^ (0.4 * (mag - m5)) := by positivity
  have h0 := rad_pos hx
  have h1 := rad_lt hx (xval_lt h)
  exact one_div_lt_one_div_of_lt (Real.sqrt_pos.2 h0) (Real.sqrt_lt_sqrt h0.le h1)

theorem photUnc_pos {s : ℝ} (h : 0 < s) : 0 < calcPhotometricUncertainty s := by
  unfold calcPhotometricUncertainty
  have : log10 1 < log10 (1 + 1 / s) := log10_lt (by norm_num) (by have : 0 < 1 / s := by positivity
                                                                   linarith)
  rw [log10_one] at this
  linarith

theorem photUnc_lt {s t : ℝ} (h : 0 < s) (hst : s < t) : calcPhotometricUncertainty t < calcPhotometricUncertainty s := by
  unfold calcPhotometricUncertainty
  have h1 : 1 / t < 1 / s := one_div_lt_one_div_of_lt h hst
  have h2 : 0 < 1 / t := by have : 0 < t := h.trans hst
                            positivity
  have : log10 (1 + 1 / t) < log10 (1 + 1 / s) := log10_lt (by linarith) (by linarith)
  linarith

/-! ## Vignetting -/

/-- The abscissae increase, the ordinates do not. -/
def Falling (l : List (ℝ × ℝ)) : Prop := l.IsChain fun p q => p.1 < q.1 ∧ q.2 ≤ p.2

theorem interp_le_head (p : ℝ × ℝ) (l : List (ℝ × ℝ)) (h : Falling (p :: l)) (x : ℝ) : interp (p :: l) x ≤ p.2 := by
  induction l generalizing p with
  | nil => exact le_refl _
  | cons q l ih =>
    obtain ⟨⟨h1, h2⟩, h3⟩ := List.isChain_cons_cons.1 h
    unfold interp
    split_ifs with c1 c2
    · exact le_refl _
    · have : (q.2 - p.2) / (q.1 - p.1) * (x - p.1) ≤ 0 :=
        mul_nonpos_of_nonpos_of_nonneg (div_nonpos_of_nonpos_of_nonneg (by linarith) (by linarith)) (by linarith)
      linarith
    · exact (ih q h3).trans h2

theorem last_le_interp (p : ℝ × ℝ) (l : List (ℝ × ℝ)) (h : Falling (p :: l)) (x : ℝ) :
    ((p :: l).getLast (by simp)).2 ≤ interp (p :: l) x := by
  have hlast : ∀ (p : ℝ × ℝ) (l : List (ℝ × ℝ)), Falling (p :: l) → ((p :: l).getLast (by simp)).2 ≤ p.2 := by
    intro p l
    induction l generalizing p with
    | nil => intro _; exact le_refl _
    | cons q l ih =>
      intro h
      obtain ⟨⟨h1, h2⟩, h3⟩ := List.isChain_cons_cons.1 h
      rw [List.getLast_cons (by simp)]
      exact (ih q h3).trans h2
  induction l generalizing p with
  | nil => exact le_refl _
  | cons q l ih =>
    obtain ⟨⟨h1, h2⟩, h3⟩ := List.isChain_cons_cons.1 h
    have hl := hlast q l h3
    rw [List.getLast_cons (by simp)]
    unfold interp
    split_ifs with c1 c2
    · exact hl.trans h2
    · have hd : 0 < q.1 - p.1 := by linarith
      have e : (q.2 - p.2) / (q.1 - p.1) * (x - p.1) ≥ q.2 - p.2 := by
        rw [ge_iff_le, div_mul_eq_mul_div, le_div_iff₀ hd]
        nlinarith
      linarith
    · exact ih q h3

theorem interp_anti (l : List (ℝ × ℝ)) (h : Falling l) {x y : ℝ} (hxy : x ≤ y) : interp l y ≤ interp l x := by
  induction l with
  | nil => exact le_refl _
  | cons p l ih =>
    cases l with
    | nil => exact le_refl _
    | cons q l =>
      obtain ⟨⟨h1, h2⟩, h3⟩ := List.isChain_cons_cons.1 h
      by_cases c1 : x ≤ p.1
      · have : interp (p :: q :: l) x = p.2 := by unfold interp; rw [if_pos c1]
        rw [this]
        exact interp_le_head p (q :: l) h y
      · have d1 : ¬ y ≤ p.1 := fun hh => c1 (hxy.trans hh)
        have hd : 0 < q.1 - p.1 := by linarith
        have hs : (q.2 - p.2) / (q.1 - p.1) ≤ 0 := div_nonpos_of_nonpos_of_nonneg (by linarith) hd.le
        by_cases c2 : x < q.1
        · have ex : interp (p :: q :: l) x = p.2 + (q.2 - p.2) / (q.1 - p.1) * (x - p.1) := by
            unfold interp; rw [if_neg c1, if_pos c2]
          rw [ex]
          by_cases d2 : y < q.1
          · have ey : interp (p :: q :: l) y = p.2 + (q.2 - p.2) / (q.1 - p.1) * (y - p.1) := by
              unfold interp; rw [if_neg d1, if_pos d2]
            rw [ey]
            nlinarith
          · have ey : interp (p :: q :: l) y = interp (q :: l) y := by
              conv_lhs => unfold interp
              rw [if_neg d1, if_neg d2]
            rw [ey]
            have := interp_le_head q l h3 y
            have e : (q.2 - p.2) / (q.1 - p.1) * (x - p.1) ≥ q.2 - p.2 := by
              rw [ge_iff_le, div_mul_eq_mul_div, le_div_iff₀ hd]
              nlinarith
            linarith
        · have d2 : ¬ y < q.1 := fun hh => c2 (lt_of_le_of_lt hxy hh)
          have ex : interp (p :: q :: l) x = interp (q :: l) x := by
            conv_lhs => unfold interp
            rw [if_neg c1, if_neg c2]
          have ey : interp (p :: q :: l) y = interp (q :: l) y := by
            conv_lhs => unfold interp
            rw [if_neg d1, if_neg d2]
          rw [ex, ey]
          exact ih h3

theorem head_lt_of_mem (p : ℝ × ℝ) (l : List (ℝ × ℝ)) (h : Falling (p :: l)) : ∀ q ∈ l, p.1 < q.1 := by
  induction l generalizing p with
  | nil => simp
  | cons q l ih =>
    obtain ⟨⟨h1, h2⟩, h3⟩ := List.isChain_cons_cons.1 h
    intro r hr
    rcases List.mem_cons.1 hr with rfl | hr
    · exact h1
    · exact h1.trans (ih q h3 r hr)

theorem interp_node (l : List (ℝ × ℝ)) (h : Falling l) (p : ℝ × ℝ) (hp : p ∈ l) : interp l p.1 = p.2 := by
  induction l with
  | nil => simp at hp
  | cons a l ih =>
    cases l with
    | nil => simp at hp; subst hp; rfl
    | cons b l =>
      obtain ⟨⟨h1, h2⟩, h3⟩ := List.isChain_cons_cons.1 h
      rcases List.mem_cons.1 hp with rfl | hp'
      · unfold interp; rw [if_pos (le_refl _)]
      · have hlt := head_lt_of_mem a _ h p hp'
        have hle : ¬ p.1 < b.1 := by
          rcases List.mem_cons.1 hp' with rfl | hp''
          · exact lt_irrefl _
          · exact (head_lt_of_mem b l h3 p hp'').not_gt
        conv_lhs => unfold interp
        rw [if_neg (not_le.2 hlt), if_neg hle]
        exact ih h3 hp'

theorem vignetTable_chain : vignetTable.IsChain fun p q => p.1 < q.1 ∧ q.2 ≤ p.2 := by decide +kernel

theorem falling_map (l : List (ℕ × ℕ)) (h : l.IsChain fun p q => p.1 < q.1 ∧ q.2 ≤ p.2) :
    Falling (l.map fun p : ℕ × ℕ => ((p.1 : ℝ) / 100, (p.2 : ℝ) / 1000000 / (623885 / 1000000))) := by
  unfold Falling
  rw [List.isChain_map]
  refine h.imp ?_
  rintro p q ⟨h1, h2⟩
  have h1' : (p.1 : ℝ) < q.1 := by exact_mod_cast h1
  have h2' : (q.2 : ℝ) ≤ p.2 := by exact_mod_cast h2
  exact ⟨by simp only; linarith, by simp only; gcongr⟩

theorem vignet_falling : Falling vignetPoints := falling_map _ vignetTable_chain

theorem vignet_last (x : ℝ) : 201974 / 623885 ≤ interp vignetPoints x := by
  have e : vignetPoints = (0 / 100, 623885 / 1000000 / (623885 / 1000000)) :: vignetPoints.tail := by
    simp [vignetPoints, vignetTable]
  have h := vignet_falling
  rw [e] at h ⊢
  refine le_trans (le_of_eq ?_) (last_le_interp _ _ h x)
  simp [vignetPoints, vignetTable]
  norm_num

theorem vignet_first (x : ℝ) : interp vignetPoints x ≤ 1 := by
  have e : vignetPoints = (0 / 100, 623885 / 1000000 / (623885 / 1000000)) :: vignetPoints.tail := by
    simp [vignetPoints, vignetTable]
  have h := vignet_falling
  rw [e] at h ⊢
  refine le_trans (interp_le_head _ _ h x) (le_of_eq ?_)
  norm_num

/-! ## Directions -/

/-- A vector in Mathlib's Euclidean space. -/
noncomputable def Vec.toE (v : Vec) : EuclideanSpace ℝ (Fin 3) := !₂[v.x, v.y, v.z]

theorem inner_toE (u v : Vec) : inner ℝ u.toE v.toE = u.x * v.x + u.y * v.y + u.z * v.z := by
  simp [Vec.toE, PiLp.inner_apply, Fin.sum_univ_three]
  ring

theorem norm_toE (v : Vec) : ‖v.toE‖ = √(v.x ^ 2 + v.y ^ 2 + v.z ^ 2) := by
  rw [EuclideanSpace.norm_eq]
  simp [Vec.toE, Fin.sum_univ_three]

theorem norm_radec (ra dec : ℝ) : ‖(radec2icrf ra dec).toE‖ = 1 := by
  rw [norm_toE, Real.sqrt_eq_one]
  simp only [radec2icrf]
  have h1 := Real.sin_sq_add_cos_sq (deg2rad ra)
  have h2 := Real.sin_sq_add_cos_sq (deg2rad dec)
  calc _ = cos (deg2rad dec) ^ 2 * (sin (deg2rad ra) ^ 2 + cos (deg2rad ra) ^ 2) + sin (deg2rad dec) ^ 2 := by ring
    _ = 1 := by rw [h1]; linarith

/-- The quantity under the root of the haversine formula. -/
theorem hav_arg (ra1 dec1 ra2 dec2 : ℝ) :
    sin ((dec2 - dec1) / 2) ^ 2 + cos dec1 * cos dec2 * sin ((ra2 - ra1) / 2) ^ 2 =
      (1 - (cos dec1 * cos dec2 * cos (ra2 - ra1) + sin dec1 * sin dec2)) / 2 := by
  have h : ∀ x : ℝ, sin (x / 2) ^ 2 = (1 - cos x) / 2 := by
    intro x
    have := Real.cos_sq (x / 2)
    have h2 := Real.sin_sq_add_cos_sq (x / 2)
    rw [mul_div_cancel₀ _ (two_ne_zero)] at this
    linarith
  rw [h, h, Real.cos_sub dec2 dec1]
  ring

theorem two_arcsin_sqrt (d : ℝ) (h1 : -1 ≤ d) (h2 : d ≤ 1) : 2 * arcsin (√((1 - d) / 2)) = arccos d := by
  set s := √((1 - d) / 2) with hs
  have hs0 : 0 ≤ s := Real.sqrt_nonneg _
  have hs2 : s ^ 2 = (1 - d) / 2 := Real.sq_sqrt (by linarith)
  have hs1 : s ≤ 1 := by nlinarith
  have ha : 0 ≤ arcsin s := Real.arcsin_nonneg.2 hs0
  have hb : arcsin s ≤ π / 2 := Real.arcsin_le_pi_div_two s
  have hc : cos (2 * arcsin s) = d := by
    rw [Real.cos_two_mul, Real.cos_arcsin, Real.sq_sqrt (by nlinarith), hs2]
    ring
  rw [← hc, Real.arccos_cos (by linarith) (by linarith)]

theorem dot_radec (ra1 dec1 ra2 dec2 : ℝ) :
    inner ℝ (radec2icrf ra1 dec1).toE (radec2icrf ra2 dec2).toE =
      cos (deg2rad dec1) * cos (deg2rad dec2) * cos (deg2rad ra2 - deg2rad ra1) + sin (deg2rad dec1) * sin (deg2rad dec2) := by
  rw [inner_toE, Real.cos_sub]
  simp only [radec2icrf]
  ring

theorem haversine_angle (ra1 dec1 ra2 dec2 : ℝ) :
    haversine (deg2rad ra1) (deg2rad dec1) (deg2rad ra2) (deg2rad dec2) =
      InnerProductGeometry.angle (radec2icrf ra1 dec1).toE (radec2icrf ra2 dec2).toE := by
  unfold haversine InnerProductGeometry.angle
  rw [hav_arg, norm_radec, norm_radec, dot_radec, mul_one, div_one]
  have hle := abs_real_inner_le_norm (radec2icrf ra1 dec1).toE (radec2icrf ra2 dec2).toE
  rw [norm_radec, norm_radec, dot_radec, mul_one, abs_le] at hle
  exact two_arcsin_sqrt _ hle.1 hle.2

theorem rad_deg (a : ℝ) : deg2rad (rad2deg a) = a := by
  unfold deg2rad rad2deg
  have := Real.pi_ne_zero
  field_simp

theorem deg_rad (a : ℝ) : rad2deg (deg2rad a) = a := by
  unfold deg2rad rad2deg
  have := Real.pi_ne_zero
  field_simp

theorem mod_mem (a m : ℝ) (h : 0 < m) : 0 ≤ mod a m ∧ mod a m < m := by
  unfold mod
  have h1 := Int.floor_le (a / m)
  have h2 := Int.lt_floor_add_one (a / m)
  rw [le_div_iff₀ h] at h1
  rw [div_lt_iff₀ h] at h2
  constructor <;> nlinarith

theorem mod_of_mem {a m : ℝ} (k : ℤ) (h : 0 < m) (h1 : 0 ≤ a) (h2 : a < m) : mod (a + k * m) m = a := by
  unfold mod
  have : ⌊(a + k * m) / m⌋ = k := by
    rw [Int.floor_eq_iff]
    rw [le_div_iff₀ h, div_lt_iff₀ h]
    constructor <;> nlinarith
  rw [this]
  ring

theorem deg_mod (a : ℝ) : ∃ k : ℤ, deg2rad (mod (rad2deg a + 360) 360) = a + k * (2 * π) := by
  refine ⟨1 - ⌊(rad2deg a + 360) / 360⌋, ?_⟩
  unfold mod
  unfold deg2rad
  have h := rad_deg a
  unfold deg2rad at h
  push_cast
  linear_combination h

end Sorcha.Photom
