import Verif.Cull.Model
import Verif.Cull.Spec
import Verif.Ephem.ElementsProps
import Verif.Ephem.ParseProps
import Mathlib.Analysis.Calculus.MeanValue

namespace Sorcha.Cull
open Sorcha.Photom Sorcha.Geom Sorcha.Ephem Sorcha.Ephem.Props Sorcha.Ephem.OrbitProps Sorcha.Ephem.ElementsProps Sorcha.Ephem.ParseProps Sorcha.Ephem.Spec
open Cull.Spec

/-- The perihelion distance of a state. -/
noncomputable def qOf (mu : ℝ) (pos vel : Vec) : ℝ := (shape mu pos vel).2.2.2.1

/-- The eccentricity of a state. -/
noncomputable def eOf (mu : ℝ) (pos vel : Vec) : ℝ := (shape mu pos vel).2.2.1

theorem conic {mu : ℝ} (hmu : 0 < mu) {pos vel : Vec} (hr : 0 < length pos) :
    0 ≤ eOf mu pos vel ∧ 0 ≤ qOf mu pos vel ∧ qOf mu pos vel ≤ length pos ∧
    qOf mu pos vel * (1 + eOf mu pos vel) = length (cross pos vel) ^ 2 / mu ∧
    1 - eOf mu pos vel ^ 2 = qOf mu pos vel * (1 + eOf mu pos vel) * (2 * mu / length pos - length vel ^ 2) / mu := by
  obtain ⟨h1, h2, h3, h4, h5, -⟩ := C47_conic mu hmu pos vel hr
  exact ⟨h1, h2, h3, h4, h5⟩

/-- Angular momentum and energy fix the shape. -/
theorem shape_unique {mu : ℝ} (hmu : 0 < mu) {x v y w : Vec} (hx : 0 < length x) (hy : 0 < length y)
    (hc : length (cross x v) ^ 2 = length (cross y w) ^ 2) (ha : 2 * mu / length x - length v ^ 2 = 2 * mu / length y - length w ^ 2) :
    qOf mu x v = qOf mu y w := by
  obtain ⟨a1, -, -, a4, a5⟩ := conic hmu (vel := v) hx
  obtain ⟨b1, -, -, b4, b5⟩ := conic hmu (vel := w) hy
  rw [a4, hc, ha] at a5
  rw [b4] at b5
  have he : eOf mu x v = eOf mu y w := by
    have : eOf mu x v ^ 2 = eOf mu y w ^ 2 := by linarith
    exact (pow_left_inj₀ a1 b1 (by norm_num)).1 this
  rw [hc, he] at a4
  have := a4.trans b4.symm
  exact mul_right_cancel₀ (by linarith) this

theorem const_of {f : ℝ → ℝ} (h : ∀ t, HasDerivAt f 0 t) (s t : ℝ) : f s = f t :=
  is_const_of_deriv_eq_zero (fun t => (h t).differentiableAt) (fun t => (h t).deriv) s t

/-- Conservation of angular momentum. -/
theorem cross_const {mu : ℝ} {X V : ℝ → Vec} (h : Moves mu X V) (s t : ℝ) : cross (X s) (V s) = cross (X t) (V t) := by
  have key : ∀ (f g f' g' : ℝ → ℝ), (∀ t, HasDerivAt f (f' t) t) → (∀ t, HasDerivAt g (g' t) t) →
      (∀ t, HasDerivAt f' (-mu / length (X t) ^ 3 * f t) t) → (∀ t, HasDerivAt g' (-mu / length (X t) ^ 3 * g t) t) →
      f s * g' s - g s * f' s = f t * g' t - g t * f' t := by
    intro f g f' g' h1 h2 h3 h4
    refine const_of (f := fun t => f t * g' t - g t * f' t) (fun t => ?_) s t
    exact (((h1 t).mul (h4 t)).sub ((h2 t).mul (h3 t))).congr_deriv (by ring)
  unfold cross
  apply vec_ext
  · exact key (fun t => (X t).y) (fun t => (X t).z) (fun t => (V t).y) (fun t => (V t).z) (fun t => (h t).1.2.1) (fun t => (h t).1.2.2)
      (fun t => (h t).2.1.2.1) (fun t => (h t).2.1.2.2)
  · exact key (fun t => (X t).z) (fun t => (X t).x) (fun t => (V t).z) (fun t => (V t).x) (fun t => (h t).1.2.2) (fun t => (h t).1.1)
      (fun t => (h t).2.1.2.2) (fun t => (h t).2.1.1)
  · exact key (fun t => (X t).x) (fun t => (X t).y) (fun t => (V t).x) (fun t => (V t).y) (fun t => (h t).1.1) (fun t => (h t).1.2.1)
      (fun t => (h t).2.1.1) (fun t => (h t).2.1.2.1)

/-- Conservation of energy. -/
theorem energy_const {mu : ℝ} {X V : ℝ → Vec} (h : Moves mu X V) (s t : ℝ) :
    2 * mu / length (X s) - length (V s) ^ 2 = 2 * mu / length (X t) - length (V t) ^ 2 := by
  refine const_of (f := fun t => 2 * mu / length (X t) - length (V t) ^ 2) (fun t => ?_) s t
  obtain ⟨⟨x1, x2, x3⟩, ⟨v1, v2, v3⟩, hr⟩ := h t
  have hl : ∀ a : Vec, length a ^ 2 = a.x ^ 2 + a.y ^ 2 + a.z ^ 2 := fun a => Real.sq_sqrt (by positivity)
  have hr2 := hl (X t)
  have hv : HasDerivAt (fun t => length (V t) ^ 2) (2 * (-mu / length (X t) ^ 3) * inner (X t) (V t)) t := by
    simp only [hl]
    refine (((v1.pow 2).add (v2.pow 2)).add (v3.pow 2)).congr_deriv ?_
    simp [Spec.inner, times]
    ring
  have hx : HasDerivAt (fun t => length (X t)) (inner (X t) (V t) / length (X t)) t := by
    have h0 : (X t).x ^ 2 + (X t).y ^ 2 + (X t).z ^ 2 ≠ 0 := by rw [← hr2]; positivity
    refine ((((x1.pow 2).add (x2.pow 2)).add (x3.pow 2)).sqrt h0).congr_deriv ?_
    change _ / (2 * length (X t)) = _
    simp [Spec.inner]
    field_simp
  refine (((hasDerivAt_const t (2 * mu)).div hx hr.ne').sub hv).congr_deriv ?_
  field_simp
  ring

/-- The perihelion distance of a state stays the same while the point moves, and the point is never nearer. -/
theorem q_const {mu : ℝ} (hmu : 0 < mu) {X V : ℝ → Vec} (h : Moves mu X V) (s t : ℝ) : qOf mu (X s) (V s) = qOf mu (X t) (V t) :=
  shape_unique hmu (h s).2.2 (h t).2.2 (by rw [cross_const h s t]) (energy_const h s t)

theorem q_le {mu : ℝ} (hmu : 0 < mu) {X V : ℝ → Vec} (h : Moves mu X V) (s t : ℝ) : qOf mu (X s) (V s) ≤ length (X t) := by
  rw [q_const hmu h s t]
  exact (conic hmu (h t).2.2).2.2.1

theorem length_times (k : ℝ) (hk : 0 ≤ k) (a : Vec) : length (times k a) = k * length a := by
  unfold length times
  rw [show (k * a.x) ^ 2 + (k * a.y) ^ 2 + (k * a.z) ^ 2 = k ^ 2 * (a.x ^ 2 + a.y ^ 2 + a.z ^ 2) by ring, Real.sqrt_mul (by positivity), Real.sqrt_sq hk]

theorem length_one {a : Vec} (h : inner a a = 1) : length a = 1 := by
  have := length_sq a
  rw [h] at this
  have h0 : 0 ≤ length a := Real.sqrt_nonneg _
  nlinarith

/-- The perihelion distance of a state at perihelion. -/
theorem q_perihelion {mu q e : ℝ} (hmu : 0 < mu) (hq : 0 < q) (he : 0 ≤ e) (i Ω ω : ℝ) :
    qOf mu (times q (perihelionDir i Ω ω)) (times √(mu * (1 + e) / q) (motionDir i Ω ω)) = q := by
  obtain ⟨d1, d2, d3, d4⟩ := dirs i Ω ω
  have hk : 0 ≤ mu * (1 + e) / q := by positivity
  have l1 : length (times q (perihelionDir i Ω ω)) = q := by rw [length_times q hq.le, length_one d1, mul_one]
  have l2 : length (times √(mu * (1 + e) / q) (motionDir i Ω ω)) ^ 2 = mu * (1 + e) / q := by
    rw [length_times _ (Real.sqrt_nonneg _), length_one d2, mul_one, Real.sq_sqrt hk]
  have l3 : length (cross (times q (perihelionDir i Ω ω)) (times √(mu * (1 + e) / q) (motionDir i Ω ω))) ^ 2 = mu * (q * (1 + e)) := by
    rw [length_sq, lagrange_identity, ← length_sq, ← length_sq, l1, l2]
    have : inner (times q (perihelionDir i Ω ω)) (times √(mu * (1 + e) / q) (motionDir i Ω ω)) = 0 := by
      unfold Spec.inner times at *
      simp only
      linear_combination q * √(mu * (1 + e) / q) * d3
    rw [this]
    field_simp
    ring
  obtain ⟨a1, -, -, a4, a5⟩ := conic hmu (vel := times √(mu * (1 + e) / q) (motionDir i Ω ω)) (by rw [l1]; exact hq : 0 < length (times q (perihelionDir i Ω ω)))
  rw [a4, l1, l2, l3] at a5
  rw [l3] at a4
  set E := eOf mu (times q (perihelionDir i Ω ω)) (times √(mu * (1 + e) / q) (motionDir i Ω ω))
  have hE : E = e := by
    have : E ^ 2 = e ^ 2 := by
      have h1 : mu * (q * (1 + e)) / mu * (2 * mu / q - mu * (1 + e) / q) / mu = 1 - e ^ 2 := by
        field_simp
        ring
      linarith
    exact (pow_left_inj₀ a1 he (by norm_num)).1 this
  rw [hE, mul_div_cancel_left₀ _ hmu.ne'] at a4
  exact mul_right_cancel₀ (by linarith) a4

/-- The same state about a mass `s` instead of `t`: the perihelion distance gets hardly larger. -/
theorem q_mass {s t : ℝ} (hs : 0 < s) (ht : 0 < t) {pos vel : Vec} (hr : 0 < length pos) :
    qOf s pos vel ≤ max 1 (2 * (t / s) - 1) * qOf t pos vel := by
  obtain ⟨a1, a2, -, a4, a5⟩ := conic hs (vel := vel) hr
  obtain ⟨b1, b2, b3, b4, b5⟩ := conic ht (vel := vel) hr
  rw [a4] at a5
  rw [b4] at b5
  set c := length (cross pos vel) ^ 2 with hc
  set r := length pos
  set w := length vel ^ 2
  set es := eOf s pos vel
  set et := eOf t pos vel
  set qs := qOf s pos vel
  set qt := qOf t pos vel
  have hc0 : 0 ≤ c := by rw [hc]; positivity
  set k := t / s with hk
  have hk0 : 0 < k := by positivity
  -- `|p / r - 1| ≤ e`
  have hcl : c ≤ r ^ 2 * w := by
    rw [hc, length_sq, lagrange_identity, ← length_sq, ← length_sq]
    nlinarith [sq_nonneg (inner pos vel)]
  have hpe : (c / t / r - 1) ^ 2 ≤ et ^ 2 := by
    have : et ^ 2 - (c / t / r - 1) ^ 2 = c * (r ^ 2 * w - c) / (t ^ 2 * r ^ 2) := by
      rw [show et ^ 2 = 1 - c / t * (2 * t / r - w) / t by linarith]
      field_simp
      ring
    have h0 : 0 ≤ c * (r ^ 2 * w - c) / (t ^ 2 * r ^ 2) := by
      apply div_nonneg (mul_nonneg hc0 (by linarith)) (by positivity)
    linarith
  have habs : |c / t / r - 1| ≤ et := abs_le_of_sq_le_sq hpe b1
  have hes : es ^ 2 = k ^ 2 * et ^ 2 + 2 * k * (k - 1) * (c / t / r - 1) + (k - 1) ^ 2 := by
    rw [show et ^ 2 = 1 - c / t * (2 * t / r - w) / t by linarith, show es ^ 2 = 1 - c / s * (2 * s / r - w) / s by linarith, hk]
    field_simp
    ring
  have hge : k * et - |k - 1| ≤ es := by
    by_contra hlt
    push Not at hlt
    have h1 : es ^ 2 < (k * et - |k - 1|) ^ 2 := by nlinarith
    have h2 : (k - 1) * (c / t / r - 1) ≥ -(|k - 1| * et) := by
      have h3 : |(k - 1) * (c / t / r - 1)| ≤ |k - 1| * et := by
        rw [abs_mul]
        exact mul_le_mul_of_nonneg_left habs (abs_nonneg _)
      exact (abs_le.1 h3).1
    have h4 : |k - 1| ^ 2 = (k - 1) ^ 2 := sq_abs _
    nlinarith
  have hmul : qs * (1 + es) = qt * (k + k * et) := by
    rw [show qt * (k + k * et) = k * (qt * (1 + et)) by ring, a4, b4, hk]
    field_simp
  have hM : k + |k - 1| + es ≤ max 1 (2 * k - 1) * (1 + es) := by
    rcases le_total 1 k with h1 | h1
    · rw [abs_of_nonneg (by linarith), max_eq_right (by linarith)]
      nlinarith
    · rw [abs_of_nonpos (by linarith), max_eq_left (by linarith)]
      linarith
  have : qs * (1 + es) ≤ max 1 (2 * k - 1) * qt * (1 + es) := by
    rw [hmul]
    have h5 : qt * (k + k * et) ≤ qt * (k + |k - 1| + es) := mul_le_mul_of_nonneg_left (by linarith) b2
    have h6 : qt * (k + |k - 1| + es) ≤ qt * (max 1 (2 * k - 1) * (1 + es)) := mul_le_mul_of_nonneg_left hM b2
    linarith
  exact le_of_mul_le_mul_right this (by linarith)

/-- Roots for all epochs. -/
theorem roots {mu q e : ℝ} (hmu : 0 < mu) (hq : 0 < q) (he : 0 ≤ e) (tp : ℝ) :
    ∃ ss : ℝ → ℝ, ∀ epoch, (rootFunction exact (ss epoch) mu (2 * mu / q - mu * (1 + e) / q) q 0 (timeSincePerihelion mu q e tp epoch)).1 = 0 := by
  choose ss hss _ using fun epoch => (C56_root hmu hq he (timeSincePerihelion mu q e tp epoch))
  exact ⟨ss, hss⟩

/-- A motion with given elements, through the state that an exact conversion gives. -/
theorem exact_motion {cart : ToCartesian} (hc : Exact cart) {mu q e : ℝ} (hmu : 0 < mu) (hq : 0 < q) (he : 0 ≤ e) (i Ω ω tp epoch : ℝ) :
    ∃ X V, Moves mu X V ∧ (X tp = times q (perihelionDir i Ω ω) ∧ V tp = times √(mu * (1 + e) / q) (motionDir i Ω ω)) ∧
      cart mu q e i Ω ω tp epoch = (X epoch, V epoch) := by
  obtain ⟨ss, hss⟩ := roots hmu hq he tp
  refine ⟨fun t => (universalCartesian exact mu q e i Ω ω tp t (ss t)).1, fun t => (universalCartesian exact mu q e i Ω ω tp t (ss t)).2, ?_, ?_, ?_⟩
  · intro t
    obtain ⟨h1, h2, h3⟩ := C56_newton hmu hq he i Ω ω tp ss hss t
    exact ⟨h1, h2, lt_of_lt_of_le hq h3⟩
  · obtain ⟨h1, h2, -⟩ := C56_perihelion hmu hq he i Ω ω tp (ss tp) (hss tp)
    exact ⟨h1, h2⟩
  · obtain ⟨s, h1, h2⟩ := hc mu q e i Ω ω tp epoch hmu hq he
    have : s = ss epoch := (C56_root hmu hq he (timeSincePerihelion mu q e tp epoch)).unique h1 (hss epoch)
    rw [h2, this]

/-- The perihelion distance of the state that an exact conversion gives. -/
theorem q_exact {cart : ToCartesian} (hc : Exact cart) {mu q e : ℝ} (hmu : 0 < mu) (hq : 0 < q) (he : 0 ≤ e) (i Ω ω tp epoch : ℝ) :
    qOf mu (cart mu q e i Ω ω tp epoch).1 (cart mu q e i Ω ω tp epoch).2 = q ∧ 0 < length (cart mu q e i Ω ω tp epoch).1 := by
  obtain ⟨X, V, h1, ⟨h2, h3⟩, h4⟩ := exact_motion hc hmu hq he i Ω ω tp epoch
  rw [h4]
  refine ⟨?_, (h1 epoch).2.2⟩
  rw [q_const hmu h1 epoch tp, h2, h3, q_perihelion hmu hq he]

/-- An exact conversion depends on the time since perihelion only. -/
theorem exact_shift {cart : ToCartesian} (hc : Exact cart) {mu q e : ℝ} (hmu : 0 < mu) (hq : 0 < q) (he : 0 ≤ e) (i Ω ω d epoch epoch' : ℝ) :
    cart mu q e i Ω ω (epoch - d) epoch = cart mu q e i Ω ω (epoch' - d) epoch' := by
  have ht : timeSincePerihelion mu q e (epoch - d) epoch = timeSincePerihelion mu q e (epoch' - d) epoch' := by
    unfold timeSincePerihelion
    rw [show epoch - (epoch - d) = epoch' - (epoch' - d) by ring]
  obtain ⟨s, h1, h2⟩ := hc mu q e i Ω ω (epoch - d) epoch hmu hq he
  obtain ⟨s', h1', h2'⟩ := hc mu q e i Ω ω (epoch' - d) epoch' hmu hq he
  rw [ht] at h1
  have : s = s' := (C56_root hmu hq he _).unique h1 h1'
  rw [h2, h2', this]
  unfold universalCartesian
  rw [ht]

theorem add_zero_vec (a : Vec) : a + scale (-1) (equatorialToEcliptic ⟨0, 0, 0⟩) = a := by
  apply vec_ext <;> simp [equatorialToEcliptic, vecMat, scale, add_x, add_y, add_z]

theorem lookup_rest (epoch : ℝ) : (lookupSun (fun _ => atRest) [(epoch, atRest)] epoch).1 = atRest := by
  simp [lookupSun]

/-- What is estimated in each format. -/
theorem perihelion_eq (cart : ToCartesian) (epoch : ℝ) (row : OrbitRow) :
    perihelion cart epoch row =
      if row.format = "COM" then .ok row.q
      else if row.format = "CART" ∨ row.format = "BCART" then .ok (qOf gmSun row.pos row.vel)
      else if row.format = "KEP" then .ok (row.a * (1 - row.e))
      else if row.format = "BKEP" then
        let s := cart gmTotal (row.a * (1 - row.e)) row.e (radians row.inc) (radians row.node) (radians row.argPeri)
          (epoch - radians row.ma * √(row.a ^ 3 / gmTotal)) epoch
        .ok (qOf gmSun s.1 s.2)
      else if row.format = "BCOM" then
        let s := cart gmTotal row.q row.e (radians row.inc) (radians row.node) (radians row.argPeri) (row.tpMJD + 2400000.5) epoch
        .ok (qOf gmSun s.1 s.2)
      else .error .format := by
  unfold perihelion perihelionRow
  simp only [lookup_rest, rad_conv]
  by_cases h1 : row.format = "COM"
  · simp [h1]
  by_cases h2 : row.format = "CART"
  · simp [h2, inDegrees, universalCometary, qOf]
  by_cases h3 : row.format = "BCART"
  · simp [h3, inDegrees, universalCometary, qOf, atRest, add_zero_vec]
  by_cases h4 : row.format = "KEP"
  · simp [h4]
  by_cases h5 : row.format = "BKEP"
  · simp [h5, inDegrees, universalCometary, qOf, atRest, add_zero_vec]
  by_cases h6 : row.format = "BCOM"
  · simp [h6, inDegrees, universalCometary, qOf, atRest, add_zero_vec]
  · simp [h1, h2, h3, h4, h5, h6]

theorem gm_ratio {mu : ℝ} (h1 : mu ≤ 2.964e-4) : max 1 (2 * (mu / gmSun) - 1) ≤ 1.004 := by
  refine max_le (by norm_num) ?_
  have : mu / gmSun ≤ 1.002 := by
    unfold gmSun
    rw [div_le_iff₀ (by norm_num)]
    norm_num at h1 ⊢
    linarith
  linarith

/-- The estimate is at most 0.4 per cent above the distance of every point of the orbit. -/
theorem estimate_le {cart : ToCartesian} (hc : Exact cart) {row : OrbitRow} {X : ℝ → Vec} (h : Orbit row X) (epoch q : ℝ)
    (hq : row.format ≠ "BCOM" ∧ perihelion cart epoch row = .ok q ∨ row.format ∈ ["COM", "BCOM"] ∧ q = row.q) (t : ℝ) :
    q ≤ 1.004 * length (X t) := by
  obtain ⟨mu, V, hmu, hle, hm, h⟩ := h
  have hlen : 0 ≤ length (X t) := Real.sqrt_nonneg _
  have hgs : 0 < gmSun := by unfold gmSun; norm_num
  have hgt : 0 < gmTotal := by unfold gmTotal; norm_num
  have peri : ∀ {q e i Ω ω : ℝ}, 0 < q → 0 ≤ e → Perihelion mu q e i Ω ω X V → q ≤ length (X t) := by
    rintro q e i Ω ω h1 h2 ⟨s, h3, h4⟩
    have := q_le hmu hm s t
    rwa [h3, h4, q_perihelion hmu h1 h2] at this
  rcases h with ⟨hf, s, hx, hv⟩ | ⟨hf, ha, he, he1, hp⟩ | ⟨hf, hq0, he, hp⟩
  · have hq' : q = qOf gmSun row.pos row.vel := by
      rcases hq with ⟨-, hq⟩ | ⟨hq, -⟩
      · rw [perihelion_eq] at hq
        simp only [List.mem_cons, List.not_mem_nil, or_false] at hf
        rcases hf with hf | hf <;> simp [hf] at hq <;> exact hq.symm
      · simp only [List.mem_cons, List.not_mem_nil, or_false] at hf hq
        rcases hf with hf | hf <;> rw [hf] at hq <;> simp at hq
    have h1 := q_mass hgs hmu (vel := V s) (hm s).2.2
    have h2 := q_le hmu hm s t
    have h3 : 0 ≤ qOf mu (X s) (V s) := (conic hmu (hm s).2.2).2.1
    rw [hq', ← hx, ← hv]
    calc _ ≤ _ := h1
      _ ≤ 1.004 * qOf mu (X s) (V s) := mul_le_mul_of_nonneg_right (gm_ratio hle) h3
      _ ≤ _ := mul_le_mul_of_nonneg_left h2 (by norm_num)
  · have hpos : 0 < row.a * (1 - row.e) := mul_pos ha (by linarith)
    have h1 := peri hpos he hp
    rcases hq with ⟨-, hq⟩ | ⟨hq, -⟩
    · rw [perihelion_eq] at hq
      simp only [List.mem_cons, List.not_mem_nil, or_false] at hf
      rcases hf with hf | hf
      · simp [hf] at hq
        linarith
      · simp [hf] at hq
        obtain ⟨h2, h3⟩ := q_exact hc hgt hpos he (radians row.inc) (radians row.node) (radians row.argPeri)
          (epoch - radians row.ma * √(row.a ^ 3 / gmTotal)) epoch
        have h4 := q_mass hgs hgt (vel := (cart gmTotal (row.a * (1 - row.e)) row.e (radians row.inc) (radians row.node) (radians row.argPeri)
          (epoch - radians row.ma * √(row.a ^ 3 / gmTotal)) epoch).2) h3
        rw [hq, h2] at h4
        have h5 : max 1 (2 * (gmTotal / gmSun) - 1) ≤ 1.004 := gm_ratio (by unfold gmTotal; norm_num)
        calc _ ≤ _ := h4
          _ ≤ 1.004 * (row.a * (1 - row.e)) := mul_le_mul_of_nonneg_right h5 hpos.le
          _ ≤ _ := mul_le_mul_of_nonneg_left h1 (by norm_num)
    · simp only [List.mem_cons, List.not_mem_nil, or_false] at hf hq
      rcases hf with hf | hf <;> rw [hf] at hq <;> simp at hq
  · have h1 := peri hq0 he hp
    have : q = row.q := by
      rcases hq with ⟨hn, hq⟩ | ⟨-, hq⟩
      · rw [perihelion_eq] at hq
        simp only [List.mem_cons, List.not_mem_nil, or_false] at hf
        rcases hf with hf | hf
        · simp [hf] at hq
          exact hq.symm
        · exact absurd hf hn
      · exact hq
    rw [this]
    linarith

end Sorcha.Cull
