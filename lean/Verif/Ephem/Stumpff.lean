import Verif.Ephem.Orbit
import Verif.Ephem.OrbitSpec
import Mathlib.Analysis.SpecialFunctions.Exp
import Mathlib.Analysis.SpecialFunctions.Trigonometric.Bounds
import Mathlib.Analysis.Real.Pi.Bounds
import Mathlib.Analysis.Normed.Algebra.Exponential
import Mathlib.Tactic.Ring
import Mathlib.Tactic.Positivity
import Mathlib.Tactic.FieldSimp
import Mathlib.Tactic.Linarith
import Mathlib.Tactic.LinearCombination
import Mathlib.Tactic.NormNum

/-!
# Facts about the Stumpff functions
-/

namespace Sorcha.Ephem
open Real

theorem c_summable (k : ℕ) (x : ℝ) : Summable fun j : ℕ => (-x) ^ j / ((k + 2 * j).factorial : ℝ) := by
  refine Summable.of_norm_bounded (g := fun j => |x| ^ j / (j.factorial : ℝ)) (Real.summable_pow_div_factorial |x|) ?_
  intro j
  rw [norm_div, norm_pow, Real.norm_eq_abs, abs_neg, Real.norm_of_nonneg (by positivity)]
  have : j.factorial ≤ (k + 2 * j).factorial := Nat.factorial_le (by omega)
  have h : (j.factorial : ℝ) ≤ ((k + 2 * j).factorial : ℝ) := by exact_mod_cast this
  have hp : (0 : ℝ) < j.factorial := by exact_mod_cast j.factorial_pos
  gcongr

theorem c_rec (k : ℕ) (x : ℝ) : Spec.c k x = 1 / (k.factorial : ℝ) - x * Spec.c (k + 2) x := by
  unfold Spec.c
  rw [(c_summable k x).tsum_eq_zero_add]
  simp only [pow_zero, mul_zero, add_zero]
  rw [← tsum_mul_left, sub_eq_add_neg, ← tsum_neg]
  congr 1
  apply tsum_congr
  intro j
  rw [show k + 2 * (j + 1) = k + 2 + 2 * j by ring, pow_succ]
  ring

theorem c_zero (k : ℕ) : Spec.c k 0 = 1 / (k.factorial : ℝ) := by rw [c_rec]; ring

theorem c0_sq (w : ℝ) : Spec.c 0 (w ^ 2) = cos w := by
  unfold Spec.c
  rw [Real.cos_eq_tsum]
  apply tsum_congr
  intro j
  rw [neg_pow, ← pow_mul, zero_add]

theorem c1_sq (w : ℝ) : w * Spec.c 1 (w ^ 2) = sin w := by
  unfold Spec.c
  rw [Real.sin_eq_tsum, ← tsum_mul_left]
  apply tsum_congr
  intro j
  rw [neg_pow, ← pow_mul, add_comm 1 (2 * j), pow_succ w]
  ring

theorem c0_neg (w : ℝ) : Spec.c 0 (-w ^ 2) = cosh w := by
  unfold Spec.c
  rw [Real.cosh_eq_tsum]
  apply tsum_congr
  intro j
  rw [neg_neg, ← pow_mul, zero_add]

theorem c1_neg (w : ℝ) : w * Spec.c 1 (-w ^ 2) = sinh w := by
  unfold Spec.c
  rw [Real.sinh_eq_tsum, ← tsum_mul_left]
  apply tsum_congr
  intro j
  rw [neg_neg, ← pow_mul, add_comm 1 (2 * j), pow_succ w]
  ring

/-- Every number is a square or the negative of one. -/
theorem sq_cases (x : ℝ) : (∃ w, 0 < w ∧ x = w ^ 2) ∨ x = 0 ∨ ∃ w, 0 < w ∧ x = -w ^ 2 := by
  rcases lt_trichotomy x 0 with h | h | h
  · exact .inr (.inr ⟨√(-x), Real.sqrt_pos.2 (by linarith), by rw [Real.sq_sqrt (by linarith)]; ring⟩)
  · exact .inr (.inl h)
  · exact .inl ⟨√x, Real.sqrt_pos.2 h, by rw [Real.sq_sqrt h.le]⟩

/-- `c0² + x c1² = 1`. -/
theorem c_pythagoras (x : ℝ) : Spec.c 0 x ^ 2 + x * Spec.c 1 x ^ 2 = 1 := by
  rcases sq_cases x with ⟨w, -, rfl⟩ | rfl | ⟨w, -, rfl⟩
  · have h1 := c1_sq w
    rw [c0_sq]
    have := sin_sq_add_cos_sq w
    rw [← h1] at this
    linear_combination this
  · simp [c_zero]
  · have h1 := c1_neg w
    rw [c0_neg]
    have := cosh_sq w
    rw [← h1] at this
    linear_combination this

/-- `c1² = 2 c2 - x c2²`. -/
theorem c1_square (x : ℝ) : Spec.c 1 x ^ 2 = 2 * Spec.c 2 x - x * Spec.c 2 x ^ 2 := by
  by_cases hx : x = 0
  · subst hx; simp [c_zero, Nat.factorial]
  · have h1 := c_pythagoras x
    have h2 := c_rec 0 x
    simp only [Nat.factorial_zero, Nat.cast_one, div_one, zero_add] at h2
    rw [h2] at h1
    have : x * (Spec.c 1 x ^ 2) = x * (2 * Spec.c 2 x - x * Spec.c 2 x ^ 2) := by linear_combination h1
    exact mul_left_cancel₀ hx this

theorem c0_eq (x : ℝ) : Spec.c 0 x = 1 - x * Spec.c 2 x := by
  have := c_rec 0 x
  simpa using this

theorem c1_eq (x : ℝ) : Spec.c 1 x = 1 - x * Spec.c 3 x := by
  have := c_rec 1 x
  simpa using this

/-- Doubling of the anomaly. -/
theorem c_double (x : ℝ) : stumpffStep (Spec.exact x) = Spec.exact (4 * x) := by
  have e0 : Spec.c 0 (4 * x) = 2 * Spec.c 0 x * Spec.c 0 x - 1 := by
    rcases sq_cases x with ⟨w, -, rfl⟩ | rfl | ⟨w, -, rfl⟩
    · rw [show 4 * w ^ 2 = (2 * w) ^ 2 by ring, c0_sq, c0_sq, cos_two_mul]; ring
    · simp [c_zero]; norm_num
    · rw [show 4 * -w ^ 2 = -(2 * w) ^ 2 by ring, c0_neg, c0_neg, cosh_two_mul]
      have := cosh_sq w
      linear_combination -this
  have e1 : Spec.c 1 (4 * x) = Spec.c 0 x * Spec.c 1 x := by
    rcases sq_cases x with ⟨w, hw, rfl⟩ | rfl | ⟨w, hw, rfl⟩
    · have h1 := c1_sq w
      have h2 := c1_sq (2 * w)
      rw [sin_two_mul, ← h1, ← c0_sq] at h2
      rw [show 4 * w ^ 2 = (2 * w) ^ 2 by ring]
      have h3 : (2 * w) * Spec.c 1 ((2 * w) ^ 2) = (2 * w) * (Spec.c 0 (w ^ 2) * Spec.c 1 (w ^ 2)) := by linear_combination h2
      exact mul_left_cancel₀ (by positivity) h3
    · simp [c_zero]
    · have h1 := c1_neg w
      have h2 := c1_neg (2 * w)
      rw [sinh_two_mul, ← h1, ← c0_neg] at h2
      rw [show 4 * -w ^ 2 = -(2 * w) ^ 2 by ring]
      have h3 : (2 * w) * Spec.c 1 (-(2 * w) ^ 2) = (2 * w) * (Spec.c 0 (-w ^ 2) * Spec.c 1 (-w ^ 2)) := by linear_combination h2
      exact mul_left_cancel₀ (by positivity) h3
  have e2 : Spec.c 2 (4 * x) = Spec.c 1 x * Spec.c 1 x / 2 := by
    by_cases hx : x = 0
    · subst hx; simp [c_zero]
    · have h := c0_eq (4 * x)
      rw [e0] at h
      have hp := c_pythagoras x
      have : (4 * x) * Spec.c 2 (4 * x) = (4 * x) * (Spec.c 1 x * Spec.c 1 x / 2) := by linear_combination h - 2 * hp
      exact mul_left_cancel₀ (by simpa using hx) this
  have e3 : Spec.c 3 (4 * x) = (Spec.c 2 x + Spec.c 0 x * Spec.c 3 x) / 4 := by
    by_cases hx : x = 0
    · subst hx; simp [c_zero, Nat.factorial]; norm_num
    · have h := c1_eq (4 * x)
      rw [e1] at h
      have h0 := c0_eq x
      have h1 := c1_eq x
      have : (4 * x) * Spec.c 3 (4 * x) = (4 * x) * ((Spec.c 2 x + Spec.c 0 x * Spec.c 3 x) / 4) := by
        linear_combination h - h0 - Spec.c 0 x * h1
      exact mul_left_cancel₀ (by simpa using hx) this
  unfold stumpffStep Spec.exact
  simp only [e0, e1, e2, e3]

theorem c_double_iter (n : ℕ) (x : ℝ) : stumpffStep^[n] (Spec.exact (x / 4 ^ n)) = Spec.exact x := by
  induction n generalizing x with
  | zero => simp
  | succ n ih =>
    rw [Function.iterate_succ_apply', show x / 4 ^ (n + 1) = (x / 4) / 4 ^ n by rw [pow_succ]; field_simp, ih, c_double]
    congr 1; ring

/-- Tail of the series. -/
theorem c_tail (k n : ℕ) (x : ℝ) (hx : |x| ≤ 0.1) :
    |Spec.c k x - ∑ j ∈ Finset.range n, (-x) ^ j / ((k + 2 * j).factorial : ℝ)| ≤ 2 * 0.1 ^ n / ((k + 2 * n).factorial : ℝ) := by
  have hs := c_summable k x
  have e : Spec.c k x - ∑ j ∈ Finset.range n, (-x) ^ j / ((k + 2 * j).factorial : ℝ) =
      ∑' j : ℕ, (-x) ^ (j + n) / ((k + 2 * (j + n)).factorial : ℝ) := by
    unfold Spec.c
    rw [← hs.sum_add_tsum_nat_add n]; ring
  rw [e]
  have hg : HasSum (fun j : ℕ => 0.1 ^ n / ((k + 2 * n).factorial : ℝ) * (1 / 2 : ℝ) ^ j) (0.1 ^ n / ((k + 2 * n).factorial : ℝ) * 2) :=
    (hasSum_geometric_two).mul_left _
  have hb : ∀ j : ℕ, ‖(-x) ^ (j + n) / ((k + 2 * (j + n)).factorial : ℝ)‖ ≤ 0.1 ^ n / ((k + 2 * n).factorial : ℝ) * (1 / 2 : ℝ) ^ j := by
    intro j
    rw [norm_div, norm_pow, Real.norm_eq_abs, abs_neg, Real.norm_of_nonneg (by positivity), pow_add, mul_comm (|x| ^ j), div_mul_eq_mul_div]
    have h1 : ((k + 2 * n).factorial : ℝ) ≤ ((k + 2 * (j + n)).factorial : ℝ) := by
      exact_mod_cast Nat.factorial_le (by omega)
    have h2 : (0 : ℝ) < ((k + 2 * n).factorial : ℝ) := by exact_mod_cast Nat.factorial_pos _
    have h3 : |x| ^ j ≤ (1 / 2 : ℝ) ^ j := by
      apply pow_le_pow_left₀ (abs_nonneg _); linarith
    gcongr
  have := tsum_of_norm_bounded hg hb
  rw [Real.norm_eq_abs] at this
  refine this.trans (le_of_eq ?_)
  ring

/-! ## Accuracy of the code's values -/

theorem base_accuracy (x : ℝ) (hx : |x| ≤ 0.1) :
    |(stumpffBase x).1 - Spec.c 0 x| ≤ 1e-20 ∧ |(stumpffBase x).2.1 - Spec.c 1 x| ≤ 1e-20 ∧
    |(stumpffBase x).2.2.1 - Spec.c 2 x| ≤ 1e-20 ∧ |(stumpffBase x).2.2.2 - Spec.c 3 x| ≤ 1e-20 := by
  have h2 : |(stumpffBase x).2.2.1 - Spec.c 2 x| ≤ 1e-20 := by
    have := c_tail 2 7 x hx
    rw [abs_sub_comm] at this
    refine le_trans (le_of_eq ?_) (le_trans this (by norm_num [Nat.factorial]))
    congr 2
    unfold stumpffBase
    simp only [Finset.sum_range_succ, Finset.sum_range_zero]
    norm_num [Nat.factorial]
    ring
  have h3 : |(stumpffBase x).2.2.2 - Spec.c 3 x| ≤ 1e-20 := by
    have := c_tail 3 7 x hx
    rw [abs_sub_comm] at this
    refine le_trans (le_of_eq ?_) (le_trans this (by norm_num [Nat.factorial]))
    congr 2
    unfold stumpffBase
    simp only [Finset.sum_range_succ, Finset.sum_range_zero]
    norm_num [Nat.factorial]
    ring
  have small : ∀ d c : ℝ, |d - c| ≤ 1e-20 → |(1 - x * d) - (1 - x * c)| ≤ 1e-20 := by
    intro d c h
    rw [show (1 - x * d) - (1 - x * c) = -(x * (d - c)) by ring, abs_neg, abs_mul]
    calc |x| * |d - c| ≤ 0.1 * 1e-20 := by gcongr
      _ ≤ 1e-20 := by norm_num
  refine ⟨?_, ?_, h2, h3⟩
  · rw [c0_eq]; exact small _ _ h2
  · rw [c1_eq]; exact small _ _ h3

/-- Size of the Stumpff functions for arguments of either sign. -/
theorem c_bounds_nonneg (x : ℝ) (hx : 0 ≤ x) : |Spec.c 0 x| ≤ 1 ∧ |Spec.c 1 x| ≤ 1 ∧ |Spec.c 2 x| ≤ 1 ∧ |Spec.c 3 x| ≤ 1 := by
  rcases eq_or_lt_of_le hx with h | h
  · subst h
    simp [c_zero, Nat.factorial]
    norm_num [abs_le]
  · have e : √x ^ 2 = x := Real.sq_sqrt hx
    have hw : 0 < √x := Real.sqrt_pos.2 h
    set w := √x with hwdef
    have h0 : Spec.c 0 x = cos w := by rw [← e, c0_sq]
    have h1 : w * Spec.c 1 x = sin w := by rw [← e, c1_sq]
    have h2 := c0_eq x
    have h3 := c1_eq x
    have b1 : |Spec.c 1 x| ≤ 1 := by
      have hs : |sin w| ≤ w := by
        refine abs_le.2 ⟨?_, sin_le hw.le⟩
        by_cases hw2 : w ≤ 2
        · have hs4 : 0 ≤ sin w := sin_nonneg_of_nonneg_of_le_pi hw.le (by linarith [pi_gt_three])
          linarith
        · have := neg_one_le_sin w
          linarith
      rw [← h1, abs_mul, abs_of_pos hw] at hs
      nlinarith [abs_nonneg (Spec.c 1 x)]
    have b2 : |Spec.c 2 x| ≤ 1 := by
      have hc : 1 - w ^ 2 / 2 ≤ cos w := one_sub_sq_div_two_le_cos
      have hc2 := cos_le_one w
      rw [← h0, h2, e] at hc
      rw [← h0, h2] at hc2
      have hp : 0 ≤ Spec.c 2 x := by
        by_contra hn
        push Not at hn
        nlinarith
      rw [abs_of_nonneg hp]
      nlinarith
    have b3 : |Spec.c 3 x| ≤ 1 := by
      have hs1 : w - w ^ 3 / 6 < sin w := sin_gt_sub_cube hw
      have hs2 : sin w ≤ w := sin_le hw.le
      have hp : 0 ≤ Spec.c 3 x := by
        by_contra hn
        push Not at hn
        rw [← h1, h3] at hs2
        nlinarith [mul_pos hw h]
      rw [abs_of_nonneg hp]
      rw [← h1, h3] at hs1
      have : w ^ 3 = w * x := by rw [← e]; ring
      rw [this] at hs1
      have : 0 < w * x := mul_pos hw h
      nlinarith
    exact ⟨by rw [h0]; exact abs_cos_le_one w, b1, b2, b3⟩

theorem c_bounds_neg (x : ℝ) (hx : x < 0) : 1 ≤ Spec.c 0 x ∧ 1 ≤ Spec.c 1 x ∧ 0.1 ≤ Spec.c 2 x ∧ 0.1 ≤ Spec.c 3 x := by
  have pos : ∀ k, 1 / (k.factorial : ℝ) ≤ Spec.c k x := by
    intro k
    unfold Spec.c
    rw [(c_summable k x).tsum_eq_zero_add]
    simp only [pow_zero, mul_zero, add_zero]
    have : 0 ≤ ∑' j : ℕ, (-x) ^ (j + 1) / ((k + 2 * (j + 1)).factorial : ℝ) := by
      apply tsum_nonneg
      intro j
      have : 0 ≤ (-x) ^ (j + 1) := pow_nonneg (by linarith) _
      positivity
    linarith
  have p0 := pos 0
  have p1 := pos 1
  have p2 := pos 2
  have p3 := pos 3
  norm_num [Nat.factorial] at p0 p1 p2 p3
  refine ⟨p0, p1, ?_, ?_⟩ <;> norm_num <;> linarith

/-- Growth of the error in one doubling. -/
theorem grow {u ε : ℝ} (hu0 : 0 ≤ u) (hu : 4 * u < 1) (hε0 : 0 ≤ ε) (hε : ε ≤ u / (1 - u)) : 4 * ε + 2 * ε ^ 2 ≤ 4 * u / (1 - 4 * u) := by
  have h1 : 0 < 1 - u := by linarith
  have h2 : 0 < 1 - 4 * u := by linarith
  have hm : 4 * ε + 2 * ε ^ 2 ≤ 4 * (u / (1 - u)) + 2 * (u / (1 - u)) ^ 2 := by
    have : 0 ≤ u / (1 - u) := by positivity
    nlinarith
  refine le_trans hm ?_
  rw [div_pow, mul_div_assoc', mul_div_assoc', div_add_div _ _ h1.ne' (by positivity), div_le_div_iff₀ (by positivity) h2]
  nlinarith [mul_nonneg hu0 h1.le, mul_nonneg (mul_nonneg hu0 hu0) h1.le, mul_nonneg (mul_nonneg hu0 hu0) (mul_nonneg h1.le h2.le)]

/-- All four components are within `ε`. -/
def Within (ε : ℝ) (d k : ℝ × ℝ × ℝ × ℝ) : Prop :=
  |d.1 - k.1| ≤ ε ∧ |d.2.1 - k.2.1| ≤ ε ∧ |d.2.2.1 - k.2.2.1| ≤ ε ∧ |d.2.2.2 - k.2.2.2| ≤ ε

/-- All four components are within the fraction `ε`. -/
def WithinRel (ε : ℝ) (d k : ℝ × ℝ × ℝ × ℝ) : Prop :=
  |d.1 - k.1| ≤ ε * k.1 ∧ |d.2.1 - k.2.1| ≤ ε * k.2.1 ∧ |d.2.2.1 - k.2.2.1| ≤ ε * k.2.2.1 ∧ |d.2.2.2 - k.2.2.2| ≤ ε * k.2.2.2

theorem prod_err {a b a' b' A B ε : ℝ} (ha : |a' - a| ≤ ε * A) (hb : |b' - b| ≤ ε * B) (hA : |a| ≤ A) (hB : |b| ≤ B) (hε : 0 ≤ ε) :
    |a' * b' - a * b| ≤ (2 * ε + ε ^ 2) * (A * B) := by
  have e : a' * b' - a * b = a * (b' - b) + b * (a' - a) + (a' - a) * (b' - b) := by ring
  have hA0 : 0 ≤ A := (abs_nonneg _).trans hA
  have hB0 : 0 ≤ B := (abs_nonneg _).trans hB
  rw [e]
  calc |a * (b' - b) + b * (a' - a) + (a' - a) * (b' - b)|
      ≤ |a| * |b' - b| + |b| * |a' - a| + |a' - a| * |b' - b| := by
        refine (abs_add_le _ _).trans (add_le_add ((abs_add_le _ _).trans ?_) (abs_mul _ _).le)
        rw [abs_mul, abs_mul]
    _ ≤ A * (ε * B) + B * (ε * A) + (ε * A) * (ε * B) := by gcongr
    _ = _ := by ring

theorem step_within {d k : ℝ × ℝ × ℝ × ℝ} {ε : ℝ} (hε : 0 ≤ ε) (h : Within ε d k) (h0 : |k.1| ≤ 1) (h1 : |k.2.1| ≤ 1)
    (h3 : |k.2.2.2| ≤ 1) : Within (4 * ε + 2 * ε ^ 2) (stumpffStep d) (stumpffStep k) := by
  obtain ⟨e0, e1, e2, e3⟩ := h
  have p00 := prod_err (ε := ε) (A := 1) (B := 1) (by simpa using e0) (by simpa using e0) h0 h0 hε
  have p01 := prod_err (ε := ε) (A := 1) (B := 1) (by simpa using e0) (by simpa using e1) h0 h1 hε
  have p11 := prod_err (ε := ε) (A := 1) (B := 1) (by simpa using e1) (by simpa using e1) h1 h1 hε
  have p03 := prod_err (ε := ε) (A := 1) (B := 1) (by simpa using e0) (by simpa using e3) h0 h3 hε
  rw [abs_le] at *
  have := sq_nonneg ε
  refine ⟨?_, ?_, ?_, ?_⟩ <;> rw [abs_le] <;> simp only [stumpffStep] <;> constructor <;> nlinarith

theorem step_rel {d k : ℝ × ℝ × ℝ × ℝ} {ε : ℝ} (hε : 0 ≤ ε) (h : WithinRel ε d k) (h0 : 1 ≤ k.1) (h1 : 0 ≤ k.2.1)
    (h2 : 0 ≤ k.2.2.1) (h3 : 0 ≤ k.2.2.2) : WithinRel (4 * ε + 2 * ε ^ 2) (stumpffStep d) (stumpffStep k) := by
  obtain ⟨e0, e1, e2, e3⟩ := h
  have h00 : 0 ≤ k.1 := by linarith
  have a0 : |k.1| ≤ k.1 := (abs_of_nonneg h00).le
  have a1 : |k.2.1| ≤ k.2.1 := (abs_of_nonneg h1).le
  have a3 : |k.2.2.2| ≤ k.2.2.2 := (abs_of_nonneg h3).le
  have p00 := prod_err e0 e0 a0 a0 hε
  have p01 := prod_err e0 e1 a0 a1 hε
  have p11 := prod_err e1 e1 a1 a1 hε
  have p03 := prod_err e0 e3 a0 a3 hε
  have q1 : 1 ≤ k.1 * k.1 := by nlinarith
  have s := sq_nonneg ε
  have hE : 0 ≤ 2 * ε + ε ^ 2 := by positivity
  refine ⟨?_, ?_, ?_, ?_⟩ <;> simp only [stumpffStep]
  · rw [show 2 * d.1 * d.1 - 1 - (2 * k.1 * k.1 - 1) = 2 * (d.1 * d.1 - k.1 * k.1) by ring, abs_mul, abs_two]
    nlinarith
  · have := mul_nonneg h00 h1
    nlinarith
  · rw [show d.2.1 * d.2.1 / 2 - k.2.1 * k.2.1 / 2 = (1 / 2) * (d.2.1 * d.2.1 - k.2.1 * k.2.1) by ring, abs_mul,
      abs_of_pos (by norm_num : (0 : ℝ) < 1 / 2)]
    have := mul_nonneg h1 h1
    nlinarith
  · have e : (d.2.2.1 + d.1 * d.2.2.2) / 4 - (k.2.2.1 + k.1 * k.2.2.2) / 4 =
        (1 / 4) * ((d.2.2.1 - k.2.2.1) + (d.1 * d.2.2.2 - k.1 * k.2.2.2)) := by ring
    rw [e, abs_mul, abs_of_pos (by norm_num : (0 : ℝ) < 1 / 4)]
    have t := abs_add_le (d.2.2.1 - k.2.2.1) (d.1 * d.2.2.2 - k.1 * k.2.2.2)
    have := mul_nonneg h00 h3
    have := mul_nonneg hε h2
    have := mul_nonneg hE this
    have := mul_nonneg s h2
    nlinarith

theorem iterate_within (x : ℝ) (hx : 0 ≤ x) (n : ℕ) {u : ℝ} (hu0 : 0 ≤ u) (hu : 4 ^ n * u < 1) (d : ℝ × ℝ × ℝ × ℝ)
    (h : Within (u / (1 - u)) d (Spec.exact (x / 4 ^ n))) :
    Within (4 ^ n * u / (1 - 4 ^ n * u)) (stumpffStep^[n] d) (Spec.exact x) := by
  induction n generalizing u d with
  | zero => simpa using h
  | succ n ih =>
    have h4 : 4 ^ n * (4 * u) < 1 := by rw [pow_succ] at hu; linarith
    have hone : (1 : ℝ) ≤ 4 ^ n := one_le_pow₀ (by norm_num)
    have hu4 : 4 * u < 1 := by nlinarith
    rw [Function.iterate_succ_apply, pow_succ, mul_assoc]
    apply ih (by positivity) h4
    have b := c_bounds_nonneg (x / 4 ^ (n + 1)) (by positivity)
    have st := step_within (div_nonneg hu0 (by linarith)) h b.1 b.2.1 b.2.2.2
    rw [c_double, show 4 * (x / 4 ^ (n + 1)) = x / 4 ^ n by rw [pow_succ]; field_simp] at st
    have g := grow hu0 hu4 (div_nonneg hu0 (by linarith)) le_rfl
    exact ⟨st.1.trans g, st.2.1.trans g, st.2.2.1.trans g, st.2.2.2.trans g⟩

theorem iterate_rel (x : ℝ) (hx : x < 0) (n : ℕ) {u : ℝ} (hu0 : 0 ≤ u) (hu : 4 ^ n * u < 1) (d : ℝ × ℝ × ℝ × ℝ)
    (h : WithinRel (u / (1 - u)) d (Spec.exact (x / 4 ^ n))) :
    WithinRel (4 ^ n * u / (1 - 4 ^ n * u)) (stumpffStep^[n] d) (Spec.exact x) := by
  induction n generalizing u d with
  | zero => simpa using h
  | succ n ih =>
    have h4 : 4 ^ n * (4 * u) < 1 := by rw [pow_succ] at hu; linarith
    have hone : (1 : ℝ) ≤ 4 ^ n := one_le_pow₀ (by norm_num)
    have hu4 : 4 * u < 1 := by nlinarith
    rw [Function.iterate_succ_apply, pow_succ, mul_assoc]
    apply ih (by positivity) h4
    have b := c_bounds_neg (x / 4 ^ (n + 1)) (div_neg_of_neg_of_pos hx (by positivity))
    have b' := c_bounds_neg (x / 4 ^ n) (div_neg_of_neg_of_pos hx (by positivity))
    have st := step_rel (div_nonneg hu0 (by linarith)) h b.1 (by linarith [b.2.1] : 0 ≤ Spec.c 1 _) (by linarith [b.2.2.1] : 0 ≤ Spec.c 2 _)
      (by linarith [b.2.2.2] : 0 ≤ Spec.c 3 _)
    rw [c_double, show 4 * (x / 4 ^ (n + 1)) = x / 4 ^ n by rw [pow_succ]; field_simp] at st
    have g := grow hu0 hu4 (div_nonneg hu0 (by linarith)) le_rfl
    refine ⟨st.1.trans ?_, st.2.1.trans ?_, st.2.2.1.trans ?_, st.2.2.2.trans ?_⟩ <;> apply mul_le_mul_of_nonneg_right g <;>
      simp only [Spec.exact] <;> linarith [b'.1, b'.2.1, b'.2.2.1, b'.2.2.2]

theorem reductions_spec (x : ℝ) : |x / 4 ^ reductions x| ≤ 0.1 := by
  classical
  unfold reductions
  exact Nat.find_spec (exists_reduction x)

theorem reductions_bound (x : ℝ) : (4 : ℝ) ^ reductions x ≤ 1 + 40 * |x| := by
  classical
  rcases Nat.eq_zero_or_pos (reductions x) with h | h
  · rw [h]; simp
  · have hm := Nat.find_min (exists_reduction x) (m := reductions x - 1) (by unfold reductions at *; omega)
    push Not at hm
    obtain ⟨m, hm'⟩ : ∃ m, reductions x = m + 1 := ⟨reductions x - 1, by omega⟩
    rw [hm'] at hm ⊢
    simp only [Nat.add_sub_cancel] at hm
    rw [abs_div, abs_of_pos (by positivity : (0 : ℝ) < 4 ^ m), lt_div_iff₀ (by positivity)] at hm
    rw [pow_succ]
    linarith

/-- The final error. -/
theorem final_error {x u : ℝ} (hx : |x| ≤ 1e17) (hu0 : 0 ≤ u) (hu : u ≤ (1 + 40 * |x|) * 1e-19) : u < 1 ∧ u / (1 - u) ≤ (1 + |x|) * 1e-17 := by
  have h0 := abs_nonneg x
  have hh : u ≤ 1 / 2 := by
    refine hu.trans ?_
    norm_num at hx ⊢
    linarith
  refine ⟨by linarith, ?_⟩
  rw [div_le_iff₀ (by linarith)]
  have : (1 + |x|) * 1e-17 * (1 / 2) ≤ (1 + |x|) * 1e-17 * (1 - u) := by
    apply mul_le_mul_of_nonneg_left (by linarith); positivity
  refine le_trans (hu.trans ?_) this
  norm_num
  linarith

end Sorcha.Ephem
