import Verif.Ephem.Solve

/-!
# Property C66: the solution of Kepler's equation
-/

namespace Sorcha.Ephem.SolveProps
open Sorcha.Photom Sorcha.Geom Sorcha.Ephem Sorcha.Ephem.Props Sorcha.Ephem.OrbitProps Real

section
variable {mu q e : ℝ} (hmu : 0 < mu) (hq : 0 < q) (he : 0 ≤ e)
include hmu hq he

/-! ## Bracketing -/

theorem bracket_pos {t : ℝ} (ht : 0 < t) (n : ℕ) : ∀ p s : ℝ, 0 ≤ p → s = p + t / 4 → Spec.keplerTime mu q e p < t → t ≤ q * (p + n * (t / 4)) →
    ∃ a b, bracket (fun s => (keplerF mu q e t s).1) (t / 4) n p s = some (a, b) ∧ b = a + t / 4 ∧
      Spec.keplerTime mu q e a ≤ t ∧ t ≤ Spec.keplerTime mu q e b := by
  induction n with
  | zero =>
    intro p s hp _ hlt hle
    have := time_mono hmu hq he hp
    rw [time_zero hmu hq he] at this
    push_cast at hle
    linarith
  | succ n ih =>
    intro p s hp hs hlt hle
    rw [bracket]
    have e1 : ∀ x, (keplerF mu q e t x).1 = Spec.keplerTime mu q e x - t := fun _ => rfl
    by_cases h : (Spec.keplerTime mu q e s - t) * (Spec.keplerTime mu q e p - t) > 0
    · rw [if_pos (by simpa only [e1] using h)]
      have hneg : Spec.keplerTime mu q e s - t < 0 := by
        by_contra hn
        push Not at hn
        nlinarith
      refine ih s (s + t / 4) (by linarith) rfl (by linarith) ?_
      rw [hs]
      push_cast at hle
      linarith
    · rw [if_neg (by simpa only [e1] using h)]
      refine ⟨p, s, rfl, hs, hlt.le, ?_⟩
      by_contra hn
      push Not at hn
      exact h (mul_pos_of_neg_of_neg (by linarith) (by linarith))

theorem bracket_neg {t : ℝ} (ht : t < 0) (n : ℕ) : ∀ p s : ℝ, p ≤ 0 → s = p + t / 4 → t < Spec.keplerTime mu q e p → q * (p + n * (t / 4)) ≤ t →
    ∃ a b, bracket (fun s => (keplerF mu q e t s).1) (t / 4) n p s = some (a, b) ∧ b = a + t / 4 ∧
      t ≤ Spec.keplerTime mu q e a ∧ Spec.keplerTime mu q e b ≤ t := by
  induction n with
  | zero =>
    intro p s hp _ hlt hle
    have := time_mono hmu hq he hp
    rw [time_zero hmu hq he] at this
    push_cast at hle
    linarith
  | succ n ih =>
    intro p s hp hs hlt hle
    rw [bracket]
    have e1 : ∀ x, (keplerF mu q e t x).1 = Spec.keplerTime mu q e x - t := fun _ => rfl
    by_cases h : (Spec.keplerTime mu q e s - t) * (Spec.keplerTime mu q e p - t) > 0
    · rw [if_pos (by simpa only [e1] using h)]
      have hneg : 0 < Spec.keplerTime mu q e s - t := by
        by_contra hn
        push Not at hn
        nlinarith
      refine ih s (s + t / 4) (by linarith) rfl (by linarith) ?_
      rw [hs]
      push_cast at hle
      linarith
    · rw [if_neg (by simpa only [e1] using h)]
      refine ⟨p, s, rfl, hs, hlt.le, ?_⟩
      by_contra hn
      push Not at hn
      exact h (mul_pos (by linarith) (by linarith))

/-- The root lies between two places where the value has different signs. -/
theorem root_between {a b t : ℝ} (ha : Spec.keplerTime mu q e a ≤ t) (hb : t ≤ Spec.keplerTime mu q e b) {σ : ℝ} (hσ : Spec.keplerTime mu q e σ = t) :
    a ≤ σ ∧ σ ≤ b := by
  constructor
  · by_contra h
    push Not at h
    have := time_mono hmu hq he h.le
    nlinarith
  · by_contra h
    push Not at h
    have := time_mono hmu hq he h.le
    nlinarith

/-- C66 (bracketing): whatever the time, the steps of a quarter of it pass the solution of Kepler's equation within `4 / q` steps, rounded up: the
search for a bracket ends, and the solution lies between its last two places. -/
theorem C66_bracket (t : ℝ) (n : ℕ) (hn : 4 / q ≤ n) :
    ∃ a b, bracket (fun s => (rootFunction Spec.exact s mu (2 * mu / q - mu * (1 + e) / q) q 0 t).1) (t / 4) n 0 (0 + t / 4) = some (a, b) ∧
      ∀ σ, Spec.keplerTime mu q e σ = t → σ ∈ Set.uIcc a b := by
  have hF : (fun s => (rootFunction Spec.exact s mu (2 * mu / q - mu * (1 + e) / q) q 0 t).1) = fun s => (keplerF mu q e t s).1 := by
    have := rootFunction_kepler (mu := mu) (e := e) hq t
    funext s
    exact congrArg (·.1) (congrFun this s)
  rw [hF]
  rw [div_le_iff₀ hq] at hn
  have h0 := time_zero hmu hq he
  rcases lt_trichotomy t 0 with ht | ht | ht
  · obtain ⟨a, b, h, hb, h1, h2⟩ := bracket_neg hmu hq he ht n 0 (0 + t / 4) le_rfl rfl (by rw [h0]; exact ht) (by nlinarith)
    refine ⟨a, b, h, fun σ hσ => ?_⟩
    have := root_between hmu hq he h2 h1 hσ
    rw [Set.uIcc_comm, Set.mem_uIcc]
    exact Or.inl this
  · subst ht
    have hpos : 0 < n := by
      rcases Nat.eq_zero_or_pos n with h | h
      · subst h; simp at hn; linarith
      · exact h
    obtain ⟨m, rfl⟩ := Nat.exists_eq_succ_of_ne_zero hpos.ne'
    refine ⟨0, 0, ?_, fun σ hσ => ?_⟩
    · simp only [bracket, keplerF, h0]
      simp [h0]
    · have := time_inj hmu hq he (hσ.trans h0.symm)
      rw [this]; simp
  · obtain ⟨a, b, h, hb, h1, h2⟩ := bracket_pos hmu hq he ht n 0 (0 + t / 4) le_rfl rfl (by rw [h0]; exact ht) (by nlinarith)
    refine ⟨a, b, h, fun σ hσ => ?_⟩
    have := root_between hmu hq he h1 h2 hσ
    rw [Set.mem_uIcc]
    exact Or.inl this

/-! ## The search -/

/-- What holds of the state of the search at every pass. -/
structure Good (mu q e t : ℝ) (s : Search) : Prop where
  low : Spec.keplerTime mu q e s.xl < t
  high : t ≤ Spec.keplerTime mu q e s.xh
  f : s.f = (keplerF mu q e t s.rts).1
  fp : s.fp = (keplerF mu q e t s.rts).2.1
  fpp : s.fpp = (keplerF mu q e t s.rts).2.2

/-- What an answer of the search satisfies. -/
def Near (mu q e t xacc x : ℝ) : Prop :=
  ∀ σ, Spec.keplerTime mu q e σ = t → √(mu * (1 + e) / q) * (xacc * |x|) ≤ 1 / 10 → |x - σ| ≤ 5 * (xacc * |x|)

omit hmu hq he in
theorem rebracket_good {t : ℝ} {s : Search} (hl : Spec.keplerTime mu q e s.xl < t) (hh : t ≤ Spec.keplerTime mu q e s.xh) :
    Good mu q e t (rebracket (keplerF mu q e t) s) := by
  unfold rebracket
  simp only
  split_ifs with h
  · exact ⟨by simp only [keplerF] at h; simpa using h, hh, rfl, rfl, rfl⟩
  · refine ⟨hl, ?_, rfl, rfl, rfl⟩
    simp only [keplerF] at h
    push Not at h
    simpa using h

omit hmu hq he in
theorem short {s : Search} {xacc : ℝ} (h0 : s.rts ≠ 0) (h : |s.dx / s.rts| < xacc) : |s.dx| < xacc * |s.rts| := by
  rw [abs_div, div_lt_iff₀ (abs_pos.2 h0)] at h
  exact h

theorem step_good {t xacc : ℝ} {s : Search} (h : Good mu q e t s) :
    match halleyStep (keplerF mu q e t) xacc s with
    | .found x _ => Near mu q e t xacc x
    | .next s' => Good mu q e t s'
    | .raised => True := by
  unfold halleyStep
  split_ifs with h1 h2
  · unfold endPass
    split_ifs with h3 h4
    · trivial
    · intro σ hσ _
      have hs := short h3 h4
      have hb := root_between hmu hq he h.low.le h.high hσ
      simp only [bisect] at hs ⊢
      have : |s.xl + 0.5 * (s.xh - s.xl) - σ| ≤ |0.5 * (s.xh - s.xl)| := by
        rw [abs_of_nonneg (by linarith : (0 : ℝ) ≤ 0.5 * (s.xh - s.xl)), abs_le]
        constructor <;> linarith
      have hn := (abs_nonneg _).trans hs.le
      linarith
    · exact rebracket_good h.low h.high
  · trivial
  · unfold endPass
    push Not at h2
    split_ifs with h3 h4
    · trivial
    · intro σ hσ hv
      have hs := short h3 h4
      simp only [halley] at hs ⊢
      set d := 2 * s.f * s.fp / (2 * s.fp * s.fp - s.f * s.fpp) with hd
      have hfp : s.fp = rad mu q e s.rts := h.fp
      have hn := halley_near hmu hq he (s := s.rts) (σ := σ) (d := d) hσ (by rw [← h.f, ← h.fpp, ← hfp]; exact h2.2)
        (by rw [← h.f, ← h.fpp, ← hfp])
        ((mul_le_mul_of_nonneg_left hs.le (Real.sqrt_nonneg _)).trans hv)
      linarith
    · exact rebracket_good h.low h.high

theorem loop_good {t xacc : ℝ} (n : ℕ) : ∀ {s : Search}, Good mu q e t s → ∀ {x fp}, halleyLoop (keplerF mu q e t) xacc n s = .root x fp →
    Near mu q e t xacc x := by
  induction n with
  | zero => intro s _ x fp h; simp [halleyLoop] at h
  | succ n ih =>
    intro s hg x fp h
    have hs := step_good hmu hq he (xacc := xacc) hg
    rw [halleyLoop] at h
    cases hst : halleyStep (keplerF mu q e t) xacc s with
    | found y fp' =>
      rw [hst] at h hs
      simp only [Found.root.injEq] at h
      rw [← h.1]
      exact hs
    | raised => rw [hst] at h; simp at h
    | next s' =>
      rw [hst] at h hs
      exact ih hs h

theorem root_near {t xacc x : ℝ} (hx : (keplerF mu q e t x).1 = 0) (h0 : 0 ≤ xacc) : Near mu q e t xacc x := by
  intro σ hσ _
  have : x = σ := by
    apply time_inj hmu hq he
    rw [hσ]
    simp only [keplerF] at hx
    linarith
  rw [this, sub_self, abs_zero]
  positivity

theorem safe_good {t xacc x1 x2 : ℝ} (h0 : 0 ≤ xacc) {n : ℕ} {x fp : ℝ} (h : halleySafe (keplerF mu q e t) x1 x2 xacc n = .root x fp) :
    Near mu q e t xacc x := by
  unfold halleySafe at h
  simp only at h
  by_cases h1 : ((keplerF mu q e t x1).1 > 0 ∧ (keplerF mu q e t x2).1 > 0) ∨ ((keplerF mu q e t x1).1 < 0 ∧ (keplerF mu q e t x2).1 < 0)
  · rw [if_pos h1] at h; simp at h
  rw [if_neg h1] at h
  by_cases h2 : (keplerF mu q e t x1).1 = 0
  · rw [if_pos h2] at h
    simp only [Found.root.injEq] at h
    rw [← h.1]
    exact root_near hmu hq he h2 h0
  rw [if_neg h2] at h
  by_cases h3 : (keplerF mu q e t x2).1 = 0
  · rw [if_pos h3] at h
    simp only [Found.root.injEq] at h
    rw [← h.1]
    exact root_near hmu hq he h3 h0
  rw [if_neg h3] at h
  refine loop_good hmu hq he n ?_ h
  by_cases h4 : (keplerF mu q e t x1).1 < 0
  · have h5 : 0 < (keplerF mu q e t x2).1 := by
      rcases lt_trichotomy (keplerF mu q e t x2).1 0 with h' | h' | h'
      · exact absurd (Or.inr ⟨h4, h'⟩) h1
      · exact absurd h' h3
      · exact h'
    rw [if_pos h4, if_pos h4]
    simp only [keplerF] at h4 h5
    exact ⟨by simp only; linarith, by simp only; linarith, rfl, rfl, rfl⟩
  · have h5 : 0 < (keplerF mu q e t x1).1 := lt_of_le_of_ne (not_lt.1 h4) (Ne.symm h2)
    have h6 : (keplerF mu q e t x2).1 < 0 := by
      rcases lt_trichotomy (keplerF mu q e t x2).1 0 with h' | h' | h'
      · exact h'
      · exact absurd h' h3
      · exact absurd (Or.inl ⟨h5, h'⟩) h1
    rw [if_neg h4, if_neg h4]
    simp only [keplerF] at h5 h6
    exact ⟨by simp only; linarith, by simp only; linarith, rfl, rfl, rfl⟩

theorem retry_good {t xacc : ℝ} (h0 : 0 ≤ xacc) {m : ℕ} (n : ℕ) : ∀ {s x fp : ℝ}, retry (keplerF mu q e t) xacc m n s = .root x fp →
    Near mu q e t xacc x := by
  induction n with
  | zero =>
    intro s x fp h
    rw [retry] at h
    split_ifs at h
    split at h <;> simp at h
  | succ n ih =>
    intro s x fp h
    rw [retry] at h
    split_ifs at h
    split at h
    · exact ih h
    · exact safe_good hmu hq he h0 h

theorem anomaly_near {t : ℝ} {n : ℕ} {x fp : ℝ} (h : anomaly Spec.exact mu q e t n = some (.root x fp)) : Near mu q e t 1e-14 x := by
  unfold anomaly at h
  simp only at h
  have hF := rootFunction_kepler (mu := mu) (e := e) hq t
  simp only [hF] at h
  split at h
  · simp at h
  · split at h
    · simp only [Option.some.injEq] at h
      exact retry_good hmu hq he (by norm_num) 10 h
    · simp only [Option.some.injEq] at h
      exact safe_good hmu hq he (by norm_num) h

/-- C66 (accuracy): the universal anomaly the search answers with differs from the solution of Kepler's equation by at most 5e-14 of itself, for every
conic and every time; `v` is the speed at perihelion. (The condition on the answer, 1e13 in units of the natural length over `v`, is far beyond
anything meaningful.) -/
theorem C66_accuracy {t : ℝ} {n : ℕ} {x fp : ℝ} (h : anomaly Spec.exact mu q e t n = some (.root x fp))
    (hx : √(mu * (1 + e) / q) * |x| ≤ 1e13) {σ : ℝ} (hσ : Spec.keplerTime mu q e σ = t) : |x - σ| ≤ 5e-14 * |x| := by
  have := anomaly_near hmu hq he h σ hσ (by
    have : √(mu * (1 + e) / q) * (1e-14 * |x|) = 1e-14 * (√(mu * (1 + e) / q) * |x|) := by ring
    rw [this]
    linarith)
  linarith

/-- C66 (termination): with `4 / q` passes, rounded up, allowed for the bracket, the search always ends: with an answer, with NaN, or with a division
by zero. -/
theorem C66_ends (t : ℝ) (n : ℕ) (hn : 4 / q ≤ n) : ∃ r, anomaly Spec.exact mu q e t n = some r := by
  obtain ⟨a, b, h, -⟩ := C66_bracket hmu hq he t n hn
  unfold anomaly
  simp only [h]
  split <;> exact ⟨_, rfl⟩

end
end Sorcha.Ephem.SolveProps
