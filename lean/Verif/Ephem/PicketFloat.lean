import Verif.Ephem.PicketProps
import Verif.Turn.Props
import Mathlib.Tactic.Linarith

/-!
# C36 in floating point numbers
-/

namespace Sorcha.Ephem

/-- `update_pickets` with each operation on times rounded to a floating point number, ephemeris/pixel_dict.py:299-349. (The interval is a whole number, so `n *
picket_interval` is a product of integers.) -/
noncomputable def updatePicketsF {V : Type} (rnd : ℝ → ℝ) (vec : ℝ → V) (P : ℕ) (s : Pickets V) (t : ℝ) : Pickets V :=
  if |rnd (t - s.t0)| > rnd (0.5 * P) then
    computePixels <|
      if |rnd (t - s.t0)| ≤ rnd (1.5 * P) then
        if t ≤ s.tm then
          { s with tp := s.t0, vp := s.v0, t0 := s.tm, v0 := s.vm, tm := rnd (s.tm - P), vm := vec (rnd (s.tm - P)) }
        else
          { s with tm := s.t0, vm := s.v0, t0 := s.tp, v0 := s.vp, tp := rnd (s.tp + P), vp := vec (rnd (s.tp + P)) }
      else
        let t0 := rnd (s.t0 + pyRound (rnd (rnd (t - s.t0) / P)) * P)
        { s with t0 := t0, v0 := vec t0, tp := rnd (t0 + P), vp := vec (rnd (t0 + P)), tm := rnd (t0 - P), vm := vec (rnd (t0 - P)) }
  else s

/-- `PixelDict.__init__` in the same way, ephemeris/pixel_dict.py:54-118. -/
noncomputable def initPicketsF {V : Type} (rnd : ℝ → ℝ) (vec : ℝ → V) (P : ℕ) (t : ℝ) : Pickets V :=
  computePixels { tm := rnd (t - P), t0 := t, tp := rnd (t + P), vm := vec (rnd (t - P)), v0 := vec t, vp := vec (rnd (t + P)), pixFrom := ((0, 0, 0), (vec t, vec t, vec t)) }

namespace PicketFloat

open PicketProps

/-- Rounding to floating point numbers with 53 binary digits: these are kept, and a number is moved by at most one part in 2^53. -/
structure RealDouble (rnd : ℝ → ℝ) : Prop where
  fix : ∀ m e : ℤ, |m| < 2 ^ 53 → rnd (m * 2 ^ e) = m * 2 ^ e
  close : ∀ x, |rnd x - x| ≤ |x| / 2 ^ 53

/-- A Julian date as a floating point number (in this range these are the multiples of 2^-31). -/
def OnGrid (t : ℝ) : Prop := ∃ n : ℤ, t = n / 2 ^ 31

theorem fix_grid {rnd : ℝ → ℝ} (hr : RealDouble rnd) {x : ℝ} (h : OnGrid x) (hx : |x| < 2 ^ 22) : rnd x = x := by
  obtain ⟨n, rfl⟩ := h
  have e : (n : ℝ) / 2 ^ 31 = n * 2 ^ (-31 : ℤ) := by norm_num; ring
  rw [e]
  refine hr.fix n (-31) ?_
  rw [abs_div, abs_of_pos (by positivity : (0 : ℝ) < 2 ^ 31), div_lt_iff₀ (by positivity), ← pow_add, ← Int.cast_abs] at hx
  exact_mod_cast hx

theorem grid_add {x y : ℝ} (hx : OnGrid x) (hy : OnGrid y) : OnGrid (x + y) := by
  obtain ⟨a, rfl⟩ := hx
  obtain ⟨b, rfl⟩ := hy
  exact ⟨a + b, by push_cast; ring⟩

theorem grid_sub {x y : ℝ} (hx : OnGrid x) (hy : OnGrid y) : OnGrid (x - y) := by
  obtain ⟨a, rfl⟩ := hx
  obtain ⟨b, rfl⟩ := hy
  exact ⟨a - b, by push_cast; ring⟩

theorem grid_int (k : ℤ) : OnGrid k := ⟨k * 2 ^ 31, by push_cast; norm_num⟩

theorem grid_nat (k : ℕ) : OnGrid k := by simpa using grid_int k

theorem grid_half (k : ℤ) : OnGrid (k / 2) := ⟨k * 2 ^ 30, by push_cast; norm_num; ring⟩

theorem pyRound_unique {x : ℝ} {n : ℤ} (h : |x - n| < 1 / 2) : pyRound x = n := by
  have hc := pyRound_near x
  rw [abs_le] at hc
  rw [abs_lt] at h
  have h1 : (pyRound x : ℝ) < n + 1 := by linarith [hc.1, h.2]
  have h2 : (n : ℝ) < pyRound x + 1 := by linarith [hc.2, h.1]
  have h1' : pyRound x < n + 1 := by exact_mod_cast h1
  have h2' : n < pyRound x + 1 := by exact_mod_cast h2
  omega

/-- The rounded quotient has the same nearest integer. -/
theorem round_quotient {rnd : ℝ → ℝ} (hr : RealDouble rnd) {d : ℝ} (hd : OnGrid d) (hb : |d| < 2 ^ 21) {P : ℕ} (hP : 0 < P) :
    pyRound (rnd (d / P)) = pyRound (d / P) := by
  have p : (0 : ℝ) < P := by exact_mod_cast hP
  have p1 : (1 : ℝ) ≤ P := by exact_mod_cast hP
  have near := pyRound_near (d / P)
  have cl := hr.close (d / P)
  generalize hn : pyRound (d / P) = n at near
  have qb : |d / P| < 2 ^ 21 / P := by
    rw [abs_div, abs_of_pos p]
    gcongr
  have err : |rnd (d / P) - d / P| < 1 / (2 ^ 32 * P) := by
    refine cl.trans_lt ?_
    have e : (2 : ℝ) ^ 21 / P / 2 ^ 53 = 1 / (2 ^ 32 * P) := by field_simp
    rw [← e]
    gcongr
  have half : ∀ k : ℤ, d / P = k / 2 → rnd (d / P) = d / P := by
    intro k hk
    rw [hk]
    refine fix_grid hr (grid_half k) ?_
    rw [← hk]
    refine qb.trans_le ?_
    rw [div_le_iff₀ p]
    nlinarith
  obtain ⟨a, rfl⟩ := hd
  have up : (a : ℝ) / 2 ^ 31 / P - n - 1 / 2 = ((2 * a - (2 * n + 1) * 2 ^ 31 * P : ℤ) : ℝ) * (1 / (2 ^ 32 * P)) := by
    push_cast
    field_simp
    ring
  have dn : (a : ℝ) / 2 ^ 31 / P - n + 1 / 2 = ((2 * a - (2 * n - 1) * 2 ^ 31 * P : ℤ) : ℝ) * (1 / (2 ^ 32 * P)) := by
    push_cast
    field_simp
    ring
  have w : (0 : ℝ) < 1 / (2 ^ 32 * P) := by positivity
  rw [abs_le] at near
  rw [abs_lt] at err
  rcases lt_trichotomy (2 * a - (2 * n + 1) * 2 ^ 31 * P : ℤ) 0 with h | h | h
  · rcases lt_trichotomy (2 * a - (2 * n - 1) * 2 ^ 31 * P : ℤ) 0 with g | g | g
    · exfalso
      have : ((2 * a - (2 * n - 1) * 2 ^ 31 * P : ℤ) : ℝ) < 0 := by exact_mod_cast g
      have := mul_neg_of_neg_of_pos this w
      rw [← dn] at this
      linarith [near.1]
    · rw [half (2 * n - 1) (by rw [g] at dn; push_cast at dn ⊢; linarith), hn]
    · refine pyRound_unique ?_
      have g' : (1 : ℝ) ≤ ((2 * a - (2 * n - 1) * 2 ^ 31 * P : ℤ) : ℝ) := by exact_mod_cast g
      have h' : ((2 * a - (2 * n + 1) * 2 ^ 31 * P : ℤ) : ℝ) ≤ -1 := by
        have : 2 * a - (2 * n + 1) * 2 ^ 31 * P ≤ -1 := by omega
        exact_mod_cast this
      rw [abs_lt]
      constructor
      · have := mul_le_mul_of_nonneg_right g' w.le
        rw [← dn] at this
        linarith [err.1]
      · have := mul_le_mul_of_nonneg_right h' w.le
        rw [← up] at this
        linarith [err.2]
  · rw [half (2 * n + 1) (by rw [h] at up; push_cast at up ⊢; linarith), hn]
  · exfalso
    have : (0 : ℝ) < ((2 * a - (2 * n + 1) * 2 ^ 31 * P : ℤ) : ℝ) := by exact_mod_cast h
    have := mul_pos this w
    rw [← up] at this
    linarith [near.2]

/-- A Julian date in the years 1030 to 6771 as a floating point number, some intervals from the end of the range. -/
def Inside (P : ℕ) (t : ℝ) : Prop := OnGrid t ∧ 2 ^ 21 ≤ t ∧ t + 4 * P < 2 ^ 22

/-- The invariant of the loop over visits. -/
def Good {V : Type} (vec : ℝ → V) (P : ℕ) (s : Pickets V) : Prop :=
  Consistent vec P s ∧ OnGrid s.t0 ∧ 2 ^ 21 - 3 * (P : ℝ) ≤ s.t0 ∧ s.t0 + P < 2 ^ 22

/-- The central reference time after an update is a floating point number near the visit. -/
theorem update_within {V : Type} (vec : ℝ → V) (P : ℕ) (hP : 0 < P) (s : Pickets V) (t : ℝ) (h : Consistent vec P s) (g : OnGrid s.t0) :
    |t - (updatePickets vec P s t).t0| ≤ 3 * P ∧ OnGrid (updatePickets vec P s t).t0 := by
  have p : (0 : ℝ) < P := by exact_mod_cast hP
  obtain ⟨h1, h2, -⟩ := h
  unfold updatePickets
  split_ifs with c1 c2 c3
  · simp only [computePixels, h1]
    refine ⟨?_, grid_sub g (grid_nat P)⟩
    rw [abs_le] at c2 ⊢
    constructor <;> linarith [c2.1, c2.2]
  · simp only [computePixels, h2]
    refine ⟨?_, grid_add g (grid_nat P)⟩
    rw [abs_le] at c2 ⊢
    constructor <;> linarith [c2.1, c2.2]
  · simp only [computePixels]
    constructor
    · have := pyRound_near ((t - s.t0) / P)
      have e : t - (s.t0 + pyRound ((t - s.t0) / P) * P) = ((t - s.t0) / P - pyRound ((t - s.t0) / P)) * P := by field_simp; ring
      rw [e, abs_mul, abs_of_pos p]
      nlinarith
    · refine grid_add g ?_
      have := grid_int (pyRound ((t - s.t0) / P) * P)
      push_cast at this
      exact this
  · refine ⟨?_, g⟩
    rw [gt_iff_lt, not_lt] at c1
    linarith

theorem update_good {V : Type} (vec : ℝ → V) (P : ℕ) (hP : 0 < P) (s : Pickets V) (t : ℝ) (h : Good vec P s) (ht : Inside P t) :
    Good vec P (updatePickets vec P s t) := by
  obtain ⟨w, g⟩ := update_within vec P hP s t h.1 h.2.1
  rw [abs_le] at w
  exact ⟨update_consistent vec P s t h.1, g, by linarith [w.2, ht.2.1], by linarith [w.1, ht.2.2]⟩

/-- One update in floating point numbers is the exact one. -/
theorem updateF_eq {V : Type} {rnd : ℝ → ℝ} (hr : RealDouble rnd) (vec : ℝ → V) (P : ℕ) (hP : 0 < P) (s : Pickets V) (t : ℝ) (h : Good vec P s) (ht : Inside P t) :
    updatePicketsF rnd vec P s t = updatePickets vec P s t := by
  have p : (0 : ℝ) < P := by exact_mod_cast hP
  have good := update_good vec P hP s t h ht
  obtain ⟨⟨h1, h2, -⟩, g, l, u⟩ := h
  obtain ⟨tg, tl, tu⟩ := ht
  obtain ⟨⟨k1, k2, -⟩, kg, kl, ku⟩ := good
  have pb : (P : ℝ) < 524288 := by norm_num at tl tu; linarith
  have small : |t - s.t0| < 2 ^ 21 := by
    rw [abs_lt]
    constructor <;> norm_num at * <;> linarith
  have e1 : rnd (t - s.t0) = t - s.t0 := fix_grid hr (grid_sub tg g) (small.trans (by norm_num))
  have e2 : rnd (0.5 * P) = 0.5 * P := by
    have q : (0.5 : ℝ) * P = ((P : ℤ) : ℝ) / 2 := by push_cast; ring
    rw [q]
    refine fix_grid hr (grid_half P) ?_
    rw [abs_of_nonneg (by positivity)]
    push_cast
    norm_num at *
    linarith
  have e3 : rnd (1.5 * P) = 1.5 * P := by
    have q : (1.5 : ℝ) * P = ((3 * P : ℤ) : ℝ) / 2 := by push_cast; ring
    rw [q]
    refine fix_grid hr (grid_half (3 * P)) ?_
    rw [abs_of_nonneg (by positivity)]
    push_cast
    norm_num at *
    linarith
  unfold updatePicketsF
  unfold updatePickets at k1 k2 kg kl ku ⊢
  rw [e1, e2, e3]
  have pos : ∀ {x : ℝ}, 2 ^ 21 - 4 * (P : ℝ) ≤ x → x < 2 ^ 22 → |x| < 2 ^ 22 := by
    intro x a b
    rw [abs_lt]
    constructor <;> norm_num at * <;> linarith
  split_ifs at k1 k2 kg kl ku ⊢ with c1 c2 c3
  · simp only [computePixels] at k1 k2 kg kl ku
    have f : rnd (s.tm - P) = s.tm - P := fix_grid hr (grid_sub kg (grid_nat P)) (pos (by linarith) (by linarith))
    rw [f]
  · simp only [computePixels] at k1 k2 kg kl ku
    have f : rnd (s.tp + P) = s.tp + P := fix_grid hr (grid_add kg (grid_nat P)) (pos (by linarith) (by linarith))
    rw [f]
  · simp only [computePixels] at k1 k2 kg kl ku
    rw [round_quotient hr (grid_sub tg g) small hP]
    generalize s.t0 + pyRound ((t - s.t0) / P) * P = x at *
    have f0 : rnd x = x := fix_grid hr kg (pos (by linarith) (by linarith))
    have f1 : rnd (x - P) = x - P := fix_grid hr (grid_sub kg (grid_nat P)) (pos (by linarith) (by linarith))
    have f2 : rnd (x + P) = x + P := fix_grid hr (grid_add kg (grid_nat P)) (pos (by linarith) (by linarith))
    simp only [f0, f1, f2]
  · rfl

/-- C36 (floating point): for whole numbers of days as interval the tables of reference times are, after any visits in any order, exactly those of exact arithmetic. -/
theorem C36_float {V : Type} {rnd : ℝ → ℝ} (hr : RealDouble rnd) (vec : ℝ → V) (P : ℕ) (hP : 0 < P) (t : ℝ) (visits : List ℝ) (ht : Inside P t)
    (hv : ∀ x ∈ visits, Inside P x) :
    visits.foldl (updatePicketsF rnd vec P) (initPicketsF rnd vec P t) = afterVisits vec P t visits := by
  have p : (0 : ℝ) < P := by exact_mod_cast hP
  have i0 : initPicketsF rnd vec P t = initPickets vec P t := by
    obtain ⟨tg, tl, tu⟩ := ht
    have f1 : rnd (t - P) = t - P := fix_grid hr (grid_sub tg (grid_nat P)) (by rw [abs_lt]; constructor <;> norm_num at * <;> linarith)
    have f2 : rnd (t + P) = t + P := fix_grid hr (grid_add tg (grid_nat P)) (by rw [abs_lt]; constructor <;> norm_num at * <;> linarith)
    unfold initPicketsF initPickets
    rw [f1, f2]
  have g0 : Good vec P (initPickets vec P t) := by
    refine ⟨init_consistent vec P t, ht.1, ?_, ?_⟩
    · have : (initPickets vec P t).t0 = t := rfl
      rw [this]
      linarith [ht.2.1]
    · have : (initPickets vec P t).t0 = t := rfl
      rw [this]
      linarith [ht.2.2]
  rw [i0]
  unfold afterVisits
  generalize initPickets vec P t = s at g0
  clear i0
  induction visits generalizing s with
  | nil => rfl
  | cons x l ih =>
    simp only [List.foldl_cons]
    have hx := hv x (by simp)
    rw [updateF_eq hr vec P hP s x g0 hx]
    exact ih (fun y hy => hv y (by simp [hy])) _ (update_good vec P hP s x g0 hx)

/-- C36 (floating point, in order of time): so the last visit is within half an interval of the central reference time. -/
theorem C36_float_brackets {V : Type} {rnd : ℝ → ℝ} (hr : RealDouble rnd) (vec : ℝ → V) (P : ℕ) (hP : 0 < P) (t : ℝ) (visits : List ℝ) (ht : Inside P t)
    (hv : ∀ x ∈ visits, Inside P x) (hs : (t :: visits).Pairwise (· ≤ ·)) :
    |(t :: visits).getLast (by simp) - (visits.foldl (updatePicketsF rnd vec P) (initPicketsF rnd vec P t)).t0| ≤ P / 2 := by
  rw [C36_float hr vec P hP t visits ht hv]
  exact C36_brackets vec P t (by exact_mod_cast hP) visits hs

/-- A rounding of this kind, from the one to nearest of `Turn`. -/
noncomputable def lifted (x : ℝ) : ℝ := open Classical in if h : ∃ q : ℚ, x = q then (Sorcha.Turn.Props.nearest h.choose : ℝ) else x

theorem lifted_rat (q : ℚ) : lifted q = Sorcha.Turn.Props.nearest q := by
  have h : ∃ r : ℚ, (q : ℝ) = r := ⟨q, rfl⟩
  unfold lifted
  rw [dif_pos h]
  have : h.choose = q := by
    have := h.choose_spec
    exact_mod_cast this.symm
  rw [this]

theorem nearest_close (q : ℚ) : |Sorcha.Turn.Props.nearest q - q| ≤ |q| / 2 ^ 53 := by
  by_cases h0 : q = 0
  · subst h0
    simp [Sorcha.Turn.Props.nearest]
  have p : (0 : ℚ) < 2 ^ (Int.log 2 |q| - 52) := zpow_pos (by norm_num) _
  have l : (2 : ℚ) ^ Int.log 2 |q| ≤ |q| := by
    have := Int.zpow_log_le_self (b := 2) (by norm_num) (abs_pos.2 h0)
    exact_mod_cast this
  unfold Sorcha.Turn.Props.nearest
  have e : (2 : ℚ) ^ (Int.log 2 |q| - 52) = 2 ^ Int.log 2 |q| / 2 ^ 52 := by
    rw [zpow_sub₀ (by norm_num)]
    norm_num
  rw [e] at p ⊢
  have zb : (2 : ℚ) ^ Int.log 2 |q| / 2 ^ 52 ≤ |q| / 2 ^ 52 := by gcongr
  clear e l
  generalize (2 : ℚ) ^ Int.log 2 |q| / 2 ^ 52 = z at p zb ⊢
  have r := abs_sub_round (q / z)
  have s : (round (q / z) : ℚ) * z - q = -((q / z - round (q / z)) * z) := by field_simp; ring
  rw [s, abs_neg, abs_mul, abs_of_pos p]
  calc |q / z - round (q / z)| * z ≤ 1 / 2 * z := by gcongr
    _ ≤ 1 / 2 * (|q| / 2 ^ 52) := by gcongr
    _ = |q| / 2 ^ 53 := by ring

theorem lifted_double : RealDouble lifted := by
  constructor
  · intro m e hm
    have c : ((m * 2 ^ e : ℚ) : ℝ) = m * 2 ^ e := by push_cast; rfl
    have d : Sorcha.Turn.Spec.IsDouble (m * 2 ^ e) := ⟨m, e, rfl, hm⟩
    rw [← c, lifted_rat]
    congr 1
    exact le_antisymm (Sorcha.Turn.Props.rnd_le Sorcha.Turn.Props.nearest_nearest d le_rfl) (Sorcha.Turn.Props.rnd_ge Sorcha.Turn.Props.nearest_nearest d le_rfl)
  · intro x
    by_cases h : ∃ q : ℚ, x = q
    · obtain ⟨q, rfl⟩ := h
      rw [lifted_rat]
      have := nearest_close q
      exact_mod_cast this
    · unfold lifted
      rw [dif_neg h, sub_self, abs_zero]
      positivity

/-- Visits in 2023, with an interval of one day. -/
example : Inside 1 2460000.5 ∧ Inside 1 2460000.75 := by
  refine ⟨⟨⟨2460000 * 2 ^ 31 + 2 ^ 30, by norm_num⟩, by norm_num, by norm_num⟩, ⟨⟨2460000 * 2 ^ 31 + 3 * 2 ^ 29, by norm_num⟩, by norm_num, by norm_num⟩⟩

end PicketFloat
end Sorcha.Ephem
