import Verif.Turn.Model
import Verif.Turn.Spec
import Mathlib.Tactic.Linarith
import Mathlib.Tactic.NormNum
import Mathlib.Tactic.Positivity
import Mathlib.Data.Int.Log

/-!
# C105: right ascensions as floating point numbers
-/

namespace Sorcha.Turn.Props

open Sorcha.Turn.Spec

theorem int_double (m : ℤ) (e : ℤ) (h : |m| < 2 ^ 53) : IsDouble (m * (2 : ℚ) ^ e) := ⟨m, e, rfl, h⟩

theorem nat_double (m : ℤ) (h : |m| < 2 ^ 53) : IsDouble (m : ℚ) := ⟨m, 0, by simp, h⟩

variable {rnd : ℚ → ℚ}

theorem rnd_ge (hr : Nearest rnd) {x f : ℚ} (hf : IsDouble f) (h : f ≤ x) : f ≤ rnd x := by
  have := hr.near x f hf
  rw [abs_of_nonpos (by linarith : f - x ≤ 0), abs_le] at this
  linarith [this.1]

theorem rnd_le (hr : Nearest rnd) {x f : ℚ} (hf : IsDouble f) (h : x ≤ f) : rnd x ≤ f := by
  have := hr.near x f hf
  rw [abs_of_nonneg (by linarith : 0 ≤ f - x), abs_le] at this
  linarith [this.2]

/-- The error of a number from 0 to 512. -/
theorem rnd_close (hr : Nearest rnd) {x : ℚ} (h0 : 0 ≤ x) (h1 : x < 511) : |rnd x - x| ≤ 1 / 2 ^ 45 := by
  have hx := Int.floor_le (x * 2 ^ 44 + 1 / 2)
  have hy := Int.lt_floor_add_one (x * 2 ^ 44 + 1 / 2)
  generalize hn : ⌊x * 2 ^ 44 + 1 / 2⌋ = n at hx hy
  have n0 : (-1 : ℚ) < n := by norm_num at *; linarith
  have n1 : (n : ℚ) < 2 ^ 53 := by norm_num at *; linarith
  have n0' : -1 < n := by exact_mod_cast n0
  have n1' : n < 2 ^ 53 := by exact_mod_cast n1
  have hd : IsDouble (n * (2 : ℚ) ^ (-44 : ℤ)) := int_double n (-44) (by rw [abs_lt]; omega)
  refine (hr.near x _ hd).trans ?_
  have e : (2 : ℚ) ^ (-44 : ℤ) = 1 / 2 ^ 44 := by norm_num
  rw [e, abs_le]
  norm_num at *
  constructor <;> linarith

/-- The error of a number from 0 to 1023. -/
theorem rnd_close' (hr : Nearest rnd) {x : ℚ} (h0 : 0 ≤ x) (h1 : x < 1023) : |rnd x - x| ≤ 1 / 2 ^ 44 := by
  have hx := Int.floor_le (x * 2 ^ 43 + 1 / 2)
  have hy := Int.lt_floor_add_one (x * 2 ^ 43 + 1 / 2)
  generalize hn : ⌊x * 2 ^ 43 + 1 / 2⌋ = n at hx hy
  have n0 : (-1 : ℚ) < n := by norm_num at *; linarith
  have n1 : (n : ℚ) < 2 ^ 53 := by norm_num at *; linarith
  have n0' : -1 < n := by exact_mod_cast n0
  have n1' : n < 2 ^ 53 := by exact_mod_cast n1
  have hd : IsDouble (n * (2 : ℚ) ^ (-43 : ℤ)) := int_double n (-43) (by rw [abs_lt]; omega)
  refine (hr.near x _ hd).trans ?_
  have e : (2 : ℚ) ^ (-43 : ℤ) = 1 / 2 ^ 43 := by norm_num
  rw [e, abs_le]
  norm_num at *
  constructor <;> linarith

/-- Floating point numbers above 256 are multiples of 2^-44. -/
theorem double_grid {q : ℚ} (hq : IsDouble q) (h : 256 ≤ q) : ∃ n : ℤ, q * 2 ^ 44 = n := by
  obtain ⟨m, e, rfl, hm⟩ := hq
  have he : -45 < e := by
    by_contra hlt
    have h1 : (2 : ℚ) ^ e ≤ 2 ^ (-45 : ℤ) := zpow_le_zpow_right₀ (by norm_num) (by omega)
    have h2 : (m : ℚ) < 2 ^ 53 := by exact_mod_cast (abs_lt.1 hm).2
    have h3 : (0 : ℚ) < 2 ^ e := zpow_pos (by norm_num) e
    have h4 : (m : ℚ) * 2 ^ e < 2 ^ 53 * 2 ^ e := by gcongr
    have h5 : (2 : ℚ) ^ 53 * 2 ^ e ≤ 2 ^ 53 * 2 ^ (-45 : ℤ) := by gcongr
    have h6 : (2 : ℚ) ^ 53 * 2 ^ (-45 : ℤ) = 256 := by norm_num
    linarith
  refine ⟨m * 2 ^ (e + 44).toNat, ?_⟩
  have h2 : (2 : ℚ) ^ e * 2 ^ 44 = 2 ^ (e + 44).toNat := by
    rw [← zpow_natCast (2 : ℚ) 44, ← zpow_natCast (2 : ℚ) (e + 44).toNat, ← zpow_add₀ (by norm_num), Int.toNat_of_nonneg (by omega)]
    norm_num
  push_cast
  rw [mul_assoc, h2]

theorem fmod_small {a : ℚ} (h0 : -360 < a) (h1 : a < 360) : fmod a 360 = a := by
  unfold fmod
  by_cases h : 0 ≤ a
  · have e : ⌊a / 360⌋ = 0 := by rw [Int.floor_eq_iff]; constructor <;> push_cast <;> linarith
    rw [if_pos (by positivity), e]; simp
  · have e : ⌈a / 360⌉ = 0 := by rw [Int.ceil_eq_iff]; constructor <;> push_cast <;> linarith
    rw [if_neg (by intro hc; apply h; linarith), e]; simp

theorem fmod_turn {a : ℚ} (h0 : 360 ≤ a) (h1 : a < 720) : fmod a 360 = a - 360 := by
  unfold fmod
  have e : ⌊a / 360⌋ = 1 := by rw [Int.floor_eq_iff]; constructor <;> push_cast <;> linarith
  rw [if_pos (by linarith), e]; simp

theorem d360 : IsDouble 360 := by simpa using nat_double 360 (by norm_num)
theorem d0 : IsDouble 0 := by simpa using nat_double 0 (by norm_num)
theorem d540 : IsDouble 540 := by simpa using nat_double 540 (by norm_num)

theorem ephemeris_neg {a : ℚ} (h0 : -360 < a) (h1 : a < 0) : raEphemeris rnd a = rnd (a + 360) := by
  unfold raEphemeris npMod
  rw [fmod_small h0 (by linarith), if_neg (by linarith), if_pos]
  simp [h1]

theorem ephemeris_pos {a : ℚ} (h0 : 0 ≤ a) (h1 : a < 360) : raEphemeris rnd a = a := by
  unfold raEphemeris npMod
  rw [fmod_small (by linarith) h1]
  by_cases h : a = 0
  · simp [h]
  · rw [if_neg h, if_neg]
    simp [not_lt.2 h0]

/-- C105 (ephemerides): the right ascension of generated ephemerides is from 0 to 360, and the direction is kept up to 2^-45 degrees. -/
theorem C105_ephemeris (hr : Nearest rnd) (a : ℚ) (h0 : -180 ≤ a) (h1 : a ≤ 180) :
    0 ≤ raEphemeris rnd a ∧ raEphemeris rnd a ≤ 360 ∧ SameDirection (1 / 2 ^ 45) (raEphemeris rnd a) a := by
  rcases lt_or_ge a 0 with h | h
  · rw [ephemeris_neg (by linarith) h]
    refine ⟨rnd_ge hr d0 (by linarith), rnd_le hr d360 (by linarith), 1, ?_⟩
    have := rnd_close hr (x := a + 360) (by linarith) (by linarith)
    simpa using this
  · rw [ephemeris_pos h (by linarith)]
    exact ⟨h, by linarith, 0, by simp⟩

/-- **C105 fails**: the right ascension of generated ephemerides is exactly 360, which should be 0, for directions just below it. -/
theorem C105_full_turn_fails (hr : Nearest rnd) (a : ℚ) (h0 : -(1 / 2 ^ 45) < a) (h1 : a < 0) : raEphemeris rnd a = 360 := by
  have h0' : -360 < a := by norm_num at h0; linarith
  rw [ephemeris_neg h0' h1]
  have u : rnd (a + 360) ≤ 360 := rnd_le hr d360 (by linarith)
  have l := hr.near (a + 360) 360 d360
  rw [abs_of_nonneg (by linarith : 0 ≤ 360 - (a + 360)), abs_le] at l
  have l' : 360 - 1 / 2 ^ 44 < rnd (a + 360) := by norm_num at *; linarith [l.1]
  obtain ⟨n, hn⟩ := double_grid (hr.double (a + 360)) (by norm_num at l'; linarith)
  have n1 : (n : ℚ) ≤ 360 * 2 ^ 44 := by rw [← hn]; gcongr
  have n0 : (360 : ℚ) * 2 ^ 44 - 1 < n := by rw [← hn]; norm_num at l' ⊢; linarith
  have n1' : n ≤ 360 * 2 ^ 44 := by exact_mod_cast n1
  have n0' : 360 * 2 ^ 44 - 1 < n := by exact_mod_cast n0
  have e : n = 360 * 2 ^ 44 := by omega
  rw [e] at hn
  push_cast at hn
  norm_num at hn
  linarith

/-- C105 (below it): for all other directions, if not within 2^-44 degrees, the right ascension is below 360. -/
theorem C105_below (hr : Nearest rnd) (a : ℚ) (h0 : -180 ≤ a) (h1 : a ≤ 180) (h : a ≤ -(1 / 2 ^ 44) ∨ 0 ≤ a) : raEphemeris rnd a < 360 := by
  rcases h with h | h
  · have hneg : a < 0 := by norm_num at h; linarith
    rw [ephemeris_neg (by linarith) hneg]
    have hd : IsDouble (360 - 1 / 2 ^ 44) := by
      refine ⟨360 * 2 ^ 44 - 1, -44, ?_, by norm_num⟩
      norm_num
    have := rnd_le hr hd (show a + 360 ≤ 360 - 1 / 2 ^ 44 by linarith)
    norm_num at this ⊢
    linarith
  · rw [ephemeris_pos h (by linarith)]
    linarith

/-- C105 (randomised): the right ascension of a randomised position is from 0 to below 360, and the direction is kept up to 2^-44 degrees. -/
theorem C105_randomised (hr : Nearest rnd) (a : ℚ) (h0 : -180 ≤ a) (h1 : a ≤ 180) :
    0 ≤ raRandomised rnd a ∧ raRandomised rnd a < 360 ∧ SameDirection (1 / 2 ^ 44) (raRandomised rnd a) a := by
  have hc := rnd_close' hr (x := a + 360) (by linarith) (by linarith)
  have hge : 0 ≤ rnd (a + 360) := rnd_ge hr d0 (by linarith)
  have hle : rnd (a + 360) ≤ 540 := rnd_le hr d540 (by linarith)
  unfold raRandomised
  generalize rnd (a + 360) = y at hc hge hle
  rcases lt_or_ge y 360 with h | h
  · have e : npMod rnd y 360 = y := ephemeris_pos (rnd := rnd) hge h
    rw [e]
    exact ⟨hge, h, 1, by simpa using hc⟩
  · have e : npMod rnd y 360 = y - 360 := by
      unfold npMod
      rw [fmod_turn h (by linarith)]
      by_cases hz : y - 360 = 0
      · rw [if_pos hz, hz]
      · rw [if_neg hz, if_neg]
        simp [not_lt.2 h]
    rw [e]
    refine ⟨by linarith, by linarith, 0, ?_⟩
    have : y - 360 - (a + 360 * ((0 : ℤ) : ℚ)) = y - (a + 360) := by push_cast; ring
    rw [this]
    exact hc

/-! ## The hypotheses can be met -/

/-- A rounding to a nearest number with 53 digits. -/
def nearest (x : ℚ) : ℚ := round (x / (2 : ℚ) ^ (Int.log 2 |x| - 52)) * (2 : ℚ) ^ (Int.log 2 |x| - 52)

/-- Floating point numbers of some size are multiples of a power of two. -/
theorem double_multiple {q : ℚ} (hq : IsDouble q) (k : ℤ) (h : (2 : ℚ) ^ k ≤ |q|) : ∃ n : ℤ, q = n * (2 : ℚ) ^ (k - 52) := by
  obtain ⟨m, e, rfl, hm⟩ := hq
  have h3 : (0 : ℚ) < 2 ^ e := zpow_pos (by norm_num) e
  have he : k - 53 < e := by
    by_contra hlt
    have h1 : (2 : ℚ) ^ e ≤ 2 ^ (k - 53) := zpow_le_zpow_right₀ (by norm_num) (by omega)
    have h2 : |(m : ℚ)| < 2 ^ 53 := by exact_mod_cast hm
    have h4 : |(m : ℚ) * 2 ^ e| < 2 ^ 53 * 2 ^ (k - 53) := by
      rw [abs_mul, abs_of_pos h3]
      calc |(m : ℚ)| * 2 ^ e < 2 ^ 53 * 2 ^ e := by gcongr
        _ ≤ _ := by gcongr
    have h6 : (2 : ℚ) ^ 53 * 2 ^ (k - 53) = 2 ^ k := by
      rw [← zpow_natCast (2 : ℚ) 53, ← zpow_add₀ (by norm_num)]
      congr 1
      push_cast
      ring
    linarith
  refine ⟨m * 2 ^ (e - (k - 52)).toNat, ?_⟩
  have h2 : ((2 : ℤ) ^ (e - (k - 52)).toNat : ℤ) = ((2 : ℚ) ^ (e - (k - 52))) := by
    push_cast
    rw [← zpow_natCast (2 : ℚ) _, Int.toNat_of_nonneg (by omega)]
  rw [Int.cast_mul, h2, mul_assoc, ← zpow_add₀ (by norm_num)]
  congr 2
  ring

/-- It is one. -/
theorem nearest_nearest : Nearest nearest := by
  have key : ∀ x : ℚ, x ≠ 0 → (2 : ℚ) ^ (Int.log 2 |x|) ≤ |x| ∧ |x| < (2 : ℚ) ^ (Int.log 2 |x| + 1) := by
    intro x hx
    have hp : 0 < |x| := abs_pos.2 hx
    exact ⟨by exact_mod_cast Int.zpow_log_le_self (b := 2) (by norm_num) hp, by exact_mod_cast Int.lt_zpow_succ_log_self (b := 2) (by norm_num) |x|⟩
  constructor
  · intro x
    by_cases hx : x = 0
    · subst hx
      unfold nearest
      simpa using d0
    obtain ⟨k1, k2⟩ := key x hx
    unfold nearest
    generalize Int.log 2 |x| = k at k1 k2
    have g0 : (0 : ℚ) < 2 ^ (k - 52) := zpow_pos (by norm_num) _
    have hb : |x / 2 ^ (k - 52)| < 2 ^ 53 := by
      rw [abs_div, abs_of_pos g0, div_lt_iff₀ g0]
      have : (2 : ℚ) ^ 53 * 2 ^ (k - 52) = 2 ^ (k + 1) := by
        rw [← zpow_natCast (2 : ℚ) 53, ← zpow_add₀ (by norm_num)]
        congr 1
        push_cast
        ring
      rw [this]
      exact k2
    have hr := abs_sub_round (x / 2 ^ (k - 52))
    generalize round (x / 2 ^ (k - 52)) = n at hr
    rw [abs_lt] at hb
    rw [abs_le] at hr
    have n1 : (n : ℚ) < 2 ^ 53 + 1 := by linarith [hb.2, hr.1]
    have n0 : -(2 ^ 53 + 1) < (n : ℚ) := by linarith [hb.1, hr.2]
    have n1' : n < 2 ^ 53 + 1 := by exact_mod_cast n1
    have n0' : -(2 ^ 53 + 1) < n := by exact_mod_cast n0
    have two : (2 : ℚ) ^ (k - 52 + 1) = 2 ^ (k - 52) * 2 := by rw [zpow_add₀ (by norm_num), zpow_one]
    by_cases e1 : n = 2 ^ 53
    · refine ⟨2 ^ 52, k - 52 + 1, ?_, by norm_num⟩
      rw [e1, two]
      push_cast
      ring
    · by_cases e2 : n = -2 ^ 53
      · refine ⟨-2 ^ 52, k - 52 + 1, ?_, by norm_num⟩
        rw [e2, two]
        push_cast
        ring
      · exact int_double n _ (by rw [abs_lt]; omega)
  · intro x f hf
    by_cases hx : x = 0
    · subst hx
      unfold nearest
      simp
    obtain ⟨k1, k2⟩ := key x hx
    unfold nearest
    generalize Int.log 2 |x| = k at k1 k2
    have g0 : (0 : ℚ) < 2 ^ (k - 52) := zpow_pos (by norm_num) _
    -- no multiple is nearer
    have near : ∀ n : ℤ, |round (x / 2 ^ (k - 52)) * (2 : ℚ) ^ (k - 52) - x| ≤ |n * (2 : ℚ) ^ (k - 52) - x| := by
      intro n
      have e : ∀ y : ℚ, y * 2 ^ (k - 52) - x = -((x / 2 ^ (k - 52) - y) * 2 ^ (k - 52)) := by
        intro y
        field_simp
        ring
      rw [e, e, abs_neg, abs_neg, abs_mul, abs_mul]
      exact mul_le_mul_of_nonneg_right (round_le (x / 2 ^ (k - 52)) n) (abs_nonneg _)
    by_cases hs : (2 : ℚ) ^ k ≤ |f|
    · obtain ⟨n, rfl⟩ := double_multiple hf k hs
      exact near n
    · push Not at hs
      have p : ((2 ^ 52 : ℤ) : ℚ) * 2 ^ (k - 52) = 2 ^ k := by
        have e : ((2 ^ 52 : ℤ) : ℚ) = (2 : ℚ) ^ (52 : ℤ) := by norm_num
        rw [e, ← zpow_add₀ (by norm_num)]
        congr 1
        ring
      have p' : ((-2 ^ 52 : ℤ) : ℚ) * 2 ^ (k - 52) = -2 ^ k := by
        rw [← p]; push_cast; ring
      rw [abs_lt] at hs
      rcases le_or_gt 0 x with h | h
      · refine (near (2 ^ 52)).trans ?_
        rw [p]
        rw [abs_of_nonneg h] at k1
        rw [abs_of_nonpos (by linarith), abs_of_nonpos (by linarith)]
        linarith
      · refine (near (-2 ^ 52)).trans ?_
        rw [p']
        rw [abs_of_neg h] at k1
        rw [abs_of_nonneg (by linarith), abs_of_nonneg (by linarith)]
        linarith

/-- There is a direction that gets the right ascension 360, and its angle is a floating point number. -/
example : IsDouble (-(1 / 2 ^ 50)) ∧ -(1 / 2 ^ 45) < (-(1 / 2 ^ 50) : ℚ) ∧ (-(1 / 2 ^ 50) : ℚ) < 0 := by
  refine ⟨⟨-1, -50, by norm_num, by norm_num⟩, by norm_num, by norm_num⟩

end Sorcha.Turn.Props
