import Verif.Epoch.Model
import Verif.Epoch.Spec
import Mathlib.Tactic.Linarith
import Mathlib.Tactic.NormNum

/-!
# C103: the instant for which positions are calculated
-/

namespace Sorcha.Epoch.Props

open Sorcha.Epoch.Spec

theorem printed_close (x : ℚ) : |(printed x : ℚ) - x * 1000000| ≤ 1 / 2 := by
  have h0 := Int.floor_le (x * 1000000)
  have h1 := Int.lt_floor_add_one (x * 1000000)
  unfold printed
  split_ifs <;> push_cast <;> rw [abs_le] <;> constructor <;> linarith

theorem printed_mono {x y : ℚ} (h : x ≤ y) : printed x ≤ printed y := by
  have hx := printed_close x
  have hy := printed_close y
  rw [abs_le] at hx hy
  by_contra hlt
  have h1 : (printed y : ℚ) + 1 ≤ printed x := by exact_mod_cast not_le.1 hlt
  -- the two numbers are equal, so their images are
  have : x = y := by linarith
  rw [this] at hlt
  exact hlt le_rfl

/-- The sum is at most 10^-9 days from the exact one. -/
theorem julian_close {rnd : ℚ → ℚ} (hr : Double rnd) (mjd : ℚ) (hy : Years mjd) : |julian rnd mjd - terrestrial mjd| ≤ 1 / 10 ^ 9 := by
  obtain ⟨y0, y1⟩ := hy
  have a := hr.close (mjd + 2400000.5)
  have b := hr.close 32.184
  have c := hr.close (rnd 32.184 / 86400)
  have d := hr.close (rnd (mjd + 2400000.5) + rnd (rnd 32.184 / 86400))
  rw [abs_of_nonneg (show (0 : ℚ) ≤ mjd + 2400000.5 by norm_num; linarith)] at a
  rw [abs_of_nonneg (show (0 : ℚ) ≤ 32.184 by norm_num)] at b
  rw [abs_le] at a b
  norm_num at a b
  have hb : (0 : ℚ) ≤ rnd (4023 / 125) / 86400 := by linarith [b.1]
  norm_num at c d
  rw [abs_of_nonneg hb, abs_le] at c
  have hd : (0 : ℚ) ≤ rnd (mjd + 4800001 / 2) + rnd (rnd (4023 / 125) / 86400) := by linarith [a.1, c.1, b.1]
  rw [abs_of_nonneg hd, abs_le] at d
  unfold julian terrestrial
  norm_num
  rw [abs_le]
  constructor
  · linarith [a.1, b.1, c.1, d.1, a.2, b.2, c.2, d.2]
  · linarith [a.1, b.1, c.1, d.1, a.2, b.2, c.2, d.2]

/-- The result is the printed time up to 2.4 · 10^-8 days. -/
theorem epoch_close {rnd : ℚ → ℚ} {et : ℤ → ℚ} (hr : Double rnd) (he : Seconds et) (mjd : ℚ) (hy : Years mjd) :
    |epoch rnd et mjd - (printed (julian rnd mjd) : ℚ) / 1000000| ≤ 24 / 10 ^ 9 := by
  have hj := julian_close hr mjd hy
  have hp := printed_close (julian rnd mjd)
  obtain ⟨y0, y1⟩ := hy
  unfold epoch
  generalize printed (julian rnd mjd) = n at *
  generalize julian rnd mjd = j at *
  have e := he.close n
  have a := hr.close (et n / 86400)
  have b := hr.close (2451545 + rnd (et n / 86400))
  unfold terrestrial at hj
  rw [abs_le] at hj hp e
  norm_num at hj hp e
  have n1 : (n : ℚ) / 1000000 ≤ 2500002 := by linarith [hj.2, hp.2]
  have n0 : (2400000 : ℚ) ≤ (n : ℚ) / 1000000 := by linarith [hj.1, hp.1]
  have ea : |et n / 86400| ≤ 60000 := by
    rw [abs_le]; constructor <;> linarith [e.1, e.2]
  have a' : |rnd (et n / 86400) - et n / 86400| ≤ 60000 / 2 ^ 53 := a.trans (by gcongr)
  rw [abs_le] at a' ea
  norm_num at a'
  have eb : |2451545 + rnd (et n / 86400)| ≤ 2600000 := by
    rw [abs_le]; constructor <;> linarith [a'.1, a'.2, e.1, e.2]
  have b' : |rnd (2451545 + rnd (et n / 86400)) - (2451545 + rnd (et n / 86400))| ≤ 2600000 / 2 ^ 53 := b.trans (by gcongr)
  rw [abs_le] at b'
  norm_num at b'
  rw [abs_le]
  constructor
  · linarith [a'.1, a'.2, e.1, e.2, b'.1, b'.2]
  · linarith [a'.1, a'.2, e.1, e.2, b'.1, b'.2]

/-- C103 (close): the positions at a visit are calculated for an instant that is at most 5.3 · 10^-7 days, less than 0.046 s, from the time of the
visit, whatever time in the years 1858 to 2132 this is. -/
theorem C103_close (rnd : ℚ → ℚ) (et : ℤ → ℚ) (hr : Double rnd) (he : Seconds et) (mjd : ℚ) (hy : Years mjd) :
    |epoch rnd et mjd - terrestrial mjd| ≤ 53 / 10 ^ 8 := by
  have h1 := epoch_close hr he mjd hy
  have h2 := julian_close hr mjd hy
  have h3 := printed_close (julian rnd mjd)
  rw [abs_le] at *
  norm_num at *
  constructor <;> linarith [h1.1, h1.2, h2.1, h2.2, h3.1, h3.2]

/-- C103 (Rubin): for a visit given by its start and its length, of up to a day, the instant is that close to the start plus half the length. -/
theorem C103_start (rnd : ℚ → ℚ) (et : ℤ → ℚ) (hr : Double rnd) (he : Seconds et) (start seconds : ℚ) (h0 : 0 ≤ start) (h1 : start ≤ 99999)
    (s0 : 0 ≤ seconds) (s1 : seconds ≤ 86400) :
    |epoch rnd et (midpoint rnd start seconds) - terrestrial (start + seconds / 2 / 86400)| ≤ 53 / 10 ^ 8 := by
  have a := hr.close (seconds / 2)
  have b := hr.close (rnd (seconds / 2) / 86400)
  have c := hr.close (start + rnd (rnd (seconds / 2) / 86400))
  have z : rnd 0 = 0 := by
    have := hr.close 0
    simpa using this
  have p1 : 0 ≤ rnd (seconds / 2) := by
    have := hr.mono 0 (seconds / 2) (by linarith)
    rwa [z] at this
  have p2 : 0 ≤ rnd (rnd (seconds / 2) / 86400) := by
    have := hr.mono 0 (rnd (seconds / 2) / 86400) (by linarith)
    rwa [z] at this
  have p3 : 0 ≤ rnd (start + rnd (rnd (seconds / 2) / 86400)) := by
    have := hr.mono 0 (start + rnd (rnd (seconds / 2) / 86400)) (by linarith)
    rwa [z] at this
  rw [abs_of_nonneg (show 0 ≤ seconds / 2 by linarith), abs_le] at a
  rw [abs_of_nonneg (show 0 ≤ rnd (seconds / 2) / 86400 by linarith), abs_le] at b
  rw [abs_of_nonneg (show 0 ≤ start + rnd (rnd (seconds / 2) / 86400) by linarith), abs_le] at c
  norm_num at a b c
  have hm : |midpoint rnd start seconds - (start + seconds / 2 / 86400)| ≤ 1 / 10 ^ 9 := by
    unfold midpoint
    rw [abs_le]
    norm_num
    constructor <;> linarith [a.1, a.2, b.1, b.2, c.1, c.2]
  have hy : Years (midpoint rnd start seconds) := by
    refine ⟨p3, ?_⟩
    rw [abs_le] at hm
    linarith [hm.2]
  generalize midpoint rnd start seconds = m at hm hy
  have h1 := epoch_close hr he m hy
  have h2 := julian_close hr m hy
  have h3 := printed_close (julian rnd m)
  unfold terrestrial at *
  rw [abs_le] at *
  norm_num at *
  constructor <;> linarith [h1.1, h1.2, h2.1, h2.2, h3.1, h3.2, hm.1, hm.2]

/-- C103 (order): a later visit never gets an earlier instant. -/
theorem C103_order (rnd : ℚ → ℚ) (et : ℤ → ℚ) (hr : Double rnd) (he : Seconds et) (a b : ℚ) (h : a ≤ b) :
    epoch rnd et a ≤ epoch rnd et b := by
  unfold epoch
  refine hr.mono _ _ (by gcongr; refine hr.mono _ _ ?_; gcongr; refine he.mono _ _ (printed_mono ?_); unfold julian; refine hr.mono _ _ ?_; gcongr; exact hr.mono _ _ (by linarith))

/-- **C103 fails** to keep times apart: visits of which the times are up to 0.08 s apart get the same instant if they fall between the same two
multiples of a millionth of a day. -/
theorem C103_same_fails (rnd : ℚ → ℚ) (et : ℤ → ℚ) (hr : Double rnd) (k : ℤ) (a b : ℚ)
    (ha : Years a) (hb : Years b) (ha' : (k + 0.03) / 1000000 ≤ a ∧ a ≤ (k + 0.97) / 1000000)
    (hb' : (k + 0.03) / 1000000 ≤ b ∧ b ≤ (k + 0.97) / 1000000) : epoch rnd et a = epoch rnd et b := by
  have key : ∀ x : ℚ, Years x → ((k + 0.03) / 1000000 ≤ x ∧ x ≤ (k + 0.97) / 1000000) →
      printed (julian rnd x) = k + 2400000500373 := by
    intro x hx hx'
    have h2 := julian_close hr x hx
    have h3 := printed_close (julian rnd x)
    rw [abs_le] at h2 h3
    unfold terrestrial at h2
    norm_num at h2 h3 hx'
    have l : (k : ℚ) + 2400000500372 < printed (julian rnd x) := by linarith [h2.1, h2.2, h3.1, h3.2, hx'.1, hx'.2]
    have u : (printed (julian rnd x) : ℚ) < k + 2400000500374 := by linarith [h2.1, h2.2, h3.1, h3.2, hx'.1, hx'.2]
    have l' : k + 2400000500372 < printed (julian rnd x) := by exact_mod_cast l
    have u' : printed (julian rnd x) < k + 2400000500374 := by exact_mod_cast u
    omega
  unfold epoch
  rw [key a ha ha', key b hb hb']

/-- **C103 fails** most for times with at most six decimals: since 32.184 s are 372.5 millionths of a day, the instant is always half a millionth of a day
(at least 0.04 s) away from the time of the visit. -/
theorem C103_half_fails (rnd : ℚ → ℚ) (et : ℤ → ℚ) (hr : Double rnd) (he : Seconds et) (k : ℤ) (mjd : ℚ) (hy : Years mjd)
    (hk : |mjd - (k : ℚ) / 1000000| ≤ 1 / 10 ^ 10) : 47 / 10 ^ 8 ≤ |epoch rnd et mjd - terrestrial mjd| := by
  have h1 := epoch_close hr he mjd hy
  have h2 := julian_close hr mjd hy
  have h3 := printed_close (julian rnd mjd)
  rw [abs_le] at h1 h2 h3 hk
  generalize printed (julian rnd mjd) = n at *
  generalize julian rnd mjd = j at *
  generalize epoch rnd et mjd = t at *
  unfold terrestrial at *
  norm_num at h1 h2 h3 hk ⊢
  rw [le_abs]
  rcases lt_or_ge n (k + 2400000500373) with h | h
  · right
    have : (n : ℚ) ≤ k + 2400000500372 := by exact_mod_cast Int.lt_add_one_iff.1 (by omega)
    linarith [h1.1, h1.2, h2.1, h2.2, h3.1, h3.2, hk.1, hk.2]
  · left
    have : (k : ℚ) + 2400000500373 ≤ n := by exact_mod_cast h
    linarith [h1.1, h1.2, h2.1, h2.2, h3.1, h3.2, hk.1, hk.2]

/-! ## The hypotheses can be met -/

/-- Exact arithmetic, and a time scale without the periodic difference. -/
theorem exact_double : Double id := ⟨fun _ _ h => h, fun x => by simp; positivity⟩

theorem exact_seconds : Seconds fun n => ((n : ℚ) / 1000000 - 2451545) * 86400 :=
  ⟨fun m n h => by have : (m : ℚ) ≤ n := by exact_mod_cast h
                   linarith, fun n => by norm_num⟩

/-- With them, a visit of 34 s at the beginning of a day. -/
example : |epoch id (fun n => ((n : ℚ) / 1000000 - 2451545) * 86400) (midpoint id 60000 34) - terrestrial (60000 + 34 / 2 / 86400)| ≤ 53 / 10 ^ 8 :=
  C103_start _ _ exact_double exact_seconds _ _ (by norm_num) (by norm_num) (by norm_num) (by norm_num)

/-- A visit at midnight, and two visits 0.08 s apart. -/
example : Years 60000 ∧ |(60000 : ℚ) - ((60000000000 : ℤ) : ℚ) / 1000000| ≤ 1 / 10 ^ 10 ∧
    (((60000000000 : ℤ) : ℚ) + 0.03) / 1000000 ≤ 60000.00000003 ∧ (60000.00000097 : ℚ) ≤ (((60000000000 : ℤ) : ℚ) + 0.97) / 1000000 := by
  unfold Years
  norm_num

end Sorcha.Epoch.Props
