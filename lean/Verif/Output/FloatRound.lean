import Verif.Output.Lemmas
import Verif.Epoch.Spec
import Verif.Turn.Props

/-!
# C21: rounding for the output in floating point numbers
-/

namespace Sorcha.Output

/-- `round(decimals=d)` of a column of floating point numbers, PPOutput.py:208-241 (`np.round`): multiplied by `10^d`, rounded to an integer, divided; `rnd` is the rounding
of the product and the quotient. (`10^d` is a floating point number up to `d = 22`.) -/
def npRound (rnd : ℚ → ℚ) (d : ℕ) (x : ℚ) : ℚ := rnd ((rint (rnd (x * 10 ^ d)) : ℚ) / 10 ^ d)

namespace Props

open Sorcha.Epoch.Spec (Double)
open Sorcha.Turn.Spec (Nearest IsDouble)

theorem rint_unique {z : ℚ} {n : ℤ} (h : |z - n| < 1 / 2) : rint z = n := by
  have hc := rint_close z
  rw [abs_le] at hc
  rw [abs_lt] at h
  have h1 : (rint z : ℚ) < n + 1 := by linarith [hc.2, h.2]
  have h2 : (n : ℚ) < rint z + 1 := by linarith [hc.1, h.1]
  have h1' : rint z < n + 1 := by exact_mod_cast h1
  have h2' : n < rint z + 1 := by exact_mod_cast h2
  omega

/-- C21 (floating point): rounding to `d` decimals moves a floating point number by at most half a unit in the `d`-th place, up to the precision of floating point numbers. -/
theorem C21_float {rnd : ℚ → ℚ} (hr : Double rnd) (d : ℕ) (x : ℚ) :
    |npRound rnd d x - x| ≤ (1 / 2 + 1 / 2 ^ 53) / 10 ^ d + |x| / 2 ^ 51 := by
  unfold npRound
  have ht : (0 : ℚ) < 10 ^ d := by positivity
  have a := hr.close (x * 10 ^ d)
  have b := rint_close (rnd (x * 10 ^ d))
  generalize rnd (x * 10 ^ d) = r at a b
  generalize rint r = n at b
  have c := hr.close ((n : ℚ) / 10 ^ d)
  generalize rnd ((n : ℚ) / 10 ^ d) = y at c
  have hx : |x * 10 ^ d| = |x| * 10 ^ d := by rw [abs_mul, abs_of_pos ht]
  have hn : |(n : ℚ) / 10 ^ d| = |(n : ℚ)| / 10 ^ d := by rw [abs_div, abs_of_pos ht]
  rw [hx] at a
  rw [hn] at c
  -- the integer
  have n1 : |(n : ℚ) - x * 10 ^ d| ≤ 1 / 2 + |x| * 10 ^ d / 2 ^ 53 := by
    calc |(n : ℚ) - x * 10 ^ d| = |((n : ℚ) - r) + (r - x * 10 ^ d)| := by ring_nf
      _ ≤ |(n : ℚ) - r| + |r - x * 10 ^ d| := abs_add_le _ _
      _ ≤ _ := add_le_add b a
  have n2 : |(n : ℚ)| ≤ 1 / 2 + |x| * 10 ^ d / 2 ^ 53 + |x| * 10 ^ d := by
    calc |(n : ℚ)| = |((n : ℚ) - x * 10 ^ d) + x * 10 ^ d| := by ring_nf
      _ ≤ |(n : ℚ) - x * 10 ^ d| + |x * 10 ^ d| := abs_add_le _ _
      _ ≤ _ := by rw [hx]; linarith
  have e1 : |(n : ℚ) / 10 ^ d - x| = |(n : ℚ) - x * 10 ^ d| / 10 ^ d := by
    rw [← abs_of_pos ht, ← abs_div, abs_of_pos ht]
    congr 1
    field_simp
  have f1 : |(n : ℚ) / 10 ^ d - x| ≤ (1 / 2 + |x| * 10 ^ d / 2 ^ 53) / 10 ^ d := by
    rw [e1]
    exact div_le_div_of_nonneg_right n1 ht.le
  have f2 : |y - (n : ℚ) / 10 ^ d| ≤ (1 / 2 + |x| * 10 ^ d / 2 ^ 53 + |x| * 10 ^ d) / 10 ^ d / 2 ^ 53 :=
    c.trans (div_le_div_of_nonneg_right (div_le_div_of_nonneg_right n2 ht.le) (by positivity))
  have g1 : (1 / 2 + |x| * 10 ^ d / 2 ^ 53) / 10 ^ d = 1 / 2 / 10 ^ d + |x| / 2 ^ 53 := by field_simp
  have g2 : (1 / 2 + |x| * 10 ^ d / 2 ^ 53 + |x| * 10 ^ d) / 10 ^ d / 2 ^ 53 = 1 / 2 / 10 ^ d / 2 ^ 53 + |x| / 2 ^ 53 / 2 ^ 53 + |x| / 2 ^ 53 := by
    field_simp
  rw [g1] at f1
  rw [g2] at f2
  have tri : |y - x| ≤ |y - (n : ℚ) / 10 ^ d| + |(n : ℚ) / 10 ^ d - x| := by
    calc |y - x| = |(y - (n : ℚ) / 10 ^ d) + ((n : ℚ) / 10 ^ d - x)| := by ring_nf
      _ ≤ _ := abs_add_le _ _
  have hxx : 0 ≤ |x| := abs_nonneg x
  have hq : (0 : ℚ) < 1 / 10 ^ d := by positivity
  have r1 : (1 / 2 + 1 / 2 ^ 53) / 10 ^ d = (1 / 2 + 1 / 2 ^ 53) * (1 / 10 ^ d : ℚ) := by ring
  have r2 : (1 / 2 / 10 ^ d : ℚ) = 1 / 2 * (1 / 10 ^ d) := by ring
  rw [r1]
  rw [r2] at f1 f2
  generalize (1 / 10 ^ d : ℚ) = u at *
  generalize |x| = v at *
  norm_num at *
  linarith

/-- C21 (order): rounding keeps the order of floating point numbers. -/
theorem C21_float_order {rnd : ℚ → ℚ} (hr : Double rnd) (d : ℕ) (x y : ℚ) (h : x ≤ y) : npRound rnd d x ≤ npRound rnd d y := by
  unfold npRound
  refine hr.mono _ _ ?_
  have : rint (rnd (x * 10 ^ d)) ≤ rint (rnd (y * 10 ^ d)) := rint_mono (hr.mono _ _ (by gcongr))
  have : (rint (rnd (x * 10 ^ d)) : ℚ) ≤ rint (rnd (y * 10 ^ d)) := by exact_mod_cast this
  gcongr

/-- C21 (again): a rounded number does not change when it is rounded again, if it has at most 15 digits before and after the point together (more exactly: if it is
below 2^50 units of the last place). -/
theorem C21_float_again {rnd : ℚ → ℚ} (hr : Double rnd) (d : ℕ) (x : ℚ) (h : |x| * 10 ^ d ≤ 2 ^ 50) :
    npRound rnd d (npRound rnd d x) = npRound rnd d x := by
  have ht : (0 : ℚ) < 10 ^ d := by positivity
  have a := hr.close (x * 10 ^ d)
  have b := rint_close (rnd (x * 10 ^ d))
  have hx : |x * 10 ^ d| = |x| * 10 ^ d := by rw [abs_mul, abs_of_pos ht]
  rw [hx] at a
  suffices hs : rint (rnd (npRound rnd d x * 10 ^ d)) = rint (rnd (x * 10 ^ d)) by
    exact congrArg (fun n : ℤ => rnd ((n : ℚ) / 10 ^ d)) hs
  refine rint_unique ?_
  have hu : npRound rnd d x = rnd ((rint (rnd (x * 10 ^ d)) : ℚ) / 10 ^ d) := rfl
  rw [hu]
  have hxb : |x * 10 ^ d| ≤ 2 ^ 50 := hx ▸ h
  generalize x * 10 ^ d = p at *
  generalize rnd p = r at *
  generalize rint r = n at *
  have a' : |r - p| ≤ 1 / 8 := a.trans (by
    rw [div_le_iff₀ (by positivity)]
    norm_num at h ⊢
    exact h)
  have nb : |(n : ℚ)| ≤ 2 ^ 50 + 1 := by
    rw [abs_le] at a' b hxb ⊢
    constructor <;> linarith [a'.1, a'.2, b.1, b.2, hxb.1, hxb.2]
  have c := hr.close ((n : ℚ) / 10 ^ d)
  generalize rnd ((n : ℚ) / 10 ^ d) = y at c
  have hn : |(n : ℚ) / 10 ^ d| = |(n : ℚ)| / 10 ^ d := by rw [abs_div, abs_of_pos ht]
  rw [hn] at c
  have e : |y * 10 ^ d - n| ≤ |(n : ℚ)| / 2 ^ 53 := by
    have e1 : y * 10 ^ d - n = (y - n / 10 ^ d) * 10 ^ d := by field_simp
    rw [e1, abs_mul, abs_of_pos ht]
    calc |y - n / 10 ^ d| * 10 ^ d ≤ |(n : ℚ)| / 10 ^ d / 2 ^ 53 * 10 ^ d := by gcongr
      _ = _ := by field_simp
  have e2 : |(n : ℚ)| / 2 ^ 53 ≤ 1 / 7 := by
    rw [div_le_iff₀ (by positivity)]
    norm_num at nb ⊢
    linarith
  have f := hr.close (y * 10 ^ d)
  have yb : |y * 10 ^ d| / 2 ^ 53 ≤ 1 / 7 := by
    rw [div_le_iff₀ (by positivity), abs_le]
    have := e.trans e2
    rw [abs_le] at this nb
    norm_num at nb ⊢
    constructor <;> linarith [this.1, this.2, nb.1, nb.2]
  have f' := f.trans yb
  have e' := e.trans e2
  rw [abs_le] at f' e'
  rw [abs_lt]
  constructor <;> linarith [f'.1, f'.2, e'.1, e'.2]

/-- **C21 fails** to give the nearest multiple: the floating point number for 0.05, which is above 0.05, becomes 0 when it is rounded to one decimal, although 0.1 is nearer. -/
theorem C21_nearest_fails {rnd : ℚ → ℚ} (hr : Nearest rnd) : ∃ x, IsDouble x ∧ |x - 0.05| ≤ 1 / 10 ^ 17 ∧ npRound rnd 1 x = 0 ∧ |0.1 - x| < |0 - x| := by
  refine ⟨7205759403792794 / 2 ^ 57, ⟨7205759403792794, -57, by norm_num, by norm_num⟩, by norm_num [abs_le], ?_, by norm_num [abs_lt, abs_of_neg, abs_of_pos]⟩
  have z : rnd 0 = 0 := by
    have := hr.near 0 0 Sorcha.Turn.Props.d0
    simpa using this
  have half : rnd (7205759403792794 / 2 ^ 57 * 10 ^ 1) = 1 / 2 := by
    have dh : IsDouble (1 / 2) := ⟨1, -1, by norm_num, by norm_num⟩
    have l := Sorcha.Turn.Props.rnd_ge hr (x := 7205759403792794 / 2 ^ 57 * 10 ^ 1) dh (by norm_num)
    have u := hr.near (7205759403792794 / 2 ^ 57 * 10 ^ 1) _ dh
    have g := hr.double (7205759403792794 / 2 ^ 57 * 10 ^ 1)
    generalize rnd (7205759403792794 / 2 ^ 57 * 10 ^ 1) = r at l u g
    obtain ⟨n, hn⟩ := Sorcha.Turn.Props.double_multiple g (-1) (by rw [abs_of_nonneg (by linarith)]; norm_num at l ⊢; exact l)
    have e : (2 : ℚ) ^ (-1 - 52 : ℤ) = 1 / 2 ^ 53 := by norm_num
    rw [e] at hn
    have u' : r ≤ 1 / 2 + 1 / 10 ^ 16 := by
      rw [abs_le] at u
      have h2 : |(1 / 2 : ℚ) - 7205759403792794 / 2 ^ 57 * 10 ^ 1| ≤ 3 / 10 ^ 17 := by norm_num [abs_le]
      have := u.2
      norm_num at *
      linarith
    rw [hn] at l u' ⊢
    have n0 : (2 ^ 52 : ℚ) ≤ n := by norm_num at *; linarith
    have n1 : (n : ℚ) < 2 ^ 52 + 1 := by norm_num at *; linarith
    have n0' : (2 ^ 52 : ℤ) ≤ n := by exact_mod_cast n0
    have n1' : n < 2 ^ 52 + 1 := by exact_mod_cast n1
    have : n = 2 ^ 52 := by omega
    rw [this]
    norm_num
  unfold npRound
  rw [half]
  have r0 : rint (1 / 2) = 0 := by decide +kernel
  rw [r0]
  simpa using z

/-- Both kinds of rounding exist: `nearest` of `Turn`, and the exact numbers. -/
example : npRound id 3 20.12345 = 20.123 ∧ |npRound id 3 20.12345 - 20.12345| ≤ (1 / 2 + 1 / 2 ^ 53) / 10 ^ 3 + |(20.12345 : ℚ)| / 2 ^ 51 := by
  refine ⟨by decide +kernel, C21_float ⟨fun _ _ h => h, fun x => by simp; positivity⟩ 3 _⟩

end Props
end Sorcha.Output
