import Verif.Ephem.Model
import Mathlib.Analysis.SpecificLimits.Basic
import Mathlib.Analysis.SpecialFunctions.Trigonometric.DerivHyp
import Mathlib.Analysis.SpecialFunctions.Trigonometric.Arctan

/-!
# Model of ephemeris/orbit_conversion_utilities.py

Real arithmetic. `numba` only compiles; `fastmath` allows re-association, which is not visible in real arithmetic.
-/

namespace Sorcha.Ephem
open Sorcha.Photom Sorcha.Geom Real

/-- The number of passes of `while np.abs(x) > xm: x /= 4`, orbit_conversion_utilities.py:33-38, exists. -/
theorem exists_reduction (x : ℝ) : ∃ n : ℕ, |x / 4 ^ n| ≤ 0.1 := by
  have h : Filter.Tendsto (fun n : ℕ => x * (1 / 4 : ℝ) ^ n) Filter.atTop (nhds (x * 0)) :=
    (tendsto_pow_atTop_nhds_zero_of_lt_one (by norm_num) (by norm_num)).const_mul x
  rw [mul_zero] at h
  obtain ⟨n, hn⟩ := ((Metric.tendsto_nhds.1 h) 0.1 (by norm_num)).exists
  refine ⟨n, ?_⟩
  rw [Real.dist_eq, sub_zero] at hn
  have e : x / 4 ^ n = x * (1 / 4) ^ n := by rw [one_div, inv_pow]; rfl
  rw [e]
  exact hn.le

/-- Number of passes of the loop at orbit_conversion_utilities.py:36-38: the first `n` for which the condition fails. -/
noncomputable def reductions (x : ℝ) : ℕ := open Classical in Nat.find (exists_reduction x)

/-- The polynomials of orbit_conversion_utilities.py:40-48, `(d0, d1, d2, d3)`. -/
noncomputable def stumpffBase (x : ℝ) : ℝ × ℝ × ℝ × ℝ :=
  let d2 := (1 - x * (1 - x * (1 - x * (1 - x * (1 - x * (1 - x / 182) / 132) / 90) / 56) / 30) / 12) / 2
  let d3 := (1 - x * (1 - x * (1 - x * (1 - x * (1 - x * (1 - x / 210) / 156) / 110) / 72) / 42) / 20) / 6
  (1 - x * d2, 1 - x * d3, d2, d3)

/-- The body of the second loop, orbit_conversion_utilities.py:50-55. -/
noncomputable def stumpffStep (d : ℝ × ℝ × ℝ × ℝ) : ℝ × ℝ × ℝ × ℝ :=
  let d3 := (d.2.2.1 + d.1 * d.2.2.2) / 4
  let d2 := d.2.1 * d.2.1 / 2
  let d1 := d.1 * d.2.1
  let d0 := 2 * d.1 * d.1 - 1
  (d0, d1, d2, d3)

/-- `stumpff`, orbit_conversion_utilities.py:12-57. -/
noncomputable def stumpff (x : ℝ) : ℝ × ℝ × ℝ × ℝ := stumpffStep^[reductions x] (stumpffBase (x / 4 ^ reductions x))

/-- `root_function`, orbit_conversion_utilities.py:60-100, for a given implementation `c` of the Stumpff functions. -/
noncomputable def rootFunction (c : ℝ → ℝ × ℝ × ℝ × ℝ) (s mu alpha r0 r0dot t : ℝ) : ℝ × ℝ × ℝ × ℝ :=
  let k := c (alpha * s * s)
  let zeta := mu - alpha * r0
  (r0 * s * k.2.1 + r0 * r0dot * s * s * k.2.2.1 + mu * s * s * s * k.2.2.2 - t,
    r0 * k.1 + r0 * r0dot * s * k.2.1 + mu * s * s * k.2.2.1,
    zeta * s * k.2.1 + r0 * r0dot * k.1,
    zeta * k.1 - r0 * r0dot * alpha * s * k.2.1)

/-- State of the search of `halley_safe`. -/
structure Search where
  xl : ℝ
  xh : ℝ
  rts : ℝ
  dx : ℝ
  dxold : ℝ
  f : ℝ
  fp : ℝ
  fpp : ℝ

/-- What one pass of the loop of `halley_safe` does. -/
inductive Pass
  | found (s fp : ℝ)
  | next (s : Search)
  | raised

/-- What a search ends with: `True, s, fp`; `False, …`; a division by zero (numba raises `ZeroDivisionError`). -/
inductive Found
  | root (s fp : ℝ)
  | failed
  | raised

/-- Bisection, orbit_conversion_utilities.py:166-170. -/
noncomputable def bisect (s : Search) : Search :=
  { s with dxold := s.dx, dx := 0.5 * (s.xh - s.xl), rts := s.xl + 0.5 * (s.xh - s.xl) }

/-- The step of Halley, orbit_conversion_utilities.py:176-180. -/
noncomputable def halley (s : Search) : Search :=
  { s with dxold := s.dx, dx := 2 * s.f * s.fp / (2 * s.fp * s.fp - s.f * s.fpp), rts := s.rts - 2 * s.f * s.fp / (2 * s.fp * s.fp - s.f * s.fpp) }

/-- When to bisect, orbit_conversion_utilities.py:165: the step of Newton leaves the bracket, or the steps do not shrink. -/
def mustBisect (s : Search) : Prop :=
  ((s.rts - s.xh) * s.fp - s.f) * ((s.rts - s.xl) * s.fp - s.f) > 0 ∨ |2 * s.f| > |s.dxold * s.fp|

/-- The new value and the new bracket, orbit_conversion_utilities.py:185-192; `F` gives the value and first two derivatives. -/
noncomputable def rebracket (F : ℝ → ℝ × ℝ × ℝ) (s : Search) : Search :=
  let v := F s.rts
  if v.1 < 0 then { s with f := v.1, fp := v.2.1, fpp := v.2.2, xl := s.rts }
  else { s with f := v.1, fp := v.2.1, fpp := v.2.2, xh := s.rts }

/-- The end of a pass, orbit_conversion_utilities.py:171-192. -/
noncomputable def endPass (F : ℝ → ℝ × ℝ × ℝ) (xacc : ℝ) (s : Search) : Pass :=
  if s.rts = 0 then .raised else if |s.dx / s.rts| < xacc then .found s.rts s.fp else .next (rebracket F s)

open Classical in
/-- One pass of the loop of `halley_safe`, orbit_conversion_utilities.py:164-192. -/
noncomputable def halleyStep (F : ℝ → ℝ × ℝ × ℝ) (xacc : ℝ) (s : Search) : Pass :=
  if mustBisect s then endPass F xacc (bisect s)
  else if s.fp = 0 ∨ 2 * s.fp * s.fp - s.f * s.fpp = 0 then .raised
  else endPass F xacc (halley s)

/-- The loop of `halley_safe`, orbit_conversion_utilities.py:164-194. -/
noncomputable def halleyLoop (F : ℝ → ℝ × ℝ × ℝ) (xacc : ℝ) : ℕ → Search → Found
  | 0, _ => .failed
  | n + 1, s =>
    match halleyStep F xacc s with
    | .found x fp => .root x fp
    | .raised => .raised
    | .next s => halleyLoop F xacc n s

/-- `halley_safe`, orbit_conversion_utilities.py:103-194. -/
noncomputable def halleySafe (F : ℝ → ℝ × ℝ × ℝ) (x1 x2 xacc : ℝ) (maxit : ℕ) : Found :=
  let l := F x1
  let h := F x2
  if (l.1 > 0 ∧ h.1 > 0) ∨ (l.1 < 0 ∧ h.1 < 0) then .failed
  else if l.1 = 0 then .root x1 l.2.1
  else if h.1 = 0 then .root x2 h.2.1
  else
    let xl := if l.1 < 0 then x1 else x2
    let xh := if l.1 < 0 then x2 else x1
    let rts := 0.5 * (x1 + x2)
    let v := F rts
    halleyLoop F xacc maxit { xl := xl, xh := xh, rts := rts, dx := |x2 - x1|, dxold := |x2 - x1|, f := v.1, fp := v.2.1, fpp := v.2.2 }

/-- Bracketing the root, orbit_conversion_utilities.py:262-272: steps of `ds` until the value changes its sign. `none`: more than the given number of
passes. The arguments are the last two places, `s_prev` and `s`. -/
noncomputable def bracket (f : ℝ → ℝ) (ds : ℝ) : ℕ → ℝ → ℝ → Option (ℝ × ℝ)
  | 0, _, _ => none
  | n + 1, p, s => if f s * f p > 0 then bracket f ds n s (s + ds) else some (p, s)

/-- The further tries, orbit_conversion_utilities.py:275-283, from the place `s`; the result of the last is not used. -/
noncomputable def retry (F : ℝ → ℝ × ℝ × ℝ) (xacc : ℝ) (maxit : ℕ) : ℕ → ℝ → Found
  | 0, s =>
    if (F s).2.1 = 0 then .raised
    else
      match halleySafe F s (s - (F s).1 / (F s).2.1) xacc maxit with
      | .raised => .raised
      | _ => .failed
  | n + 1, s =>
    if (F s).2.1 = 0 then .raised
    else
      match halleySafe F s (s - (F s).1 / (F s).2.1) xacc maxit with
      | .failed => retry F xacc maxit n (s - (F s).1 / (F s).2.1)
      | r => r

/-- The search for the universal anomaly at the time `t` since perihelion, orbit_conversion_utilities.py:255-283, with the default `xacc` and `maxit`
(line 104). `none`: the bracketing needs more than `passes` passes. -/
noncomputable def anomaly (c : ℝ → ℝ × ℝ × ℝ × ℝ) (mu q e t : ℝ) (passes : ℕ) : Option Found :=
  let F := fun s => ((rootFunction c s mu (2 * mu / q - mu * (1 + e) / q) q 0 t).1, (rootFunction c s mu (2 * mu / q - mu * (1 + e) / q) q 0 t).2.1,
    (rootFunction c s mu (2 * mu / q - mu * (1 + e) / q) q 0 t).2.2.1)
  match bracket (fun s => (F s).1) (t / 4) passes 0 (0 + t / 4) with
  | none => none
  | some (a, b) =>
    match halleySafe F a b 1e-14 100 with
    | .failed => some (retry F 1e-14 100 10 b)
    | r => some r

/-- Position and velocity in the orbital plane, orbit_conversion_utilities.py:253-258, 285-305, from the value `ss` of the universal
anomaly; `c` is the implementation of the Stumpff functions. -/
noncomputable def planeState (c : ℝ → ℝ × ℝ × ℝ × ℝ) (mu q e t ss : ℝ) : Vec × Vec :=
  let r0 := q
  let v2 := mu * (1 + e) / q
  let alpha := 2 * mu / r0 - v2
  let k := c (alpha * ss * ss)
  let r := r0 * k.1 + r0 * 0 * ss * k.2.1 + mu * ss * ss * k.2.2.1
  let g1 := k.2.1 * ss
  let g2 := k.2.2.1 * ss * ss
  let g3 := k.2.2.2 * ss * ss * ss
  let f := 1 - (mu / r0) * g2
  let g := t - mu * g3
  let fdot := -(mu / (r * r0)) * g1
  let gdot := 1 - (mu / r) * g2
  let x0 : Vec := ⟨q, 0, 0⟩
  let v0 : Vec := ⟨0, √v2, 0⟩
  (scale f x0 + scale g v0, scale fdot x0 + scale gdot v0)

/-- The three rotations of orbit_conversion_utilities.py:307-332. -/
noncomputable def orient (argperi incl longnode : ℝ) (v : Vec) : Vec :=
  let v := matVec ⟨⟨cos argperi, -sin argperi, 0⟩, ⟨sin argperi, cos argperi, 0⟩, ⟨0, 0, 1⟩⟩ v
  let v := matVec ⟨⟨1, 0, 0⟩, ⟨0, cos incl, -sin incl⟩, ⟨0, sin incl, cos incl⟩⟩ v
  matVec ⟨⟨cos longnode, -sin longnode, 0⟩, ⟨sin longnode, cos longnode, 0⟩, ⟨0, 0, 1⟩⟩ v

/-- The time since perihelion used by `universal_cartesian`, orbit_conversion_utilities.py:245-251. -/
noncomputable def timeSincePerihelion (mu q e tp epoch : ℝ) : ℝ :=
  if e < 1 then
    let a := q / (1 - e)
    mod (epoch - tp) (2 * π / √(mu / (a * a * a)))
  else epoch - tp

/-- `universal_cartesian`, orbit_conversion_utilities.py:197-334, given the universal anomaly `ss` found by the root search (lines
262-283, which also stop with NaN). -/
noncomputable def universalCartesian (c : ℝ → ℝ × ℝ × ℝ × ℝ) (mu q e incl longnode argperi tp epoch ss : ℝ) : Vec × Vec :=
  let xv := planeState c mu q e (timeSincePerihelion mu q e tp epoch) ss
  (orient argperi incl longnode xv.1, orient argperi incl longnode xv.2)

/-- `principal_value`, orbit_conversion_utilities.py:337-356. -/
noncomputable def principalValue (theta : ℝ) : ℝ :=
  if theta < 0 then theta - 2 * π * ⌈theta / (2 * π)⌉ else theta - 2 * π * ⌊theta / (2 * π)⌋

/-- `np.arctanh`. -/
noncomputable def arctanh (x : ℝ) : ℝ := log ((1 + x) / (1 - x)) / 2

/-- Cometary elements. -/
structure Cometary where
  q : ℝ
  e : ℝ
  incl : ℝ
  longnode : ℝ
  argperi : ℝ
  tp : ℝ

/-- The shape and the true anomaly, orbit_conversion_utilities.py:405-434: `(p, alpha, e, q, trueanom)`. -/
noncomputable def shape (mu : ℝ) (pos vel : Vec) : ℝ × ℝ × ℝ × ℝ × ℝ :=
  let hvec := cross3 pos vel
  let hs := dot3 hvec hvec
  let h := √hs
  let r := norm3 pos
  let rdot := dot3 pos vel / r
  let p := hs / mu
  let alpha := 2 * mu / r - dot3 vel vel
  let ecos := p / r - 1
  let esin := rdot * h / mu
  let e := √(ecos * ecos + esin * esin)
  let trueanom := if esin ≠ 0 ∧ ecos ≠ 0 then arctan2 esin ecos else 0
  (p, alpha, e, p / (1 + e), trueanom)

/-- The orientation, orbit_conversion_utilities.py:419-424, 438-447: `(incl, longnode, u)`. -/
noncomputable def angles (pos vel : Vec) : ℝ × ℝ × ℝ :=
  let hvec := cross3 pos vel
  let h := √(dot3 hvec hvec)
  let incl := arccos (hvec.z / h)
  let longnode := if hvec.x ≠ 0 ∧ hvec.y ≠ 0 then arctan2 hvec.x (-hvec.y) else 0
  let rcosu := pos.x * cos longnode + pos.y * sin longnode
  let rsinu := (pos.y * cos longnode - pos.x * sin longnode) / cos incl
  let u := if rsinu ≠ 0 ∧ rcosu ≠ 0 then arctan2 rsinu rcosu else 0
  (incl, longnode, u)

/-- The time since perihelion passage, orbit_conversion_utilities.py:455-483. -/
noncomputable def sincePerihelion (mu p alpha e trueanom : ℝ) : ℝ :=
  let e := if |e - 1| < 1e-15 then 1 else e
  if e < 1 then
    let eccanom := 2 * arctan (√((1 - e) / (1 + e)) * tan (trueanom / 2))
    let meananom := principalValue (eccanom - e * sin eccanom)
    let a := mu / alpha
    meananom / √(mu / (a * a * a))
  else if e = 1 then
    let tf := tan (0.5 * trueanom)
    let B := 0.5 * (tf * tf * tf + 3 * tf)
    B / (3 * √(mu / (p * p * p)))
  else
    let H := 2 * arctanh (√((e - 1) / (e + 1)) * tan (trueanom / 2))
    let N := e * sinh H - H
    let a := mu / alpha
    N / √(-mu / (a * a * a))

/-- `universal_cometary`, orbit_conversion_utilities.py:359-485. -/
noncomputable def universalCometary (mu : ℝ) (pos vel : Vec) (epoch : ℝ) : Cometary :=
  let s := shape mu pos vel
  let g := angles pos vel
  let e := if |s.2.2.1 - 1| < 1e-15 then 1 else s.2.2.1
  { q := s.2.2.2.1, e := e, incl := g.1, longnode := g.2.1, argperi := g.2.2 - s.2.2.2.2,
    tp := epoch - sincePerihelion mu s.1 s.2.1 s.2.2.1 s.2.2.2.2 }

/-- `universal_keplerian`, orbit_conversion_utilities.py:488-540: `(a, M)` besides the angles. -/
noncomputable def universalKeplerian (mu : ℝ) (pos vel : Vec) (epoch : ℝ) : ℝ × ℝ :=
  let k := universalCometary mu pos vel epoch
  let a := k.q / (1 - k.e)
  (a, (epoch - k.tp) * √(mu / a ^ 3))

end Sorcha.Ephem
