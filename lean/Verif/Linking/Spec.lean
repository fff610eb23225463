import Verif.Linking.Model
import Mathlib.Data.Int.Interval
import Mathlib.Order.Interval.Finset.Nat
import Mathlib.Algebra.BigOperators.Group.Finset.Basic

/-!
# Specification vocabulary for the linking properties

Nothing here refers to the functions of `Model.lean` (only to the record types `Obs`, `Cfg`, `Row`).
-/

namespace Sorcha.Linking.Spec
open Sorcha.Linking

/-- The observations are listed in time order. -/
def InTimeOrder (obs : List Obs) : Prop := obs.Pairwise fun a b => a.mjd ≤ b.mjd

/-- The listed observations of one night contain a tracklet: there are at least `minObs` of them and either one
is enough, or some `first` is followed (with `between` listed in between) by a `last` that is strictly later, by less than
`maxdt`, further away than `minlen`, and `first`, `between`, `last` are at least `minObs` observations. -/
def HasTracklet (c : Cfg) (obs : List Obs) : Prop :=
  c.minObs ≤ obs.length ∧
  (c.minObs = 1 ∨
    ∃ (before : List Obs) (first : Obs) (between : List Obs) (last : Obs) (after : List Obs),
      obs = before ++ first :: between ++ last :: after ∧
      first.mjd < last.mjd ∧ last.mjd - first.mjd < c.maxdt ∧
      c.minlen < c.sep last.ra last.dec first.ra first.dec ∧
      c.minObs ≤ between.length + 2)

/-- Number of nights in the trailing window `[D - window + 1, D]` that satisfy `T`. -/
noncomputable def inWindow (T : ℤ → Prop) (window : ℕ) (D : ℤ) : Finset ℤ :=
  open Classical in (Finset.Icc (D - window + 1) D).filter T

/-- Night `D` closes a window with at least `nlink` tracklet nights. -/
def DiscoveryNight (T : ℤ → Prop) (window nlink : ℕ) (D : ℤ) : Prop :=
  nlink ≤ (inWindow T window D).card

/-- The (integer) night of an observation: nights start at `nightStart` (a fraction of a day). -/
def nightOf (c : Cfg) (o : Obs) : ℤ := ⌊o.mjd - c.nightStart⌋

/-- Every observation is comfortably inside a night (the code asserts this). -/
def WellPhased (c : Cfg) (obs : List Obs) : Prop :=
  ∀ o ∈ obs, 0 ≤ o.mjd - c.nightStart ∧
    (1 : ℚ) / 10 < Int.fract (o.mjd - c.nightStart) ∧ Int.fract (o.mjd - c.nightStart) < 9 / 10

/-- Night `n` has a tracklet, `obs` being listed in time order. -/
def TrackletNight (c : Cfg) (obs : List Obs) (n : ℤ) : Prop :=
  ∃ o ∈ obs, nightOf c o = n ∧ HasTracklet c (obs.filter fun o => nightOf c o = n)

/-- `s` sorts by time: the result is a permutation in time order. -/
def Sorts (s : List Obs → List Obs) : Prop :=
  ∀ l, (s l).Perm l ∧ InTimeOrder (s l)

/-- Order-free version of "night `n` has a tracklet", for observations at distinct times: at least `minObs`
observations, and either one is enough or two observations `a`, `b` of that night, strictly and by less than `maxdt` apart
in time and more than `minlen` apart on the sky, with at least `minObs` observations from the time of `a` to that of `b`. -/
def TrackletNightSet (c : Cfg) (obs : List Obs) (n : ℤ) : Prop :=
  let night := obs.filter fun o => nightOf c o = n
  night ≠ [] ∧ c.minObs ≤ night.length ∧
  (c.minObs = 1 ∨ ∃ a ∈ night, ∃ b ∈ night, a.mjd < b.mjd ∧ b.mjd - a.mjd < c.maxdt ∧
    c.minlen < c.sep b.ra b.dec a.ra a.dec ∧
    c.minObs ≤ night.countP fun o => a.mjd ≤ o.mjd ∧ o.mjd ≤ b.mjd)

/-- Observations at pairwise different times. -/
def DistinctTimes (obs : List Obs) : Prop := obs.Pairwise fun a b => a.mjd ≠ b.mjd

/-- No two different sets of the first `m` weights have the same sum (true with probability one for independent
continuous random weights). -/
def Generic (w : ℕ → ℚ) (m : ℕ) : Prop :=
  ∀ A B : Finset ℕ, A ⊆ Finset.range m → B ⊆ Finset.range m → ∑ k ∈ A, w k = ∑ k ∈ B, w k → A = B

/-- Uniform draws lie in `[0,1)`. -/
def UnitDraws (draws : List ℚ → ℕ → ℚ) : Prop := ∀ ra k, 0 ≤ draws ra k ∧ draws ra k < 1

/-- The object ID has ASCII characters only. -/
def Ascii (id : String) : Prop := ∀ c ∈ id.toList, c.toNat < 128

/-- The observations of object `id`. -/
def rowsOf {ρ} (id : String) (rows : List (Row ρ)) : List Obs :=
  (rows.filter fun r => r.objId = id).map (·.obs)

end Sorcha.Linking.Spec
