import Verif.Linking.Props
import Verif.Epoch.Spec
import Verif.Photom.Float

/-!
# C01 and C03 in floating point numbers

The differences of times and the night of an observation are computed in floating point numbers; `rnd` rounds the result of each operation to a nearest one.
-/

namespace Sorcha.Linking

/-- `hasTracklet` with the difference of times as a floating point number, PPMiniDifi.py:83-103 (the difference is in line 96). -/
def hasTrackletF (rnd : ℚ → ℚ) (c : Cfg) (obs : List Obs) : Except Err Bool :=
  if obs.length < c.minObs then .ok false
  else if !chronological (obs.map (·.mjd)) then .error .notChronological
  else if c.minObs = 1 then .ok true
  else .ok <| (List.range obs.length).any fun i => (List.range obs.length).any fun j =>
    match obs[i]?, obs[j]? with
    | some a, some b =>
      let diff := rnd (a.mjd - b.mjd)
      if 0 < diff ∧ diff < c.maxdt then
        if c.minlen < c.sep a.ra a.dec b.ra b.dec then
          decide ((c.minObs : ℤ) ≤ (i + 1 : ℤ) - j)
        else false
      else false
    | _, _ => false

/-- The longest time between two detections of a tracklet, from the setting in days: to minutes, PPLinkingFilter.py:88, and back, PPMiniDifi.py:92. -/
def maxdtF (rnd : ℚ → ℚ) (t : ℚ) : ℚ := rnd (rnd (rnd (t * 24) * 60) / 1440)

/-- The night of an observation and the test that it is not near the start of a night, PPMiniDifi.py:314-319; `none` is the failed assertion. (The limits 0.1 and 0.9
are floating point numbers in the program.) -/
def nightF (rnd : ℚ → ℚ) (nightStart mjd : ℚ) : Option ℤ :=
  let tshift := rnd (mjd - nightStart)
  let night := truncInt tshift
  let phased := rnd (tshift - night)
  if rnd 0.1 < phased ∧ phased < rnd 0.9 then some night else none

namespace FloatProps

open Spec
open Sorcha.Turn.Spec (Nearest IsDouble)
open Sorcha.Turn.Props (rnd_ge rnd_le d0 nat_double)
open Sorcha.Photom.Float.Props (rnd_fix rnd_mono)
open Sorcha.Epoch.Spec (Double)

variable {rnd : ℚ → ℚ}

/-- The difference of two floating point numbers of which neither is more than twice the other is a floating point number. -/
theorem sub_double {x y : ℚ} (hx : IsDouble x) (hy : IsDouble y) (h1 : x ≤ 2 * y) (h2 : y ≤ 2 * x) : IsDouble (x - y) := by
  obtain ⟨m, e, rfl, hm⟩ := hx
  obtain ⟨n, f, rfl, hn⟩ := hy
  rcases le_total e f with h | h
  · obtain ⟨k, rfl⟩ := Int.le.dest h
    have p : (0 : ℚ) < 2 ^ e := zpow_pos (by norm_num) _
    have s : (2 : ℚ) ^ (e + k : ℤ) = 2 ^ e * 2 ^ k := by rw [zpow_add₀ (by norm_num), zpow_natCast]
    rw [s] at h1 h2 ⊢
    have a : (m : ℚ) ≤ 2 * (n * 2 ^ k) := le_of_mul_le_mul_right (by linarith) p
    have b : (n * 2 ^ k : ℚ) ≤ 2 * m := le_of_mul_le_mul_right (by linarith) p
    have a' : m ≤ 2 * (n * 2 ^ k) := by exact_mod_cast a
    have b' : n * 2 ^ k ≤ 2 * m := by exact_mod_cast b
    refine ⟨m - n * 2 ^ k, e, by push_cast; ring, ?_⟩
    rw [abs_lt] at hm ⊢
    generalize n * 2 ^ k = q at *
    omega
  · obtain ⟨k, rfl⟩ := Int.le.dest h
    have p : (0 : ℚ) < 2 ^ f := zpow_pos (by norm_num) _
    have s : (2 : ℚ) ^ (f + k : ℤ) = 2 ^ f * 2 ^ k := by rw [zpow_add₀ (by norm_num), zpow_natCast]
    rw [s] at h1 h2 ⊢
    have a : (m * 2 ^ k : ℚ) ≤ 2 * n := le_of_mul_le_mul_right (by linarith) p
    have b : (n : ℚ) ≤ 2 * (m * 2 ^ k) := le_of_mul_le_mul_right (by linarith) p
    have a' : m * 2 ^ k ≤ 2 * n := by exact_mod_cast a
    have b' : n ≤ 2 * (m * 2 ^ k) := by exact_mod_cast b
    refine ⟨m * 2 ^ k - n, f, by push_cast; ring, ?_⟩
    rw [abs_lt] at hn ⊢
    generalize m * 2 ^ k = q at *
    omega

/-- The times are floating point numbers, and none is more than twice another: any dates from 1941 to 2023, or from 2000 to 2140, say. -/
def Times (obs : List Obs) : Prop := (∀ o ∈ obs, IsDouble o.mjd) ∧ ∀ a ∈ obs, ∀ b ∈ obs, a.mjd ≤ 2 * b.mjd

theorem hasTrackletF_eq (hr : Nearest rnd) (c : Cfg) (obs : List Obs) (h : Times obs) : hasTrackletF rnd c obs = hasTracklet c obs := by
  unfold hasTrackletF hasTracklet
  have key : ∀ i j : ℕ, ∀ a b : Obs, obs[i]? = some a → obs[j]? = some b → rnd (a.mjd - b.mjd) = a.mjd - b.mjd := by
    intro i j a b ha hb
    have ma := List.mem_of_getElem? ha
    have mb := List.mem_of_getElem? hb
    exact rnd_fix hr (sub_double (h.1 a ma) (h.1 b mb) (h.2 a ma b mb) (h.2 b mb a ma))
  congr 3
  congr 1
  congr 1
  funext i
  congr 1
  funext j
  rcases ha : obs[i]? with _ | a
  · rfl
  rcases hb : obs[j]? with _ | b
  · rfl
  simp only [key i j a b ha hb]

/-- C01 (floating point): computed with rounded differences of times, the answer is still exactly the tracklet condition for the times as they are. -/
theorem C01_float (hr : Nearest rnd) (c : Cfg) (obs : List Obs) (h : Times obs) (ho : InTimeOrder obs) :
    ∃ b, hasTrackletF rnd c obs = .ok b ∧ (b = true ↔ HasTracklet c obs) := by
  rw [hasTrackletF_eq hr c obs h]
  exact (C01_hasTracklet_iff c obs).1 ho

/-- C01 (floating point, window): the longest time between two detections is the setting up to a part in 2^51, and the setting itself if this has at
most 42 binary digits (as 0.0625 days have). -/
theorem C01_float_window (t : ℚ) :
    (Double rnd → |maxdtF rnd t - t| ≤ |t| / 2 ^ 51) ∧
    (Nearest rnd → ∀ m e : ℤ, |m| < 2 ^ 42 → t = m * 2 ^ e → maxdtF rnd t = t) := by
  constructor
  · intro hr
    unfold maxdtF
    have a := hr.close (t * 24)
    generalize rnd (t * 24) = x at a
    have b := hr.close (x * 60)
    generalize rnd (x * 60) = y at b
    have c := hr.close (y / 1440)
    generalize rnd (y / 1440) = z at c
    rw [abs_mul, abs_of_pos (by norm_num : (0 : ℚ) < 24)] at a
    rw [abs_mul, abs_of_pos (by norm_num : (0 : ℚ) < 60)] at b
    rw [abs_div, abs_of_pos (by norm_num : (0 : ℚ) < 1440)] at c
    have x1 : |x| ≤ |t| * 24 + |t| * 24 / 2 ^ 53 := by
      calc |x| = |(x - t * 24) + t * 24| := by ring_nf
        _ ≤ |x - t * 24| + |t * 24| := abs_add_le _ _
        _ ≤ _ := by rw [abs_mul, abs_of_pos (by norm_num : (0 : ℚ) < 24)]; linarith
    have y1 : |y| ≤ |x| * 60 + |x| * 60 / 2 ^ 53 := by
      calc |y| = |(y - x * 60) + x * 60| := by ring_nf
        _ ≤ |y - x * 60| + |x * 60| := abs_add_le _ _
        _ ≤ _ := by rw [abs_mul, abs_of_pos (by norm_num : (0 : ℚ) < 60)]; linarith
    have tri : |z - t| ≤ |z - y / 1440| + |y - x * 60| / 1440 + |x - t * 24| / 24 := by
      have e : z - t = (z - y / 1440) + (y - x * 60) / 1440 + (x - t * 24) / 24 := by ring
      rw [e]
      refine (abs_add_le _ _).trans (add_le_add ((abs_add_le _ _).trans (add_le_add le_rfl ?_)) ?_)
      · rw [abs_div, abs_of_pos (by norm_num : (0 : ℚ) < 1440)]
      · rw [abs_div, abs_of_pos (by norm_num : (0 : ℚ) < 24)]
    have t0 := abs_nonneg t
    generalize |t| = T at *
    generalize |x| = X at *
    generalize |y| = Y at *
    norm_num at *
    linarith
  · rintro hr m e hm rfl
    have d : ∀ k : ℤ, 0 < k → k ≤ 1440 → IsDouble (m * 2 ^ e * k) := by
      intro k k0 k1
      refine ⟨m * k, e, by push_cast; ring, ?_⟩
      rw [abs_mul, abs_of_pos k0]
      nlinarith [abs_nonneg m]
    unfold maxdtF
    have d24 := d 24 (by norm_num) (by norm_num)
    have d1440 := d 1440 (by norm_num) (by norm_num)
    have d1 := d 1 (by norm_num) (by norm_num)
    push_cast at d24 d1440 d1
    rw [rnd_fix hr d24, show (m : ℚ) * 2 ^ e * 24 * 60 = m * 2 ^ e * 1440 by ring, rnd_fix hr d1440, mul_div_assoc, div_self (by norm_num)]
    rw [rnd_fix hr d1, mul_one]

/-- C03 (floating point): if the test of the time of night passes, the night computed is the true night of the observation. -/
theorem C03_float_night (hr : Nearest rnd) (nightStart mjd : ℚ) (n : ℤ) (hn : |mjd - nightStart| ≤ 2 ^ 52) (h : nightF rnd nightStart mjd = some n) :
    n = ⌊mjd - nightStart⌋ := by
  unfold nightF at h
  simp only at h
  split_ifs at h with hp
  injection h with h
  obtain ⟨p1, p2⟩ := hp
  generalize hz : mjd - nightStart = z at *
  rw [abs_le] at hn
  have big : IsDouble (2 ^ 52 : ℚ) := ⟨1, 52, by norm_num, by norm_num⟩
  have nbig : IsDouble (-(2 ^ 52) : ℚ) := ⟨-1, 52, by norm_num, by norm_num⟩
  have u := rnd_le hr big hn.2
  have l := rnd_ge hr nbig hn.1
  have tenth : 0 ≤ rnd 0.1 := rnd_ge hr d0 (by norm_num)
  have ninth : rnd 0.9 ≤ 1 := rnd_le hr Sorcha.Photom.Float.Props.d1 (by norm_num)
  have q1 : 0 < rnd z - n := by
    by_contra hc
    push Not at hc
    rw [h] at p1
    have := rnd_le hr d0 hc
    linarith
  have q2 : rnd z - n < 1 := by
    by_contra hc
    push Not at hc
    rw [h] at p2
    have := rnd_ge hr Sorcha.Photom.Float.Props.d1 hc
    linarith
  have nb1 : (n : ℚ) < 2 ^ 52 := by linarith
  have nb2 : (-(2 ^ 52) - 1 : ℚ) < n := by linarith
  have nb1' : n < 2 ^ 52 := by exact_mod_cast nb1
  have nb2' : -(2 ^ 52) - 1 < n := by exact_mod_cast nb2
  have dn : IsDouble (n : ℚ) := nat_double n (by rw [abs_lt]; norm_num at *; omega)
  have dn1 : IsDouble ((n : ℚ) + 1) := by
    have := nat_double (n + 1) (by rw [abs_lt]; norm_num at *; omega)
    push_cast at this
    exact this
  refine (Int.floor_eq_iff.2 ⟨?_, ?_⟩).symm
  · by_contra hc
    push Not at hc
    have := rnd_le hr dn hc.le
    linarith
  · by_contra hc
    push Not at hc
    have := rnd_ge hr dn1 hc
    linarith

/-- Two detections of one night as floating point numbers, and a setting of 90 minutes. -/
example : Times [⟨1, 60000 + 1 / 4, 10, 0⟩, ⟨2, 60000 + 9 / 32, 10, 0⟩] ∧ ∃ m e : ℤ, |m| < 2 ^ 42 ∧ (0.0625 : ℚ) = m * 2 ^ e := by
  refine ⟨⟨?_, ?_⟩, 1, -4, by norm_num, by norm_num⟩
  · intro o ho
    simp only [List.mem_cons, List.not_mem_nil, or_false] at ho
    rcases ho with rfl | rfl
    · exact ⟨240001, -2, by norm_num, by norm_num⟩
    · exact ⟨1920009, -5, by norm_num, by norm_num⟩
  · intro a ha b hb
    simp only [List.mem_cons, List.not_mem_nil, or_false] at ha hb
    rcases ha with rfl | rfl <;> rcases hb with rfl | rfl <;> norm_num

/-- An observation whose night is found. -/
example (hr : Nearest rnd) : nightF rnd 0 (60000 + 1 / 2) = some 60000 := by
  have dh : IsDouble (1 / 2) := ⟨1, -1, by norm_num, by norm_num⟩
  have dz : IsDouble (60000 + 1 / 2) := ⟨120001, -1, by norm_num, by norm_num⟩
  have d4 : IsDouble (1 / 4) := ⟨1, -2, by norm_num, by norm_num⟩
  have d34 : IsDouble (3 / 4) := ⟨3, -2, by norm_num, by norm_num⟩
  have a : rnd 0.1 ≤ 1 / 4 := rnd_le hr d4 (by norm_num)
  have b : 3 / 4 ≤ rnd 0.9 := rnd_ge hr d34 (by norm_num)
  have t : truncInt (60000 + 1 / 2) = 60000 := by decide +kernel
  unfold nightF
  simp only [sub_zero, rnd_fix hr dz, t]
  rw [show (60000 + 1 / 2 - ((60000 : ℤ) : ℚ)) = 1 / 2 by norm_num, rnd_fix hr dh, if_pos ⟨by linarith, by linarith⟩]

end FloatProps
end Sorcha.Linking
