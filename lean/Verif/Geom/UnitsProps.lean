import Verif.Geom.Units
import Verif.Geom.Lemmas
import Mathlib.Analysis.SpecialFunctions.Trigonometric.Arctan
import Mathlib.Analysis.SpecialFunctions.Trigonometric.Bounds

/-!
# C100: units and rotation of a detector
-/

namespace Sorcha.Geom.Props
open Sorcha.Geom Real

/-- A conversion of a detector's units. -/
inductive Convert
  | toDegrees
  | toRadians

noncomputable def Convert.apply : Convert → UDetector → UDetector
  | .toDegrees, u => u.rad2deg
  | .toRadians, u => u.deg2rad

theorem scale_scale (a b : ℝ) (d : Detector) : (d.scale a).scale b = d.scale (b * a) := by
  simp only [Detector.scale, List.map_map, Detector.mk.injEq, Prod.mk.injEq]
  exact ⟨List.map_congr_left fun c _ => by simp [mul_assoc], by ring, by ring⟩

theorem scale_one (d : Detector) : d.scale 1 = d := by
  simp [Detector.scale]

theorem there_and_back : (180 / π * (π / 180) : ℝ) = 1 ∧ (π / 180 * (180 / π) : ℝ) = 1 := by
  have := pi_ne_zero
  constructor <;> field_simp

/-- C100 (there and back): changing the units and back gives the same detector. -/
theorem C100_back (u : UDetector) :
    (u.units = "radians" → u.rad2deg.units = "degrees" ∧ u.rad2deg.deg2rad = u) ∧
    (u.units = "degrees" → u.deg2rad.units = "radians" ∧ u.deg2rad.rad2deg = u) := by
  obtain ⟨d, s⟩ := u
  refine ⟨fun h => ?_, fun h => ?_⟩
  · simp only at h; subst h
    simp [UDetector.rad2deg, UDetector.deg2rad, scale_scale, there_and_back, scale_one]
  · simp only at h; subst h
    simp [UDetector.rad2deg, UDetector.deg2rad, scale_scale, there_and_back, scale_one]

/-- C100 (again and again): after any conversions, one after another, a detector is as if only the last had been made. -/
theorem C100_last (u : UDetector) (hu : u.units = "radians" ∨ u.units = "degrees") (cs : List Convert) (c : Convert) :
    (cs ++ [c]).foldl (fun u c => c.apply u) u = c.apply u := by
  suffices key : ∀ (cs : List Convert), cs.foldl (fun u c => c.apply u) u = u.rad2deg ∨ cs.foldl (fun u c => c.apply u) u = u.deg2rad by
    rw [List.foldl_append, List.foldl_cons, List.foldl_nil]
    obtain ⟨d, s⟩ := u
    simp only at hu
    rcases hu with rfl | rfl <;> rcases key cs with h | h <;> rw [h] <;> cases c <;>
      simp [Convert.apply, UDetector.rad2deg, UDetector.deg2rad, scale_scale, there_and_back, scale_one]
  intro cs
  induction cs using List.reverseRecOn with
  | nil =>
    obtain ⟨d, s⟩ := u
    simp only at hu
    rcases hu with rfl | rfl
    · right; simp [UDetector.deg2rad]
    · left; simp [UDetector.rad2deg]
  | append_singleton cs c ih =>
    rw [List.foldl_append, List.foldl_cons, List.foldl_nil]
    obtain ⟨d, s⟩ := u
    simp only at hu
    rcases hu with rfl | rfl <;> rcases ih with h | h <;> rw [h] <;> cases c <;>
      simp [Convert.apply, UDetector.rad2deg, UDetector.deg2rad, scale_scale, there_and_back, scale_one]

/-! Scaling -/

theorem abs_scale (k a b c d : ℝ) (hk : 0 ≤ k) : |k * a * (k * b) - k * c * (k * d)| = k ^ 2 * |a * b - c * d| := by
  rw [show k * a * (k * b) - k * c * (k * d) = k ^ 2 * (a * b - c * d) by ring, abs_mul, abs_of_nonneg (by positivity)]

theorem area_scale (k : ℝ) (hk : 0 ≤ k) (d : Detector) (p : Pt) : segmentedArea (d.scale k) (k * p.1, k * p.2) = k ^ 2 * segmentedArea d p := by
  unfold segmentedArea Detector.scale
  simp only [List.map_map]
  have h1 : (fun c : Pt => (c.1 - k * p.1, c.2 - k * p.2)) ∘ (fun c : Pt => (k * c.1, k * c.2)) =
      (fun c : Pt => (k * c.1, k * c.2)) ∘ fun c : Pt => (c.1 - p.1, c.2 - p.2) := by
    funext c; simp only [Function.comp_apply, Prod.mk.injEq]; constructor <;> ring
  rw [h1, ← List.map_map, roll_map, List.zip_map, List.map_map]
  · rw [show ((fun e : Pt × Pt => |e.1.1 * e.2.2 - e.1.2 * e.2.1|) ∘ Prod.map (fun c : Pt => (k * c.1, k * c.2)) fun c : Pt => (k * c.1, k * c.2)) =
        fun e : Pt × Pt => k ^ 2 * |e.1.1 * e.2.2 - e.1.2 * e.2.1| from by
      funext e; simp only [Function.comp_apply, Prod.map]; exact abs_scale k _ _ _ _ hk]
    rw [List.sum_map_mul_left]
    ring

theorem trueArea_scale (k : ℝ) (hk : 0 ≤ k) (d : Detector) : trueArea (d.scale k) = k ^ 2 * trueArea d := by
  rw [true_eq, true_eq]
  exact area_scale k hk d d.center

theorem sq_scale (k : ℝ) (p q : Pt) : sq (k * p.1, k * p.2) (k * q.1, k * q.2) = k ^ 2 * sq p q := by
  simp only [sq]; ring

theorem npMax_scale (k : ℝ) (hk : 0 ≤ k) (l : List ℝ) : npMax (l.map fun x => k * x) = k * npMax l := by
  have hmax : ∀ (l : List ℝ) (a : ℝ), (l.map fun x => k * x).foldl max (k * a) = k * l.foldl max a := by
    intro l
    induction l with
    | nil => intro a; rfl
    | cons x l ih =>
      intro a
      rw [List.map_cons, List.foldl_cons, List.foldl_cons, ← mul_max_of_nonneg _ _ hk, ih]
  cases l with
  | nil => simp [npMax]
  | cons a l => simp only [npMax, List.map_cons, List.max?_cons', Option.getD_some, hmax]

theorem dist_scale (k : ℝ) (hk : 0 < k) (p : Pt) (x0 y0 x1 y1 : ℝ) :
    distToSegment (k * p.1, k * p.2) (k * x0) (k * y0) (k * x1) (k * y1) = k * distToSegment p x0 y0 x1 y1 := by
  have hsqrt : ∀ X Y : ℝ, √(k * X * (k * X) + k * Y * (k * Y)) = k * √(X * X + Y * Y) := by
    intro X Y
    rw [show k * X * (k * X) + k * Y * (k * Y) = k ^ 2 * (X * X + Y * Y) by ring, Real.sqrt_mul (by positivity), Real.sqrt_sq hk.le]
  have hlen : (k * x1 - k * x0) * (k * x1 - k * x0) + (k * y1 - k * y0) * (k * y1 - k * y0) =
      k ^ 2 * ((x1 - x0) * (x1 - x0) + (y1 - y0) * (y1 - y0)) := by ring
  have hnum : (k * p.1 - k * x0) * (k * x1 - k * x0) + (k * p.2 - k * y0) * (k * y1 - k * y0) =
      k ^ 2 * ((p.1 - x0) * (x1 - x0) + (p.2 - y0) * (y1 - y0)) := by ring
  unfold distToSegment
  simp only [hlen, hnum]
  by_cases h : (x1 - x0) * (x1 - x0) + (y1 - y0) * (y1 - y0) = 0
  · rw [if_pos (by rw [h, mul_zero]), if_pos h]
    rw [← mul_sub, ← mul_sub]
    exact hsqrt _ _
  · rw [if_neg (mul_ne_zero (by positivity) h), if_neg h]
    rw [mul_div_mul_left _ _ (by positivity : (k ^ 2 : ℝ) ≠ 0)]
    generalize (if (if ((p.1 - x0) * (x1 - x0) + (p.2 - y0) * (y1 - y0)) / ((x1 - x0) * (x1 - x0) + (y1 - y0) * (y1 - y0)) < 0 then (0 : ℝ)
      else ((p.1 - x0) * (x1 - x0) + (p.2 - y0) * (y1 - y0)) / ((x1 - x0) * (x1 - x0) + (y1 - y0) * (y1 - y0))) > 1 then (1 : ℝ)
      else if ((p.1 - x0) * (x1 - x0) + (p.2 - y0) * (y1 - y0)) / ((x1 - x0) * (x1 - x0) + (y1 - y0) * (y1 - y0)) < 0 then (0 : ℝ)
      else ((p.1 - x0) * (x1 - x0) + (p.2 - y0) * (y1 - y0)) / ((x1 - x0) * (x1 - x0) + (y1 - y0) * (y1 - y0))) = t
    rw [← hsqrt]
    congr 1
    ring

/-- The point in degrees. -/
noncomputable def inDegrees (p : Pt) : Pt := (p.1 * (180 / π), p.2 * (180 / π))

/-- C100 (same points): a point is on a detector in radians just if the point in degrees is on the detector in degrees, for the same edge threshold, when
the tolerance, which is an area, is converted too. -/
theorem C100_same (u : UDetector) (hu : u.units = "radians") (ε : ℝ) (e : Option ℝ) (p : Pt) :
    u.isOn ε e p ↔ u.rad2deg.isOn (ε * (180 / π) ^ 2) e (inDegrees p) := by
  obtain ⟨d, s⟩ := u
  simp only at hu
  subst hu
  have hk : (0 : ℝ) < 180 / π := by positivity
  have hp : inDegrees p = (180 / π * p.1, 180 / π * p.2) := by simp [inDegrees, mul_comm]
  rw [hp]
  generalize hK : (180 / π : ℝ) = k at hk
  have hrad : (⟨d, "radians"⟩ : UDetector).rad2deg = ⟨d.scale k, "degrees"⟩ := by simp [UDetector.rad2deg, hK]
  have hback : (π / 180 : ℝ) = 1 / k := by rw [← hK, one_div_div]
  rw [hrad]
  unfold UDetector.isOn
  refine and_congr ?_ (and_congr ?_ ?_)
  · simp only [Detector.scale, List.map_map]
    rw [sq_scale, show ((fun c : Pt => sq c (k * d.center.1, k * d.center.2)) ∘ fun c : Pt => (k * c.1, k * c.2)) =
      (fun x => k ^ 2 * x) ∘ fun c : Pt => sq c d.center from by funext c; exact sq_scale k c d.center]
    rw [← List.map_map, npMax_scale _ (by positivity)]
    exact (mul_le_mul_iff_right₀ (by positivity)).symm
  · simp only
    rw [area_scale k hk.le, trueArea_scale k hk.le, ← mul_sub, abs_mul, abs_of_nonneg (by positivity : (0 : ℝ) ≤ k ^ 2), mul_comm ε]
    exact (mul_le_mul_iff_right₀ (by positivity)).symm
  · cases e with
    | none => exact Iff.rfl
    | some e =>
      have h1 : edgeIn "radians" e = some (e / 3600 * (1 / k)) := by simp [edgeIn, hback]
      have h2 : edgeIn "degrees" e = some (e / 3600) := by simp [edgeIn]
      simp only [h1, h2, Option.some.injEq, exists_eq_left', edges, Detector.scale]
      rw [← List.map_rotate, List.zip_map]
      simp only [List.forall_mem_map, Prod.map_fst, Prod.map_snd]
      refine forall₂_congr fun ed _ => ?_
      rw [dist_scale k hk]
      rw [gt_iff_lt, gt_iff_lt, mul_one_div, div_lt_iff₀ hk, mul_comm]

/-- C100 (tolerance): with the same number as tolerance, a point that is on a detector in degrees is on it in radians. A point whose area is beyond the tolerance in degrees is
not on the detector in degrees, although, if it is the same to within the tolerance in radians, it may be on the detector in radians. -/
theorem C100_tolerance (u : UDetector) (hu : u.units = "radians") (ε : ℝ) (hε : 0 ≤ ε) (e : Option ℝ) (p : Pt) :
    (u.rad2deg.isOn ε e (inDegrees p) → u.isOn ε e p) ∧
    (u.isOn ε e p → ε < |segmentedArea u.d p - trueArea u.d| * (180 / π) ^ 2 → ¬ u.rad2deg.isOn ε e (inDegrees p)) := by
  have h1 : (1 : ℝ) ≤ (180 / π) ^ 2 := by
    have : (1 : ℝ) ≤ 180 / π := by
      rw [le_div_iff₀ pi_pos]; linarith [pi_le_four]
    nlinarith
  have mono : ∀ (v : UDetector) (a b : ℝ), a ≤ b → v.isOn a e (inDegrees p) → v.isOn b e (inDegrees p) :=
    fun v a b hab h => ⟨h.1, h.2.1.trans hab, h.2.2⟩
  refine ⟨fun h => (C100_same u hu ε e p).2 (mono _ _ _ (by nlinarith) h), fun _ hlt hd => ?_⟩
  have hk : (0 : ℝ) < (180 / π) ^ 2 := by positivity
  have hon := (C100_same u hu (ε / (180 / π) ^ 2) e p).2 (by rwa [div_mul_cancel₀ _ hk.ne'])
  have := hon.2.1
  rw [le_div_iff₀ hk] at this
  linarith

/-- C100 fails in the making: a detector cannot be made in degrees. With the units `degrees` no corners lead to a detector; with `deg` one is made, but of the
numbers taken as radians, and with an edge threshold in degrees. -/
theorem C100_new_fails (points : List Pt) :
    UDetector.new points "degrees" = none ∧
    ∃ u v, UDetector.new points "deg" = some u ∧ UDetector.new points "radians" = some v ∧ u.d = v.d ∧ edgeIn u.units 3600 = some 1 ∧ edgeIn v.units 3600 = some (π / 180) := by
  refine ⟨by simp [UDetector.new], ⟨Detector.init points, "deg"⟩, ⟨Detector.init points, "radians"⟩, by simp [UDetector.new], by simp [UDetector.new], rfl,
    by simp [edgeIn], by simp [edgeIn]⟩

theorem project_axis (s : ℝ) : projectCorner (s, 0) = (tan s, 0) := by
  simp [projectCorner, tan_eq_sin_div_cos]

theorem turned_zero (p : Pt) : turned 0 p = p := by
  simp [turned, Complex.mul_re, Complex.mul_im]

/-- C100 fails for rotations: rotating does not only turn a detector but also projects its corners once more and forgets its units. A detector with a corner at `s` on the
axis, turned by the angle 0, has it at `tan s`, farther out. -/
theorem C100_rotate_fails (s : ℝ) (h0 : 0 < s) (h1 : s < π / 2) :
    ∃ u v, UDetector.new [(arctan s, 0), (0, arctan s), (-arctan s, 0), (0, -arctan s)] "radians" = some u ∧
      u.d.corners = [(s, 0), (0, s), (-s, 0), (0, -s)] ∧ UDetector.rotate 0 u = some v ∧ v.d.corners.head? = some (tan s, 0) ∧ s < tan s ∧
      (∀ θ w, UDetector.rotate θ u.rad2deg = some w → w.units = "radians") := by
  have hv : ∀ t : ℝ, projectCorner (0, t) = (0, tan t) := by
    intro t; simp [projectCorner, tan_eq_sin_div_cos]
  refine ⟨⟨Detector.init [(arctan s, 0), (0, arctan s), (-arctan s, 0), (0, -arctan s)], "radians"⟩, _, by simp [UDetector.new], ?_, by simp only [UDetector.rotate, UDetector.new]; rfl, ?_,
    lt_tan h0 h1, ?_⟩
  · simp [Detector.init, project_axis, hv, tan_arctan, tan_neg]
  · simp [Detector.init, turned_zero, project_axis, tan_arctan]
  · intro θ w hw
    simp only [UDetector.rotate, UDetector.new] at hw
    rw [if_neg (by decide)] at hw
    cases hw
    rfl

/-- Concrete: a square detector of any size; its centre is on it, in radians and in degrees. -/
example (s : ℝ) (h : 0 < s) : let u : UDetector := ⟨⟨[(s, s), (-s, s), (-s, -s), (s, -s)], (0, 0)⟩, "radians"⟩
    u.isOn (10 ^ (-11 : ℤ)) none (0, 0) ∧ u.rad2deg.isOn (10 ^ (-11 : ℤ) * (180 / π) ^ 2) none (inDegrees (0, 0)) := by
  intro u
  have : u.isOn (10 ^ (-11 : ℤ)) none (0, 0) := by
    refine ⟨?_, ?_, trivial⟩
    · simp only [u, sq, npMax, List.map_cons, List.map_nil, List.max?_cons', List.foldl_cons, List.foldl_nil]
      simp
      positivity
    · simp only [u]
      rw [true_eq]
      simp
  exact ⟨this, (C100_same u rfl _ _ _).1 this⟩

/-- Concrete: the hypotheses of C100_tolerance's second part are met by a point a little outside the right edge of that square, if the tolerance is such. -/
example : (UDetector.mk ⟨[(1, 1), (-1, 1), (-1, -1), (1, -1)], (0, 0)⟩ "radians").isOn 1 none (5 / 4, 0) ∧
    (1 : ℝ) < |segmentedArea ⟨[(1, 1), (-1, 1), (-1, -1), (1, -1)], (0, 0)⟩ (5 / 4, 0) - trueArea ⟨[(1, 1), (-1, 1), (-1, -1), (1, -1)], (0, 0)⟩| * (180 / π) ^ 2 := by
  have harea : segmentedArea ⟨[(1, 1), (-1, 1), (-1, -1), (1, -1)], (0, 0)⟩ (5 / 4, 0) - trueArea ⟨[(1, 1), (-1, 1), (-1, -1), (1, -1)], (0, 0)⟩ = 1 / 2 := by
    simp only [segmentedArea, trueArea, roll, List.map_cons, List.map_nil, List.getLast?_cons_cons, List.getLast?_singleton, Option.toList_some, List.dropLast_cons_cons,
      List.dropLast_singleton, List.cons_append, List.nil_append, List.zip_cons_cons, List.zip_nil_right, List.sum_cons, List.sum_nil]
    norm_num [abs_of_pos, abs_of_neg]
  refine ⟨⟨?_, ?_, trivial⟩, ?_⟩
  · simp only [sq, npMax, List.map_cons, List.map_nil, List.max?_cons', List.foldl_cons, List.foldl_nil]
    norm_num
  · simp only
    rw [harea]; norm_num
  · rw [harea]
    have : (40 : ℝ) ≤ 180 / π := by
      rw [le_div_iff₀ pi_pos]; linarith [pi_le_four]
    rw [abs_of_pos (by norm_num)]
    nlinarith

end Sorcha.Geom.Props
