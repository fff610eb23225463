import Verif.Ephem.Props
import Mathlib.Tactic.Push

/-!
# Properties C35, C36 and C55: interpolation, pickets and candidate objects
-/

namespace Sorcha.Ephem.PicketProps
open Sorcha.Ephem Sorcha.Photom Sorcha.Ephem.Props

/-! ## C35 -/

/-- C35: the interpolated direction agrees with the computed ones at the three reference times, and the weights add to one. -/
theorem C35_nodes (tm t0 tp : ℝ) (h1 : tm ≠ t0) (h2 : t0 ≠ tp) (h3 : tm ≠ tp) (vm v0 vp : Vec) :
    interpolate tm t0 tp vm v0 vp tm = vm ∧ interpolate tm t0 tp vm v0 vp t0 = v0 ∧ interpolate tm t0 tp vm v0 vp tp = vp ∧
    ∀ t, (lagrange3 tm t0 tp t).1 + (lagrange3 tm t0 tp t).2.1 + (lagrange3 tm t0 tp t).2.2 = 1 := by
  have a1 := sub_ne_zero.2 h1
  have a2 := sub_ne_zero.2 h2
  have a3 := sub_ne_zero.2 h3
  have b1 := sub_ne_zero.2 h1.symm
  have b2 := sub_ne_zero.2 h2.symm
  have b3 := sub_ne_zero.2 h3.symm
  have e1 : lagrange3 tm t0 tp tm = (1, 0, 0) := by unfold lagrange3; simp [div_self, a1, a3]
  have e2 : lagrange3 tm t0 tp t0 = (0, 1, 0) := by unfold lagrange3; simp [div_self, b1, a2]
  have e3 : lagrange3 tm t0 tp tp = (0, 0, 1) := by unfold lagrange3; simp [div_self, b2, b3]
  unfold interpolate
  rw [e1, e2, e3]
  refine ⟨?_, ?_, ?_, ?_⟩
  · apply vec_ext <;> simp [scale]
  · apply vec_ext <;> simp [scale]
  · apply vec_ext <;> simp [scale]
  · intro t
    unfold lagrange3
    simp only
    have c1 : t0 - tm = -(tm - t0) := by ring
    have c2 : tp - tm = -(tm - tp) := by ring
    have c3 : tp - t0 = -(t0 - tp) := by ring
    rw [c1, c2, c3]
    field_simp
    ring

/-- C35: for motion quadratic in time the interpolation is exact at every time. -/
theorem C35_quadratic (tm t0 tp : ℝ) (h1 : tm ≠ t0) (h2 : t0 ≠ tp) (h3 : tm ≠ tp) (a b c : Vec) (f : ℝ → Vec)
    (hf : ∀ s, f s = ⟨a.x + b.x * s + c.x * s ^ 2, a.y + b.y * s + c.y * s ^ 2, a.z + b.z * s + c.z * s ^ 2⟩) (t : ℝ) :
    interpolate tm t0 tp (f tm) (f t0) (f tp) t = f t := by
  have a1 := sub_ne_zero.2 h1
  have a2 := sub_ne_zero.2 h2
  have a3 := sub_ne_zero.2 h3
  have key : ∀ p q r : ℝ, (t - t0) * (t - tp) / ((tm - t0) * (tm - tp)) * (p + q * tm + r * tm ^ 2) +
      (t - tm) * (t - tp) / ((t0 - tm) * (t0 - tp)) * (p + q * t0 + r * t0 ^ 2) +
      (t - tm) * (t - t0) / ((tp - tm) * (tp - t0)) * (p + q * tp + r * tp ^ 2) = p + q * t + r * t ^ 2 := by
    intro p q r
    have c1 : t0 - tm = -(tm - t0) := by ring
    have c2 : tp - tm = -(tm - tp) := by ring
    have c3 : tp - t0 = -(t0 - tp) := by ring
    rw [c1, c2, c3]
    field_simp
    ring
  unfold interpolate lagrange3 scale
  rw [hf, hf, hf, hf]
  apply vec_ext <;> simp only [add_x, add_y, add_z] <;> exact key _ _ _

/-! ## C36 -/

/-- The reference times are an interval apart and the stored vectors and pixels are those of the reference times. -/
def Consistent {V : Type} (vec : ℝ → V) (P : ℝ) (s : Pickets V) : Prop :=
  s.tm = s.t0 - P ∧ s.tp = s.t0 + P ∧ s.vm = vec s.tm ∧ s.v0 = vec s.t0 ∧ s.vp = vec s.tp ∧
  s.pixFrom = ((s.tm, s.t0, s.tp), (vec s.tm, vec s.t0, vec s.tp))

/-- The state after the visits at the given times, starting from a table made for time `t`. -/
noncomputable def afterVisits {V : Type} (vec : ℝ → V) (P t : ℝ) (visits : List ℝ) : Pickets V :=
  visits.foldl (updatePickets vec P) (initPickets vec P t)

section
variable {V : Type} (vec : ℝ → V) (P : ℝ)

theorem update_consistent (s : Pickets V) (t : ℝ) (h : Consistent vec P s) : Consistent vec P (updatePickets vec P s t) := by
  obtain ⟨h1, h2, h3, h4, h5, h6⟩ := h
  unfold updatePickets
  split_ifs with c1 c2 c3
  · simp only [computePixels, Consistent, h3, h4, h5, and_true, true_and]
    linarith
  · simp only [computePixels, Consistent, h3, h4, h5, and_true, true_and]
    linarith
  · simp only [computePixels, Consistent, and_true, true_and]
  · exact ⟨h1, h2, h3, h4, h5, h6⟩

theorem init_consistent (t : ℝ) : Consistent vec P (initPickets vec P t) := by
  simp [initPickets, computePixels, Consistent]

theorem foldl_consistent (l : List ℝ) (s : Pickets V) (h : Consistent vec P s) :
    Consistent vec P (l.foldl (updatePickets vec P) s) := by
  induction l generalizing s with
  | nil => exact h
  | cons t l ih => exact ih _ (update_consistent vec P s t h)

theorem pyRound_near (x : ℝ) : |x - pyRound x| ≤ 1 / 2 := by
  unfold pyRound
  have h1 := Int.floor_le x
  have h2 := Int.lt_floor_add_one x
  simp only
  split_ifs with c1 c2 c3
  · rw [abs_le]; constructor <;> linarith
  · push_cast; rw [abs_le]; constructor <;> linarith
  · rw [abs_le]; constructor <;> linarith
  · push_cast; rw [abs_le]; constructor <;> linarith

theorem update_near (s : Pickets V) (t : ℝ) (hP : 0 < P) (h : Consistent vec P s) (hok : ¬ (s.t0 - P < t ∧ t < s.t0 - P / 2)) :
    |t - (updatePickets vec P s t).t0| ≤ P / 2 := by
  obtain ⟨h1, h2, -⟩ := h
  unfold updatePickets
  split_ifs with c1 c2 c3
  · simp only [computePixels, h1]
    rw [h1] at c3
    rw [abs_le] at c2 ⊢
    constructor <;> linarith [c2.1, c2.2]
  · simp only [computePixels, h2]
    rw [h1] at c3
    rw [abs_le] at c2
    have hge : s.t0 - P / 2 ≤ t := by
      by_contra hlt
      exact hok ⟨by linarith, by linarith⟩
    rcases lt_abs.1 c1 with c | c
    · rw [abs_le]; constructor <;> linarith [c2.1, c2.2]
    · exfalso; linarith
  · simp only [computePixels]
    have := pyRound_near ((t - s.t0) / P)
    have e : t - (s.t0 + pyRound ((t - s.t0) / P) * P) = ((t - s.t0) / P - pyRound ((t - s.t0) / P)) * P := by field_simp; ring
    rw [e, abs_mul, abs_of_pos hP]
    nlinarith
  · linarith [not_lt.1 c1]
end

/-- C36 (any order): whatever visits came before, the reference times are equally spaced by the interval and the stored vectors
and pixels are those of the reference times. -/
theorem C36_consistent {V : Type} (vec : ℝ → V) (P t : ℝ) (visits : List ℝ) :
    let s := afterVisits vec P t visits
    s.tm = s.t0 - P ∧ s.tp = s.t0 + P ∧ s.vm = vec s.tm ∧ s.v0 = vec s.t0 ∧ s.vp = vec s.tp ∧
    s.pixFrom = ((s.tm, s.t0, s.tp), (vec s.tm, vec s.t0, vec s.tp)) :=
  foldl_consistent vec P visits _ (init_consistent vec P t)

/-- C36 (chronological visits): after any number of visits in order of time the last visit lies within half an interval of the
central reference time. -/
theorem C36_brackets {V : Type} (vec : ℝ → V) (P t : ℝ) (hP : 0 < P) (visits : List ℝ) (hsorted : (t :: visits).Pairwise (· ≤ ·)) :
    |(t :: visits).getLast (by simp) - (afterVisits vec P t visits).t0| ≤ P / 2 := by
  induction visits using List.reverseRecOn with
  | nil => simp [afterVisits, initPickets, computePixels]; linarith
  | append_singleton l x ih =>
    have hl : (t :: l).Pairwise (· ≤ ·) := by
      rw [← List.cons_append, List.pairwise_append] at hsorted; exact hsorted.1
    have ih := ih hl
    have hle : (t :: l).getLast (by simp) ≤ x := by
      rw [← List.cons_append, List.pairwise_append] at hsorted
      exact hsorted.2.2 _ (List.getLast_mem _) x (by simp)
    have e : afterVisits vec P t (l ++ [x]) = updatePickets vec P (afterVisits vec P t l) x := by
      unfold afterVisits; rw [List.foldl_append]; rfl
    rw [e]
    have e2 : (t :: (l ++ [x])).getLast (by simp) = x := by simp
    rw [e2]
    apply update_near vec P _ _ hP (foldl_consistent vec P l _ (init_consistent vec P t))
    rintro ⟨-, h⟩
    have := (abs_le.1 ih).1
    unfold afterVisits at *
    linarith

/-- C36 (any order, interpolation): the interpolation repeats the update; after the second update the visit lies within half an
interval of the central reference time whatever visits came before. -/
theorem C36_second_update {V : Type} (vec : ℝ → V) (P t x : ℝ) (hP : 0 < P) (visits : List ℝ) :
    |x - (updatePickets vec P (updatePickets vec P (afterVisits vec P t visits) x) x).t0| ≤ P / 2 := by
  set s := afterVisits vec P t visits with hs
  have hc : Consistent vec P s := foldl_consistent vec P visits _ (init_consistent vec P t)
  by_cases hok : s.t0 - P < x ∧ x < s.t0 - P / 2
  · apply update_near vec P _ _ hP (update_consistent vec P s x hc)
    obtain ⟨h1, h2⟩ := hok
    have : (updatePickets vec P s x).t0 = s.t0 + P := by
      unfold updatePickets
      have c1 : |x - s.t0| > 0.5 * P := by rw [gt_iff_lt, lt_abs]; right; norm_num; linarith
      have c2 : |x - s.t0| ≤ 1.5 * P := by rw [abs_le]; norm_num; constructor <;> linarith
      have c3 : ¬ x ≤ s.tm := by rw [hc.1]; linarith
      rw [if_pos c1, if_pos c2, if_neg c3]
      simp only [computePixels]
      exact hc.2.1
    rw [this]
    rintro ⟨h3, h4⟩
    linarith
  · have h1 := update_near vec P s x hP hc hok
    apply update_near vec P _ _ hP (update_consistent vec P s x hc)
    rintro ⟨-, h4⟩
    have := (abs_le.1 h1).1
    linarith

/-- C36 fails for visits out of order: a visit between half an interval and one interval before the central reference time moves
the table later, away from the visit, so the candidate objects are looked up for the wrong days. -/
theorem C36_backward_fails {V : Type} (vec : ℝ → V) (P t x : ℝ) (h1 : t - P < x) (h2 : x < t - P / 2) :
    (afterVisits vec P t [x]).t0 = t + P ∧ 3 / 2 * P < |x - (afterVisits vec P t [x]).t0| ∧ x < (afterVisits vec P t [x]).tm := by
  have hs : afterVisits vec P t [x] = updatePickets vec P (initPickets vec P t) x := rfl
  have ht0 : (initPickets vec P t).t0 = t := rfl
  have htm : (initPickets vec P t).tm = t - P := rfl
  have htp : (initPickets vec P t).tp = t + P := rfl
  have c1 : |x - t| > 0.5 * P := by rw [gt_iff_lt, lt_abs]; right; norm_num; linarith
  have c2 : |x - t| ≤ 1.5 * P := by rw [abs_le]; norm_num; constructor <;> linarith
  have c3 : ¬ x ≤ t - P := by linarith
  have e : (updatePickets vec P (initPickets vec P t) x).t0 = t + P ∧ (updatePickets vec P (initPickets vec P t) x).tm = t := by
    unfold updatePickets
    rw [ht0, htm, if_pos c1, if_pos c2, if_neg c3]
    simp only [computePixels, htp, and_self]
  rw [hs, e.1, e.2]
  refine ⟨rfl, ?_, by linarith⟩
  rw [lt_abs]; right; linarith

example : |10 - (afterVisits (V := ℝ) id 1 0 [1 / 4, 3, 10]).t0| ≤ 1 / 2 := by
  simpa using C36_brackets (V := ℝ) id 1 0 one_pos [1 / 4, 3, 10] (by simp; norm_num)

/-! ## C55: candidate objects -/

/-- C55: an object is a candidate for a field iff some pixel of the field is a neighbour of a pixel the object was sampled in. -/
theorem C55_candidates {Obj : Type} [DecidableEq Obj] (objs : List Obj) (neighbours : ℕ → List ℤ) (sampled : Obj → List ℕ)
    (field : List ℕ) (o : Obj) :
    o ∈ designations objs neighbours sampled field ↔
      o ∈ objs ∧ ∃ p ∈ field, ∃ q ∈ sampled o, (p : ℤ) ∈ neighbours q := by
  unfold designations pixelsOf
  simp only [List.mem_filter, List.any_eq_true, List.contains_iff_mem, List.mem_flatMap]

/-- C55: an object staying in one pixel is not a candidate for a field covering only that pixel, because the neighbours of a
pixel do not include it. -/
theorem C55_own_pixel_fails {Obj : Type} [DecidableEq Obj] (objs : List Obj) (neighbours : ℕ → List ℤ) (sampled : Obj → List ℕ)
    (p : ℕ) (o : Obj) (hn : (p : ℤ) ∉ neighbours p) (hs : ∀ q ∈ sampled o, q = p) : o ∉ designations objs neighbours sampled [p] := by
  rw [C55_candidates]
  rintro ⟨-, p', hp', q, hq, hmem⟩
  simp only [List.mem_singleton] at hp'
  rw [hp', hs q hq] at hmem
  exact hn hmem

example : "a" ∈ designations ["a", "b"] (fun p => [(p : ℤ) - 1, p + 1]) (fun o => if o = "a" then [5] else [9]) [6] := by
  rw [C55_candidates]; exact ⟨by simp, 6, by simp, 5, by simp, by simp⟩

example : "a" ∉ designations ["a", "b"] (fun p => [(p : ℤ) - 1, p + 1]) (fun o => if o = "a" then [5] else [9]) [5] :=
  C55_own_pixel_fails _ _ _ 5 "a" (by simp) (by simp)

end Sorcha.Ephem.PicketProps
