import Verif.Cameras.Model
import Verif.Geom.Props

/-!
# Lemmas on the built-in cameras
-/

namespace Sorcha.Cameras
open Sorcha.Geom Sorcha.Geom.Spec

/-- Near the centre of the camera the projection of a corner moves it by less than `4e-5`. -/
theorem proj_near (c : Pt) (h1 : |c.1| ≤ 0.031) (h2 : |c.2| ≤ 0.031) :
    |(projectCorner c).1 - c.1| ≤ 0.00004 ∧ |(projectCorner c).2 - c.2| ≤ 0.00004 := by
  obtain ⟨x, y⟩ := c
  simp only at h1 h2
  unfold projectCorner
  simp only
  have cx := Real.cos_bound (x := x) (by linarith)
  have cy := Real.cos_bound (x := y) (by linarith)
  have sx := Real.sin_bound (x := x) (by linarith)
  have sy := Real.sin_bound (x := y) (by linarith)
  have x4 : |x| ^ 4 ≤ 0.000001 := by
    calc |x| ^ 4 ≤ (0.031 : ℝ) ^ 4 := by gcongr
      _ ≤ _ := by norm_num
  have y4 : |y| ^ 4 ≤ 0.000001 := by
    calc |y| ^ 4 ≤ (0.031 : ℝ) ^ 4 := by gcongr
      _ ≤ _ := by norm_num
  have x5 : |x| ^ 5 ≤ 0.000001 := by
    calc |x| ^ 5 ≤ (0.031 : ℝ) ^ 5 := by gcongr
      _ ≤ _ := by norm_num
  have y5 : |y| ^ 5 ≤ 0.000001 := by
    calc |y| ^ 5 ≤ (0.031 : ℝ) ^ 5 := by gcongr
      _ ≤ _ := by norm_num
  rw [abs_le] at cx cy sx sy h1 h2
  have hcx1 : Real.cos x ≤ 1 := Real.cos_le_one x
  have hcy1 : Real.cos y ≤ 1 := Real.cos_le_one y
  have hx2 : x ^ 2 ≤ 0.000961 := by nlinarith
  have hy2 : y ^ 2 ≤ 0.000961 := by nlinarith
  have hcx : 0.9995 ≤ Real.cos x := by linarith
  have hcy : 0.9995 ≤ Real.cos y := by linarith
  have x3u : x ^ 3 ≤ 0.0000298 := by
    nlinarith [mul_nonneg (sub_nonneg.2 h1.2) (sq_nonneg x)]
  have x3l : -0.0000298 ≤ x ^ 3 := by
    nlinarith [mul_nonneg (by linarith : 0 ≤ x + 0.031) (sq_nonneg x)]
  have y3u : y ^ 3 ≤ 0.0000298 := by
    nlinarith [mul_nonneg (sub_nonneg.2 h2.2) (sq_nonneg y)]
  have y3l : -0.0000298 ≤ y ^ 3 := by
    nlinarith [mul_nonneg (by linarith : 0 ≤ y + 0.031) (sq_nonneg y)]
  constructor
  · have e : Real.sin x * Real.cos y / (Real.cos x * Real.cos y) - x = (Real.sin x - x * Real.cos x) / Real.cos x := by
      field_simp
    rw [e, abs_div, abs_of_pos (by linarith : 0 < Real.cos x), div_le_iff₀ (by linarith), abs_le]
    have hxc : |x * (Real.cos x - (1 - x ^ 2 / 2))| ≤ 0.031 * 0.0000001 := by
      rw [abs_mul]
      exact mul_le_mul (by rw [abs_le]; exact ⟨by linarith, by linarith⟩) (by rw [abs_le]; constructor <;> linarith) (abs_nonneg _) (by norm_num)
    rw [abs_le] at hxc
    have e2 : x * (Real.cos x - (1 - x ^ 2 / 2)) = x * Real.cos x - x + x ^ 3 / 2 := by ring
    rw [e2] at hxc
    constructor <;> linarith
  · have e : Real.sin y / (Real.cos x * Real.cos y) - y = (Real.sin y - y * (Real.cos x * Real.cos y)) / (Real.cos x * Real.cos y) := by
      field_simp
    have hcx' : 0.999519 ≤ Real.cos x := by linarith
    have hcy' : 0.999519 ≤ Real.cos y := by linarith
    have hp2 : 1 - 0.000962 ≤ Real.cos x * Real.cos y := by
      have := mul_le_mul hcx' hcy' (by norm_num) (by linarith)
      norm_num at this ⊢
      linarith
    have hp1 : Real.cos x * Real.cos y ≤ 1 := mul_le_one₀ hcx1 (by linarith) hcy1
    rw [e, abs_div, abs_of_pos (by linarith : 0 < Real.cos x * Real.cos y), div_le_iff₀ (by linarith), abs_le]
    have hyc : |y * (1 - Real.cos x * Real.cos y)| ≤ 0.031 * 0.000962 := by
      rw [abs_mul]
      exact mul_le_mul (by rw [abs_le]; exact ⟨by linarith, by linarith⟩) (by rw [abs_le]; constructor <;> linarith) (abs_nonneg _) (by norm_num)
    rw [abs_le] at hyc
    have e2 : y * (1 - Real.cos x * Real.cos y) = y - y * (Real.cos x * Real.cos y) := by ring
    rw [e2] at hyc
    constructor <;> linarith

/-- Four points passed counter-clockwise, with room `m` in every corner. -/
def Ccw (m : ℝ) (a b c d : Pt) : Prop := m ≤ left a b c ∧ m ≤ left b c d ∧ m ≤ left c d a ∧ m ≤ left d a b

theorem convex_left (a b : Pt) : Convex ℝ {q : Pt | 0 ≤ left a b q} := by
  intro x hx y hy s t hs ht hst
  simp only [Set.mem_ofPred_eq] at *
  have : left a b (s • x + t • y) = s * left a b x + t * left a b y := by
    unfold left
    simp only [Prod.fst_add, Prod.snd_add, Prod.smul_fst, Prod.smul_snd, smul_eq_mul]
    have : t = 1 - s := by linarith
    subst this
    ring
  rw [this]
  positivity

/-- Four points passed counter-clockwise are the corners of a convex quadrilateral. -/
theorem ccw_convex {m : ℝ} (hm : 0 < m) {a b c d : Pt} (h : Ccw m a b c d) : ConvexPosition [a, b, c, d] := by
  obtain ⟨h1, h2, h3, h4⟩ := h
  have key : ∀ v p n o : Pt, 0 < left p v n → 0 ≤ left n o p → v ∉ convexHull ℝ {q | q = p ∨ q = n ∨ q = o} := by
    intro v p n o hv ho hmem
    have hsub : convexHull ℝ {q : Pt | q = p ∨ q = n ∨ q = o} ⊆ {q | 0 ≤ left p n q} := by
      apply convexHull_min _ (convex_left p n)
      rintro q (rfl | rfl | rfl) <;> simp only [Set.mem_ofPred_eq] <;> unfold left at * <;> nlinarith
    have := hsub hmem
    simp only [Set.mem_ofPred_eq] at this
    unfold left at *
    nlinarith
  refine ⟨by simp, ?_, ?_⟩
  · simp only [List.nodup_cons, List.mem_cons, List.not_mem_nil, or_false, not_or, List.nodup_nil, and_true, not_false_eq_true]
    refine ⟨⟨?_, ?_, ?_⟩, ⟨?_, ?_⟩, ?_⟩ <;> rintro rfl <;> unfold left at * <;> nlinarith
  · intro v hv
    simp only [List.mem_cons, List.not_mem_nil, or_false] at hv
    intro hmem
    rcases hv with rfl | rfl | rfl | rfl
    · refine key v d b c (by linarith) (by linarith) (convexHull_mono ?_ hmem)
      rintro q ⟨hq, hne⟩; simp at hq; simp; tauto
    · refine key v a c d (by linarith) (by linarith) (convexHull_mono ?_ hmem)
      rintro q ⟨hq, hne⟩; simp at hq; simp; tauto
    · refine key v b d a (by linarith) (by linarith) (convexHull_mono ?_ hmem)
      rintro q ⟨hq, hne⟩; simp at hq; simp; tauto
    · refine key v c a b (by linarith) (by linarith) (convexHull_mono ?_ hmem)
      rintro q ⟨hq, hne⟩; simp at hq; simp; tauto

/-- The sides of such a quadrilateral. -/
theorem ccw_sides {m : ℝ} (hm : 0 < m) {a b c d : Pt} (h : Ccw m a b c d) :
    Side [a, b, c, d] a b ∧ Side [a, b, c, d] b c ∧ Side [a, b, c, d] c d ∧ Side [a, b, c, d] d a := by
  have hn := (ccw_convex hm h).2.1
  obtain ⟨h1, h2, h3, h4⟩ := h
  simp only [List.nodup_cons, List.mem_cons, List.not_mem_nil, or_false, not_or, List.nodup_nil, and_true, not_false_eq_true] at hn
  refine ⟨⟨by simp, by simp, hn.1.1, ?_⟩, ⟨by simp, by simp, hn.2.1.1, ?_⟩, ⟨by simp, by simp, hn.2.2, ?_⟩, ⟨by simp, by simp, fun e => hn.1.2.2 e.symm, ?_⟩⟩
  all_goals
    intro v hv
    simp only [List.mem_cons, List.not_mem_nil, or_false] at hv
    rcases hv with rfl | rfl | rfl | rfl <;> unfold left at * <;> nlinarith

/-- A side of such a quadrilateral is one of the four. -/
theorem ccw_side_cases {m : ℝ} (hm : 0 < m) {a b c d : Pt} (h : Ccw m a b c d) {u v : Pt} (hs : Side [a, b, c, d] u v) :
    (u = a ∧ v = b) ∨ (u = b ∧ v = c) ∨ (u = c ∧ v = d) ∨ (u = d ∧ v = a) := by
  obtain ⟨h1, h2, h3, h4⟩ := h
  obtain ⟨hu, hv, hne, hall⟩ := hs
  have ha := hall a (by simp)
  have hb := hall b (by simp)
  have hc := hall c (by simp)
  have hd := hall d (by simp)
  simp only [List.mem_cons, List.not_mem_nil, or_false] at hu hv
  rcases hu with rfl | rfl | rfl | rfl <;> rcases hv with rfl | rfl | rfl | rfl <;> simp_all <;> exfalso <;>
    unfold left at * <;> nlinarith

/-- A point to the left of all sides is in the polygon. -/
theorem region_of_sides (pts : List Pt) (h : ConvexPosition (pts.map projectCorner)) (p : Pt)
    (hs : ∀ a b, Side (pts.map projectCorner) a b → 0 ≤ left a b p) : p ∈ region (pts.map projectCorner) := by
  obtain ⟨hp, hc, hes⟩ := Props.sorted_facts pts h
  rw [← Props.region_perm hp]
  refine inside_hull _ ?_ p ?_
  · obtain ⟨v, hv⟩ := List.exists_mem_of_length_pos (l := pts.map projectCorner) (by have := h.1; omega)
    obtain ⟨b, hb⟩ := Props.es_first (hp.mem_iff.2 hv)
    refine ⟨_, hb, (sortCorners (Detector.init pts)).center, ?_, by rw [hc]; exact (hes _ hb).2.2⟩
    rw [hc]; exact fun e he => (hes e he).2.2.le
  · intro e he
    exact hs _ _ ((Props.es_iff_side pts h e.2 e.1).1 he)

end Sorcha.Cameras
