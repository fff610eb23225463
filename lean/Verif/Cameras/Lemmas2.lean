import Verif.Cameras.Check
import Mathlib.Data.List.Dedup

/-!
# From the numbers of the files to the detectors
-/

namespace Sorcha.Cameras
open Sorcha.Geom Sorcha.Geom.Spec

/-- A corner of a file as a point. -/
noncomputable def toPt (k : ℕ) (c : ℤ × ℤ) : Pt := ((c.1 : ℝ) / 10 ^ k, (c.2 : ℝ) / 10 ^ k)

theorem readCamera_cons (k : ℕ) (d : String × List (ℤ × ℤ)) (l : List (String × List (ℤ × ℤ))) :
    readCamera k (d :: l) = (d.2.map fun c => (d.1, toPt k c)) ++ readCamera k l := by
  simp [readCamera, toPt]

theorem names_read (k : ℕ) (l : List (String × List (ℤ × ℤ))) (hn : (l.map (·.1)).Nodup) (hne : ∀ d ∈ l, d.2 ≠ []) :
    ((readCamera k l).map (·.1)).reverse.dedup.reverse = l.map (·.1) := by
  induction l with
  | nil => simp [readCamera]
  | cons d l ih =>
    rw [readCamera_cons, List.map_append, List.reverse_append]
    rw [List.map_cons, List.nodup_cons] at hn
    have hmem : ∀ x ∈ (readCamera k l).map (·.1), x ∈ l.map (·.1) := by
      intro x hx
      obtain ⟨r, hr, rfl⟩ := List.mem_map.1 hx
      obtain ⟨e, he, hr⟩ := List.mem_flatMap.1 hr
      obtain ⟨c, -, rfl⟩ := List.mem_map.1 hr
      exact List.mem_map.2 ⟨e, he, rfl⟩
    have hrep : (d.2.map fun c => (d.1, toPt k c)).map (·.1) = List.replicate d.2.length d.1 := by
      rw [List.map_map]
      apply List.eq_replicate_iff.2
      refine ⟨by simp, ?_⟩
      intro b hb
      obtain ⟨c, -, rfl⟩ := List.mem_map.1 hb
      rfl
    rw [hrep, List.reverse_replicate, List.Disjoint.dedup_append, List.replicate_dedup, List.reverse_append, ih hn.2 (fun e he => hne e (List.mem_cons_of_mem _ he))]
    · simp
    · rw [Ne, List.length_eq_zero_iff]; exact hne d List.mem_cons_self
    · intro x hx hx'
      rw [List.mem_reverse] at hx
      rw [List.mem_replicate] at hx'
      exact hn.1 (hx'.2 ▸ hmem x hx)

theorem filter_read (k : ℕ) (l : List (String × List (ℤ × ℤ))) (hn : (l.map (·.1)).Nodup) (d : String × List (ℤ × ℤ)) (hd : d ∈ l) :
    ((readCamera k l).filter (·.1 = d.1)).map (·.2) = d.2.map (toPt k) := by
  induction l with
  | nil => simp at hd
  | cons e l ih =>
    rw [readCamera_cons, List.filter_append, List.map_append]
    rw [List.map_cons, List.nodup_cons] at hn
    rcases List.mem_cons.1 hd with rfl | hd'
    · have h1 : (d.2.map fun c => (d.1, toPt k c)).filter (·.1 = d.1) = d.2.map fun c => (d.1, toPt k c) := by
        rw [List.filter_eq_self]
        intro r hr
        obtain ⟨c, -, rfl⟩ := List.mem_map.1 hr
        simp
      have h2 : (readCamera k l).filter (·.1 = d.1) = [] := by
        rw [List.filter_eq_nil_iff]
        intro r hr
        obtain ⟨e, he, hr⟩ := List.mem_flatMap.1 hr
        obtain ⟨c, -, rfl⟩ := List.mem_map.1 hr
        simp only [decide_eq_true_eq]
        intro h
        exact hn.1 (h ▸ List.mem_map.2 ⟨e, he, rfl⟩)
      rw [h1, h2, List.map_map]; simp [Function.comp_def]
    · have h1 : (e.2.map fun c => (e.1, toPt k c)).filter (·.1 = d.1) = [] := by
        rw [List.filter_eq_nil_iff]
        intro r hr
        obtain ⟨c, -, rfl⟩ := List.mem_map.1 hr
        simp only [decide_eq_true_eq]
        intro h
        exact hn.1 (h ▸ List.mem_map.2 ⟨d, hd', rfl⟩)
      rw [h1, ih hn.2 hd']; rfl

/-- The detectors of a camera file, in the order of the file. -/
theorem footprint_read (k : ℕ) (l : List (String × List (ℤ × ℤ))) (hn : (l.map (·.1)).Nodup) (hne : ∀ d ∈ l, d.2 ≠ []) :
    footprint (readCamera k l) = l.map fun d => sortCorners (Detector.init (d.2.map (toPt k))) := by
  unfold footprint
  simp only
  rw [names_read k l hn hne, List.map_map]
  apply List.map_congr_left
  intro d hd
  simp only [Function.comp_apply]
  rw [filter_read k l hn d hd]

theorem prod_near (u v u' v' : ℝ) (hu : |u| ≤ 0.006) (hv : |v| ≤ 0.006) (hu' : |u' - u| ≤ 0.00008) (hv' : |v' - v| ≤ 0.00008) :
    |u' * v' - u * v| ≤ 0.000001 := by
  have e : u' * v' - u * v = (u' - u) * v' + u * (v' - v) := by ring
  have hv1 : |v'| ≤ 0.00608 := by
    have : v' = v + (v' - v) := by ring
    rw [this]
    calc _ ≤ |v| + |v' - v| := abs_add_le _ _
      _ ≤ _ := by linarith
  rw [e]
  calc _ ≤ |(u' - u) * v'| + |u * (v' - v)| := abs_add_le _ _
    _ = |u' - u| * |v'| + |u| * |v' - v| := by rw [abs_mul, abs_mul]
    _ ≤ 0.00008 * 0.00608 + 0.006 * 0.00008 := by gcongr
    _ ≤ _ := by norm_num

/-- Close to each other. -/
def Close (a b : Pt) : Prop := |b.1 - a.1| ≤ 0.006 ∧ |b.2 - a.2| ≤ 0.006

/-- Displaced by little. -/
def Near (a a' : Pt) : Prop := |a'.1 - a.1| ≤ 0.00004 ∧ |a'.2 - a.2| ≤ 0.00004

theorem diff_near {a b a' b' : ℝ} (ha : |a' - a| ≤ 0.00004) (hb : |b' - b| ≤ 0.00004) : |(b' - a') - (b - a)| ≤ 0.00008 := by
  have e : (b' - a') - (b - a) = (b' - b) - (a' - a) := by ring
  rw [e]
  calc _ ≤ |b' - b| + |a' - a| := abs_sub _ _
    _ ≤ _ := by linarith

theorem left_near {a b c a' b' c' : Pt} (hab : Close a b) (hac : Close a c) (ha : Near a a') (hb : Near b b') (hc : Near c c') :
    |left a' b' c' - left a b c| ≤ 0.000002 := by
  have h1 := prod_near _ _ _ _ hab.1 hac.2 (diff_near ha.1 hb.1) (diff_near ha.2 hc.2)
  have h2 := prod_near _ _ _ _ hab.2 hac.1 (diff_near ha.2 hb.2) (diff_near ha.1 hc.1)
  unfold left
  have e : (b'.1 - a'.1) * (c'.2 - a'.2) - (b'.2 - a'.2) * (c'.1 - a'.1) - ((b.1 - a.1) * (c.2 - a.2) - (b.2 - a.2) * (c.1 - a.1)) =
      ((b'.1 - a'.1) * (c'.2 - a'.2) - (b.1 - a.1) * (c.2 - a.2)) - ((b'.2 - a'.2) * (c'.1 - a'.1) - (b.2 - a.2) * (c.1 - a.1)) := by ring
  rw [e]
  exact le_trans (abs_sub _ _) (by linarith)

theorem Close.symm {a b : Pt} (h : Close a b) : Close b a := by
  unfold Close at *
  rw [abs_sub_comm, abs_sub_comm a.2]
  exact h

theorem close_of {a b : ℤ × ℤ} (h : closeOk a b = true) : Close (toPt 19 a) (toPt 19 b) := by
  simp only [closeOk, Bool.and_eq_true, decide_eq_true_eq] at h
  obtain ⟨⟨⟨h1, h2⟩, h3⟩, h4⟩ := h
  have h1' : ((-60000000000000000 : ℤ) : ℝ) ≤ ((b.1 - a.1 : ℤ) : ℝ) := Int.cast_le.2 h1
  have h2' : ((b.1 - a.1 : ℤ) : ℝ) ≤ ((60000000000000000 : ℤ) : ℝ) := Int.cast_le.2 h2
  have h3' : ((-60000000000000000 : ℤ) : ℝ) ≤ ((b.2 - a.2 : ℤ) : ℝ) := Int.cast_le.2 h3
  have h4' : ((b.2 - a.2 : ℤ) : ℝ) ≤ ((60000000000000000 : ℤ) : ℝ) := Int.cast_le.2 h4
  push_cast at h1' h2' h3' h4'
  unfold Close toPt
  simp only
  constructor <;> rw [abs_le] <;> constructor <;> norm_num <;> linarith

/-- A corner of the file in the camera. -/
theorem corner_of {a : ℤ × ℤ} (h : cornerOk a = true) :
    |(toPt 19 a).1| ≤ 0.031 ∧ |(toPt 19 a).2| ≤ 0.031 ∧ (toPt 19 a).1 ^ 2 + (toPt 19 a).2 ^ 2 ≤ 0.0358 ^ 2 := by
  simp only [cornerOk, Bool.and_eq_true, decide_eq_true_eq] at h
  obtain ⟨⟨⟨⟨h1, h2⟩, h3⟩, h4⟩, h5⟩ := h
  have h1' : ((-310000000000000000 : ℤ) : ℝ) ≤ (a.1 : ℝ) := Int.cast_le.2 h1
  have h2' : (a.1 : ℝ) ≤ ((310000000000000000 : ℤ) : ℝ) := Int.cast_le.2 h2
  have h3' : ((-310000000000000000 : ℤ) : ℝ) ≤ (a.2 : ℝ) := Int.cast_le.2 h3
  have h4' : (a.2 : ℝ) ≤ ((310000000000000000 : ℤ) : ℝ) := Int.cast_le.2 h4
  have h5' : ((a.1 * a.1 + a.2 * a.2 : ℤ) : ℝ) ≤ ((358000000000000000 * 358000000000000000 : ℤ) : ℝ) := Int.cast_le.2 h5
  push_cast at h1' h2' h3' h4' h5'
  unfold toPt
  simp only
  refine ⟨?_, ?_, ?_⟩
  · rw [abs_le]; constructor <;> norm_num <;> linarith
  · rw [abs_le]; constructor <;> norm_num <;> linarith
  · have e : ((a.1 : ℝ) / 10 ^ 19) ^ 2 + ((a.2 : ℝ) / 10 ^ 19) ^ 2 = ((a.1 : ℝ) * a.1 + a.2 * a.2) / 10 ^ 38 := by ring
    rw [e, div_le_iff₀ (by positivity)]
    norm_num at h5' ⊢
    linarith

theorem near_of {a : ℤ × ℤ} (h : cornerOk a = true) : Near (toPt 19 a) (projectCorner (toPt 19 a)) :=
  proj_near _ (corner_of h).1 (corner_of h).2.1

theorem left_of {a b c : ℤ × ℤ} (h : 1500000000000000000000000000000000 ≤ leftZ a b c) :
    0.000015 ≤ left (toPt 19 a) (toPt 19 b) (toPt 19 c) := by
  have h' : ((1500000000000000000000000000000000 : ℤ) : ℝ) ≤ ((leftZ a b c : ℤ) : ℝ) := Int.cast_le.2 h
  unfold leftZ at h'
  push_cast at h'
  unfold left toPt
  simp only
  have e : ((b.1 : ℝ) / 10 ^ 19 - a.1 / 10 ^ 19) * (c.2 / 10 ^ 19 - a.2 / 10 ^ 19) - (b.2 / 10 ^ 19 - a.2 / 10 ^ 19) * (c.1 / 10 ^ 19 - a.1 / 10 ^ 19) =
      (((b.1 : ℝ) - a.1) * (c.2 - a.2) - (b.2 - a.2) * (c.1 - a.1)) / 10 ^ 38 := by ring
  rw [e, le_div_iff₀ (by positivity)]
  norm_num at h' ⊢
  linarith

/-- Every detector of the LSST file has four corners, which stay in counter-clockwise order after the projection. -/
theorem lsst_ccw (d : String × List (ℤ × ℤ)) (hd : d ∈ lsstFile) : ∃ a b c e : ℤ × ℤ, d.2 = [a, b, c, e] ∧
    (∀ v ∈ d.2, cornerOk v = true) ∧
    Ccw 0.00001 (projectCorner (toPt 19 a)) (projectCorner (toPt 19 b)) (projectCorner (toPt 19 c)) (projectCorner (toPt 19 e)) := by
  have h := List.all_eq_true.1 detectors_ok d hd
  obtain ⟨n, l⟩ := d
  match l, h with
  | [a, b, c, e], h =>
    simp only [detectorOk, Bool.and_eq_true, decide_eq_true_eq] at h
    obtain ⟨⟨⟨⟨⟨⟨⟨⟨⟨⟨⟨⟨⟨ca, cb⟩, cc⟩, ce⟩, kab⟩, kac⟩, kae⟩, kbc⟩, kbe⟩, kce⟩, l1⟩, l2⟩, l3⟩, l4⟩ := h
    refine ⟨a, b, c, e, rfl, ?_, ?_⟩
    · intro v hv
      simp only [List.mem_cons, List.not_mem_nil, or_false] at hv
      rcases hv with rfl | rfl | rfl | rfl <;> assumption
    · have n1 := left_near (close_of kab) (close_of kac) (near_of ca) (near_of cb) (near_of cc)
      have n2 := left_near (close_of kbc) (close_of kbe) (near_of cb) (near_of cc) (near_of ce)
      have n3 := left_near (close_of kce) (close_of kac).symm (near_of cc) (near_of ce) (near_of ca)
      have n4 := left_near (close_of kae).symm (close_of kbe).symm (near_of ce) (near_of ca) (near_of cb)
      have m1 := left_of l1
      have m2 := left_of l2
      have m3 := left_of l3
      have m4 := left_of l4
      rw [abs_le] at n1 n2 n3 n4
      refine ⟨?_, ?_, ?_, ?_⟩ <;> linarith

/-- A point accepted with a tolerance `ε` is hardly further out, in any direction, than the corners. -/
theorem accepted_bound (pts : List Pt) {a b c d : Pt} (hl : pts.map projectCorner = [a, b, c, d]) {m : ℝ} (hm : 0 < m) (h : Ccw m a b c d)
    (ε : ℝ) (hε : 0 ≤ ε) (t : Option ℝ) (p : Pt) (hon : isOn (sortCorners (Detector.init pts)) ε t p) (A B M : ℝ)
    (hM : ∀ v ∈ [a, b, c, d], A * v.1 + B * v.2 ≤ M) :
    A * p.1 + B * p.2 ≤ M + 2 * ε / m * (M - (A * ((a.1 + b.1 + c.1 + d.1) / 4) + B * ((a.2 + b.2 + c.2 + d.2) / 4))) := by
  have hcp : ConvexPosition (pts.map projectCorner) := by rw [hl]; exact ccw_convex hm h
  have hon' : isOn (sortCorners (Detector.init pts)) ε none p := ⟨hon.1, hon.2.1, trivial⟩
  have hsides := (Props.C31_tolerance pts hcp ε hε p).2 hon'
  rw [hl] at hsides
  obtain ⟨s1, s2, s3, s4⟩ := ccw_sides hm h
  have e1 := hsides _ _ s1
  have e2 := hsides _ _ s2
  have e3 := hsides _ _ s3
  have e4 := hsides _ _ s4
  obtain ⟨h1, h2, h3, h4⟩ := id h
  set g : Pt := ((a.1 + b.1 + c.1 + d.1) / 4, (a.2 + b.2 + c.2 + d.2) / 4) with hg
  have g1 : m / 2 ≤ left a b g := by simp only [hg]; unfold left at *; nlinarith
  have g2 : m / 2 ≤ left b c g := by simp only [hg]; unfold left at *; nlinarith
  have g3 : m / 2 ≤ left c d g := by simp only [hg]; unfold left at *; nlinarith
  have g4 : m / 2 ≤ left d a g := by simp only [hg]; unfold left at *; nlinarith
  -- a point between `p` and the middle that is inside
  set q : Pt := (m / 2 / (ε + m / 2)) • p + (ε / (ε + m / 2)) • g with hq
  have hden : 0 < ε + m / 2 := by linarith
  have hqs : ∀ u v : Pt, -ε ≤ left u v p → m / 2 ≤ left u v g → 0 ≤ left u v q := by
    intro u v hp hgm
    have : left u v q = (m / 2 * left u v p + ε * left u v g) / (ε + m / 2) := by
      rw [hq]
      unfold left
      simp only [Prod.fst_add, Prod.snd_add, Prod.smul_fst, Prod.smul_snd, smul_eq_mul]
      field_simp
      ring
    rw [this]
    apply div_nonneg _ hden.le
    nlinarith
  have hreg : q ∈ region (pts.map projectCorner) := by
    apply region_of_sides pts hcp
    rw [hl]
    intro u v hs
    rcases ccw_side_cases hm h hs with ⟨rfl, rfl⟩ | ⟨rfl, rfl⟩ | ⟨rfl, rfl⟩ | ⟨rfl, rfl⟩
    · exact hqs _ _ e1 g1
    · exact hqs _ _ e2 g2
    · exact hqs _ _ e3 g3
    · exact hqs _ _ e4 g4
  have hqM : A * q.1 + B * q.2 ≤ M := by
    have hconv : Convex ℝ {x : Pt | A * x.1 + B * x.2 ≤ M} := by
      intro x hx y hy s t hs ht hst
      simp only [Set.mem_ofPred_eq, Prod.fst_add, Prod.snd_add, Prod.smul_fst, Prod.smul_snd, smul_eq_mul] at *
      have : t = 1 - s := by linarith
      subst this
      nlinarith
    have hsub : region (pts.map projectCorner) ⊆ {x : Pt | A * x.1 + B * x.2 ≤ M} := by
      rw [hl]
      exact convexHull_min (fun v hv => hM v hv) hconv
    exact hsub hreg
  have hqe : A * q.1 + B * q.2 = (m / 2 * (A * p.1 + B * p.2) + ε * (A * g.1 + B * g.2)) / (ε + m / 2) := by
    rw [hq]
    simp only [Prod.fst_add, Prod.snd_add, Prod.smul_fst, Prod.smul_snd, smul_eq_mul]
    field_simp
    ring
  rw [hqe, div_le_iff₀ hden] at hqM
  have hg' : A * ((a.1 + b.1 + c.1 + d.1) / 4) + B * ((a.2 + b.2 + c.2 + d.2) / 4) = A * g.1 + B * g.2 := rfl
  rw [hg']
  have hmul : m / 2 * (A * p.1 + B * p.2) ≤ m / 2 * (M + 2 * ε / m * (M - (A * g.1 + B * g.2))) := by
    have : m / 2 * (M + 2 * ε / m * (M - (A * g.1 + B * g.2))) = m / 2 * M + ε * (M - (A * g.1 + B * g.2)) := by field_simp
    rw [this]
    nlinarith
  exact le_of_mul_le_mul_left hmul (by linarith)

end Sorcha.Cameras
