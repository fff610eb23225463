import Verif.Cameras.Props
import Mathlib.Analysis.Convex.Topology
import Mathlib.Topology.Connected.Clopen

/-!
# With an edge threshold the tolerance of the test plays no role
-/

namespace Sorcha.Cameras
open Sorcha.Geom Sorcha.Geom.Spec

theorem left_continuous (a b : Pt) : Continuous fun x : Pt => left a b x := by
  unfold left
  fun_prop

/-- A point of the line through two points is between them if it is on the inner side of both neighbouring sides. -/
theorem between {a b c d x : Pt} (h1 : 0 < left a b c) (h4 : 0 < left d a b) (h0 : left a b x = 0) (hb : 0 ≤ left b c x) (ha : 0 ≤ left d a x) :
    x ∈ segment ℝ a b := by
  have hab : a ≠ b := by rintro rfl; unfold left at h1; simp at h1
  obtain ⟨k, k1, k2⟩ : ∃ k : ℝ, x.1 - a.1 = k * (b.1 - a.1) ∧ x.2 - a.2 = k * (b.2 - a.2) := by
    unfold left at h0
    by_cases hx : b.1 - a.1 = 0
    · have hy : b.2 - a.2 ≠ 0 := fun hy => hab (Prod.ext (by linarith) (by linarith))
      refine ⟨(x.2 - a.2) / (b.2 - a.2), ?_, by field_simp⟩
      rw [hx, mul_zero]
      rw [hx, zero_mul, zero_sub, neg_eq_zero] at h0
      rcases mul_eq_zero.1 h0 with h | h
      · exact absurd h hy
      · exact h
    · refine ⟨(x.1 - a.1) / (b.1 - a.1), by field_simp, ?_⟩
      field_simp
      linear_combination h0
  have e1 : left b c x = (1 - k) * left a b c := by
    unfold left
    have x1 : x.1 = a.1 + k * (b.1 - a.1) := by linarith
    have x2 : x.2 = a.2 + k * (b.2 - a.2) := by linarith
    rw [x1, x2]; ring
  have e2 : left d a x = k * left d a b := by
    unfold left
    have x1 : x.1 = a.1 + k * (b.1 - a.1) := by linarith
    have x2 : x.2 = a.2 + k * (b.2 - a.2) := by linarith
    rw [x1, x2]; ring
  have hk1 : k ≤ 1 := by
    rw [e1] at hb
    by_contra h
    push Not at h
    nlinarith
  have hk0 : 0 ≤ k := by
    rw [e2] at ha
    by_contra h
    push Not at h
    nlinarith
  refine ⟨1 - k, k, by linarith, hk0, by ring, ?_⟩
  apply Prod.ext <;> simp only [Prod.fst_add, Prod.snd_add, Prod.smul_fst, Prod.smul_snd, smul_eq_mul] <;> linarith

theorem dist_segment {p q x : Pt} (hx : x ∈ segment ℝ q p) : Spec.dist p x ≤ Spec.dist p q := by
  obtain ⟨s, t, hs, ht, hst, rfl⟩ := hx
  unfold Spec.dist
  apply Real.sqrt_le_sqrt
  have : t = 1 - s := by linarith
  subst this
  simp only [Prod.fst_add, Prod.snd_add, Prod.smul_fst, Prod.smul_snd, smul_eq_mul]
  have e : (p.1 - (s * q.1 + (1 - s) * p.1)) ^ 2 + (p.2 - (s * q.2 + (1 - s) * p.2)) ^ 2 = s ^ 2 * ((p.1 - q.1) ^ 2 + (p.2 - q.2) ^ 2) := by ring
  rw [e]
  have : s ^ 2 ≤ 1 := by nlinarith
  nlinarith [sq_nonneg (p.1 - q.1), sq_nonneg (p.2 - q.2)]

/-- A point that is not in the polygon, but closer than `δ` to a point of it, is closer than `δ` to one of the sides. -/
theorem crossing (pts : List Pt) {a b c d : Pt} (hl : pts.map projectCorner = [a, b, c, d]) {m : ℝ} (hm : 0 < m) (h : Ccw m a b c d)
    (p q : Pt) (hq : q ∈ region (pts.map projectCorner)) (hp : p ∉ region (pts.map projectCorner)) :
    ∃ u v, Side (pts.map projectCorner) u v ∧ ∃ x ∈ segment ℝ u v, Spec.dist p x ≤ Spec.dist p q := by
  have hcp : ConvexPosition (pts.map projectCorner) := by rw [hl]; exact ccw_convex hm h
  have hclosed : IsClosed (region (pts.map projectCorner)) := by
    unfold region
    exact ((List.finite_toSet _).isCompact_convexHull ℝ).isClosed
  have hpre : IsPreconnected (segment ℝ q p) := (convex_segment q p).isPreconnected
  obtain ⟨x, hx, hfr⟩ : ∃ x ∈ segment ℝ q p, x ∈ frontier (region (pts.map projectCorner)) := by
    by_contra hno
    push Not at hno
    have hint : ∀ y ∈ segment ℝ q p, y ∈ region (pts.map projectCorner) → y ∈ interior (region (pts.map projectCorner)) := by
      intro y hy hyr
      by_contra hyi
      exact hno y hy ⟨subset_closure hyr, hyi⟩
    obtain ⟨y, -, y1, y2⟩ := hpre (interior (region (pts.map projectCorner))) (region (pts.map projectCorner))ᶜ isOpen_interior hclosed.isOpen_compl
      (fun y hy => by
        by_cases hyr : y ∈ region (pts.map projectCorner)
        · exact .inl (hint y hy hyr)
        · exact .inr hyr)
      ⟨q, left_mem_segment ℝ q p, hint q (left_mem_segment ℝ q p) hq⟩ ⟨p, right_mem_segment ℝ q p, hp⟩
    exact y2 (interior_subset y1)
  have hxr : x ∈ region (pts.map projectCorner) := hclosed.frontier_subset hfr
  obtain ⟨s1, s2, s3, s4⟩ := ccw_sides hm h
  have hin : ∀ u v, Side (pts.map projectCorner) u v → 0 ≤ left u v x := by
    intro u v hs
    have hsub : region (pts.map projectCorner) ⊆ {y | 0 ≤ left u v y} := convexHull_min (fun w hw => hs.2.2.2 w hw) (convex_left u v)
    exact hsub hxr
  have hex : ∃ u v, Side (pts.map projectCorner) u v ∧ left u v x = 0 := by
    by_contra hno
    push Not at hno
    apply hfr.2
    rw [hl] at hin hno
    refine mem_interior.2 ⟨{y | 0 < left a b y} ∩ {y | 0 < left b c y} ∩ {y | 0 < left c d y} ∩ {y | 0 < left d a y}, ?_, ?_, ?_⟩
    · rintro y ⟨⟨⟨y1, y2⟩, y3⟩, y4⟩
      apply region_of_sides pts hcp
      rw [hl]
      intro u v hs
      rcases ccw_side_cases hm h hs with ⟨rfl, rfl⟩ | ⟨rfl, rfl⟩ | ⟨rfl, rfl⟩ | ⟨rfl, rfl⟩
      · exact le_of_lt y1
      · exact le_of_lt y2
      · exact le_of_lt y3
      · exact le_of_lt y4
    · exact (((isOpen_lt continuous_const (left_continuous a b)).inter (isOpen_lt continuous_const (left_continuous b c))).inter
        (isOpen_lt continuous_const (left_continuous c d))).inter (isOpen_lt continuous_const (left_continuous d a))
    · exact ⟨⟨⟨lt_of_le_of_ne (hin _ _ s1) (Ne.symm (hno _ _ s1)), lt_of_le_of_ne (hin _ _ s2) (Ne.symm (hno _ _ s2))⟩,
        lt_of_le_of_ne (hin _ _ s3) (Ne.symm (hno _ _ s3))⟩, lt_of_le_of_ne (hin _ _ s4) (Ne.symm (hno _ _ s4))⟩
  obtain ⟨u, v, hs, h0⟩ := hex
  refine ⟨u, v, hs, x, ?_, dist_segment hx⟩
  obtain ⟨h1, h2, h3, h4⟩ := h
  rw [hl] at hin hs
  have hcc : Ccw m a b c d := ⟨h1, h2, h3, h4⟩
  rcases ccw_side_cases hm hcc hs with ⟨rfl, rfl⟩ | ⟨rfl, rfl⟩ | ⟨rfl, rfl⟩ | ⟨rfl, rfl⟩
  · exact between (by linarith) (by linarith) h0 (hin _ _ s2) (hin _ _ s4)
  · exact between (by linarith) (by linarith) h0 (hin _ _ s3) (hin _ _ s1)
  · exact between (by linarith) (by linarith) h0 (hin _ _ s4) (hin _ _ s2)
  · exact between (by linarith) (by linarith) h0 (hin _ _ s1) (hin _ _ s3)

/-- A point accepted with a tolerance `ε` is close to a point of the polygon. -/
theorem accepted_close (pts : List Pt) {a b c d : Pt} (hl : pts.map projectCorner = [a, b, c, d]) {m : ℝ} (hm : 0 < m) (h : Ccw m a b c d)
    (ε : ℝ) (hε : 0 ≤ ε) (t : Option ℝ) (p : Pt) (hon : isOn (sortCorners (Detector.init pts)) ε t p) :
    ∃ q ∈ region (pts.map projectCorner), Spec.dist p q = ε / (ε + m / 2) * Spec.dist p ((a.1 + b.1 + c.1 + d.1) / 4, (a.2 + b.2 + c.2 + d.2) / 4) := by
  have hcp : ConvexPosition (pts.map projectCorner) := by rw [hl]; exact ccw_convex hm h
  have hon' : isOn (sortCorners (Detector.init pts)) ε none p := ⟨hon.1, hon.2.1, trivial⟩
  have hsides := (Props.C31_tolerance pts hcp ε hε p).2 hon'
  rw [hl] at hsides
  obtain ⟨s1, s2, s3, s4⟩ := ccw_sides hm h
  have e1 := hsides _ _ s1
  have e2 := hsides _ _ s2
  have e3 := hsides _ _ s3
  have e4 := hsides _ _ s4
  obtain ⟨h1, h2, h3, h4⟩ := id h
  set g : Pt := ((a.1 + b.1 + c.1 + d.1) / 4, (a.2 + b.2 + c.2 + d.2) / 4) with hg
  have g1 : m / 2 ≤ left a b g := by simp only [hg]; unfold left at *; nlinarith
  have g2 : m / 2 ≤ left b c g := by simp only [hg]; unfold left at *; nlinarith
  have g3 : m / 2 ≤ left c d g := by simp only [hg]; unfold left at *; nlinarith
  have g4 : m / 2 ≤ left d a g := by simp only [hg]; unfold left at *; nlinarith
  set q : Pt := (m / 2 / (ε + m / 2)) • p + (ε / (ε + m / 2)) • g with hq
  have hden : 0 < ε + m / 2 := by linarith
  have hqs : ∀ u v : Pt, -ε ≤ left u v p → m / 2 ≤ left u v g → 0 ≤ left u v q := by
    intro u v hp hgm
    have : left u v q = (m / 2 * left u v p + ε * left u v g) / (ε + m / 2) := by
      rw [hq]
      unfold left
      simp only [Prod.fst_add, Prod.snd_add, Prod.smul_fst, Prod.smul_snd, smul_eq_mul]
      field_simp
      ring
    rw [this]
    apply div_nonneg _ hden.le
    nlinarith
  refine ⟨q, ?_, ?_⟩
  · apply region_of_sides pts hcp
    rw [hl]
    intro u v hs
    rcases ccw_side_cases hm h hs with ⟨rfl, rfl⟩ | ⟨rfl, rfl⟩ | ⟨rfl, rfl⟩ | ⟨rfl, rfl⟩
    · exact hqs _ _ e1 g1
    · exact hqs _ _ e2 g2
    · exact hqs _ _ e3 g3
    · exact hqs _ _ e4 g4
  · have hs0 : 0 ≤ ε / (ε + m / 2) := div_nonneg hε hden.le
    unfold Spec.dist
    have hsq : ε / (ε + m / 2) * √((p.1 - g.1) ^ 2 + (p.2 - g.2) ^ 2) = √((ε / (ε + m / 2)) ^ 2 * ((p.1 - g.1) ^ 2 + (p.2 - g.2) ^ 2)) := by
      rw [Real.sqrt_mul (sq_nonneg _), Real.sqrt_sq hs0]
    rw [hsq]
    congr 1
    rw [hq]
    simp only [Prod.fst_add, Prod.snd_add, Prod.smul_fst, Prod.smul_snd, smul_eq_mul]
    field_simp
    ring

namespace Props

open Sorcha.Geom.Props

theorem lsst_exact (d : String × List (ℤ × ℤ)) (hd : d ∈ lsstFile) (t : ℝ) (ht : 0.1 ≤ t) (p : Pt) :
    isOn (sortCorners (Detector.init (d.2.map (toPt 19)))) tolerance (some t) p ↔
      p ∈ region ((d.2.map (toPt 19)).map projectCorner) ∧
      ∀ a b, Side ((d.2.map (toPt 19)).map projectCorner) a b → ∀ q ∈ segment ℝ a b, t / 3600 * (Real.pi / 180) < Spec.dist p q := by
  have htol : (0 : ℝ) ≤ tolerance := by unfold tolerance; norm_num
  rw [C31_edge _ (lsst_convex d hd)]
  constructor
  · rintro ⟨hon, hall⟩
    refine ⟨?_, hall⟩
    by_contra hp
    obtain ⟨a, b, c, e, h, hok, hccw⟩ := lsst_ccw d hd
    have hl : (d.2.map (toPt 19)).map projectCorner =
        [projectCorner (toPt 19 a), projectCorner (toPt 19 b), projectCorner (toPt 19 c), projectCorner (toPt 19 e)] := by rw [h]; rfl
    obtain ⟨q, hq, hdist⟩ := accepted_close _ hl (by norm_num) hccw tolerance htol none p hon
    obtain ⟨u, v, hs, x, hx, hle⟩ := crossing _ hl (by norm_num) hccw p q hq hp
    have h1 := hall u v hs x hx
    have hr := lsst_radius d hd none p hon
    have hc : ∀ w ∈ d.2, |(projectCorner (toPt 19 w)).1| ≤ 0.032 ∧ |(projectCorner (toPt 19 w)).2| ≤ 0.032 := by
      intro w hw
      obtain ⟨n1, n2⟩ := near_of (hok w hw)
      obtain ⟨c1, c2, -⟩ := corner_of (hok w hw)
      rw [abs_le] at *
      constructor
      · constructor <;> linarith
      · rw [abs_le]; constructor <;> linarith
    have ha := hc a (by rw [h]; simp)
    have hb := hc b (by rw [h]; simp)
    have hcc := hc c (by rw [h]; simp)
    have he := hc e (by rw [h]; simp)
    set A := projectCorner (toPt 19 a)
    set B := projectCorner (toPt 19 b)
    set C := projectCorner (toPt 19 c)
    set E := projectCorner (toPt 19 e)
    have hg : Spec.dist p ((A.1 + B.1 + C.1 + E.1) / 4, (A.2 + B.2 + C.2 + E.2) / 4) ≤ 0.1 := by
      unfold Spec.dist
      rw [Real.sqrt_le_left (by norm_num)]
      simp only [abs_le] at ha hb hcc he
      have p1 : |p.1| ≤ 0.036 := abs_le_of_sq_le_sq (by nlinarith [sq_nonneg p.2]) (by norm_num)
      have p2 : |p.2| ≤ 0.036 := abs_le_of_sq_le_sq (by nlinarith [sq_nonneg p.1]) (by norm_num)
      rw [abs_le] at p1 p2
      have q1 : |p.1 - (A.1 + B.1 + C.1 + E.1) / 4| ≤ 0.07 := by rw [abs_le]; constructor <;> linarith [ha.1.1, ha.1.2, hb.1.1, hb.1.2, hcc.1.1, hcc.1.2, he.1.1, he.1.2]
      have q2 : |p.2 - (A.2 + B.2 + C.2 + E.2) / 4| ≤ 0.07 := by rw [abs_le]; constructor <;> linarith [ha.2.1, ha.2.2, hb.2.1, hb.2.2, hcc.2.1, hcc.2.2, he.2.1, he.2.2]
      have r1 := sq_le_sq' (abs_le.1 q1).1 (abs_le.1 q1).2
      have r2 := sq_le_sq' (abs_le.1 q2).1 (abs_le.1 q2).2
      simp only
      linarith
    have hf : tolerance / (tolerance + 0.00001 / 2) ≤ 0.000003 := by unfold tolerance; norm_num
    have hfn : 0 ≤ tolerance / (tolerance + 0.00001 / 2) := by unfold tolerance; norm_num
    have hpi := Real.pi_gt_three
    have hup : Spec.dist p q ≤ 0.000003 * 0.1 := by
      rw [hdist]
      exact mul_le_mul hf hg (Real.sqrt_nonneg _) (by norm_num)
    have hlow : (0.0000004 : ℝ) ≤ t / 3600 * (Real.pi / 180) := by
      have : (0.1 : ℝ) / 3600 * (3 / 180) ≤ t / 3600 * (Real.pi / 180) := by gcongr
      norm_num at this ⊢
      linarith
    norm_num at hup
    linarith
  · rintro ⟨hr, hall⟩
    exact ⟨(C31_tolerance _ (lsst_convex d hd) tolerance htol p).1 hr, hall⟩

/-- C73 (exactly): with an edge threshold of a tenth of an arcsecond or more (the supplied configurations have two arcseconds) the
built-in LSST camera reports a row on its `k`-th detector exactly when the image of the position lies on that detector and is further from
its sides than the threshold. -/
theorem C73_lsst_exact (t : ℝ) (ht : 0.1 ≤ t) (rows : List (ℝ × ℝ × ℝ × ℝ × ℝ)) (i k : ℕ) (ra dec fra fdec rot : ℝ)
    (hr : rows[i]? = some (ra, dec, fra, fdec, rot)) (p : Pt)
    (hp : p = radecToFocalPlane (ra * (Real.pi / 180)) (dec * (Real.pi / 180)) (fra * (Real.pi / 180)) (fdec * (Real.pi / 180)) (rot * (Real.pi / 180))) :
    (i, k) ∈ observe lsstCamera (some t) rows ↔
      ∃ n, (lsstFile.map (·.1))[k]? = some n ∧ p ∈ region ((cornersOf lsstCamera n).map projectCorner) ∧
        ∀ a b, Side ((cornersOf lsstCamera n).map projectCorner) a b → ∀ q ∈ segment ℝ a b, t / 3600 * (Real.pi / 180) < Spec.dist p q := by
  have hpt : (rows.map fun r => radecToFocalPlane (Photom.deg2rad r.1) (Photom.deg2rad r.2.1) (Photom.deg2rad r.2.2.1) (Photom.deg2rad r.2.2.2.1)
      (Photom.deg2rad r.2.2.2.2))[i]? = some p := by
    rw [List.getElem?_map, hr, hp]; rfl
  unfold observe
  rw [(C31_rows _ _ _ _).2 i k, hpt]
  constructor
  · rintro ⟨p', d, h1, h2, hon⟩
    rw [← Option.some.inj h1] at hon
    rw [lsst_footprint, List.getElem?_map] at h2
    obtain ⟨d0, hd0, rfl⟩ := Option.map_eq_some_iff.1 h2
    refine ⟨d0.1, by rw [List.getElem?_map, hd0]; rfl, ?_⟩
    have hcor : cornersOf lsstCamera d0.1 = d0.2.map (toPt 19) := filter_read 19 lsstFile names_lsst d0 (List.mem_of_getElem? hd0)
    rw [hcor]
    exact (lsst_exact d0 (List.mem_of_getElem? hd0) t ht p).1 hon
  · rintro ⟨n, hn, h⟩
    rw [List.getElem?_map] at hn
    obtain ⟨d0, hd0, rfl⟩ := Option.map_eq_some_iff.1 hn
    have hcor : cornersOf lsstCamera d0.1 = d0.2.map (toPt 19) := filter_read 19 lsstFile names_lsst d0 (List.mem_of_getElem? hd0)
    rw [hcor] at h
    refine ⟨p, _, rfl, ?_, (lsst_exact d0 (List.mem_of_getElem? hd0) t ht p).2 h⟩
    rw [lsst_footprint, List.getElem?_map, hd0]; rfl

end Props
end Sorcha.Cameras
