import Verif.Geom.Lemmas
import Verif.Photom.Props

/-!
# Properties C31 and C32: the camera footprint
-/

namespace Sorcha.Geom.Props
open Sorcha.Geom Sorcha.Geom.Spec Sorcha.Photom

/-! ## C32 -/

/-- C32: the distance computed for the edge threshold is the distance to the nearest point of the segment, which is attained;
also if the segment is a single point. -/
theorem C32_distance (p a b : Pt) :
    (∃ q ∈ segment ℝ a b, distToSegment p a.1 a.2 b.1 b.2 = Spec.dist p q) ∧
    ∀ q ∈ segment ℝ a b, distToSegment p a.1 a.2 b.1 b.2 ≤ Spec.dist p q := by
  unfold distToSegment
  simp only
  by_cases hz : (b.1 - a.1) * (b.1 - a.1) + (b.2 - a.2) * (b.2 - a.2) = 0
  · rw [if_pos hz]
    have h1 : b.1 - a.1 = 0 := by nlinarith [mul_self_nonneg (b.1 - a.1), mul_self_nonneg (b.2 - a.2)]
    have h2 : b.2 - a.2 = 0 := by nlinarith [mul_self_nonneg (b.1 - a.1), mul_self_nonneg (b.2 - a.2)]
    have hab : b = a := Prod.ext (by linarith) (by linarith)
    subst hab
    have e : √((p.1 - b.1) * (p.1 - b.1) + (p.2 - b.2) * (p.2 - b.2)) = Spec.dist p b := by
      unfold Spec.dist; congr 1; ring
    rw [e]
    refine ⟨⟨b, left_mem_segment ℝ b b, rfl⟩, ?_⟩
    intro q hq
    rw [segment_same, Set.mem_singleton_iff] at hq
    rw [hq]
  · rw [if_neg hz]
    set L := (b.1 - a.1) * (b.1 - a.1) + (b.2 - a.2) * (b.2 - a.2) with hL
    have hLp : 0 < L := lt_of_le_of_ne (by rw [hL]; exact add_nonneg (mul_self_nonneg _) (mul_self_nonneg _)) (Ne.symm hz)
    set t0 := ((p.1 - a.1) * (b.1 - a.1) + (p.2 - a.2) * (b.2 - a.2)) / L with ht0
    set t1 := if t0 < 0 then 0 else t0 with ht1
    set t := if t1 > 1 then 1 else t1 with ht
    have hte : t = if t0 < 0 then 0 else if t0 > 1 then 1 else t0 := by
      rw [ht, ht1]
      split_ifs <;> first | rfl | linarith
    clear_value t t1
    have ht01 : 0 ≤ t ∧ t ≤ 1 := by rw [hte]; split_ifs <;> constructor <;> linarith
    have hmin : ∀ s, 0 ≤ s → s ≤ 1 → (t - t0) ^ 2 ≤ (s - t0) ^ 2 := by
      intro s h0 h1
      rw [hte]
      split_ifs with c1 c2
      · nlinarith
      · nlinarith
      · nlinarith [sq_nonneg (s - t0)]
    have hdot : t0 * L = (p.1 - a.1) * (b.1 - a.1) + (p.2 - a.2) * (b.2 - a.2) := by
      rw [ht0]; field_simp
    have quad : ∀ s, (p.1 - (a.1 + (b.1 - a.1) * s)) ^ 2 + (p.2 - (a.2 + (b.2 - a.2) * s)) ^ 2 =
        (p.1 - a.1) ^ 2 + (p.2 - a.2) ^ 2 - L * t0 ^ 2 + L * (s - t0) ^ 2 := by
      intro s
      have : (p.1 - (a.1 + (b.1 - a.1) * s)) ^ 2 + (p.2 - (a.2 + (b.2 - a.2) * s)) ^ 2 =
        (p.1 - a.1) ^ 2 + (p.2 - a.2) ^ 2 - 2 * s * ((p.1 - a.1) * (b.1 - a.1) + (p.2 - a.2) * (b.2 - a.2)) + s ^ 2 * L := by
        rw [hL]; ring
      rw [this, ← hdot]
      ring
    have hd : ∀ s, √((p.1 - (a.1 + (b.1 - a.1) * s)) * (p.1 - (a.1 + (b.1 - a.1) * s)) +
        (p.2 - (a.2 + (b.2 - a.2) * s)) * (p.2 - (a.2 + (b.2 - a.2) * s))) =
        Spec.dist p (a.1 + (b.1 - a.1) * s, a.2 + (b.2 - a.2) * s) := by
      intro s; unfold Spec.dist; congr 1; ring
    rw [hd]
    constructor
    · refine ⟨_, ?_, rfl⟩
      rw [segment_eq_image]
      refine ⟨t, ht01, ?_⟩
      ext <;> simp <;> ring
    · intro q hq
      rw [segment_eq_image] at hq
      obtain ⟨s, ⟨h0, h1⟩, rfl⟩ := hq
      have hq : (1 - s) • a + s • b = (a.1 + (b.1 - a.1) * s, a.2 + (b.2 - a.2) * s) := by
        ext <;> simp <;> ring
      simp only
      rw [hq]
      unfold Spec.dist
      apply Real.sqrt_le_sqrt
      simp only
      rw [quad, quad]
      have := hmin s h0 h1
      nlinarith

example : distToSegment (1, 1) 0 0 2 0 = 1 := by
  unfold distToSegment
  norm_num

/-! ## C31: one detector -/

section helpers
/-- The facts about a sorted detector used below. -/
theorem sorted_facts (pts : List Pt) (h : ConvexPosition (pts.map projectCorner)) :
    (sortCorners (Detector.init pts)).corners.Perm (pts.map projectCorner) ∧
    (sortCorners (Detector.init pts)).center = centroid (pts.map projectCorner) ∧
    ∀ e ∈ es (sortCorners (Detector.init pts)).corners, e.1 ≠ e.2 ∧ (∀ q ∈ pts.map projectCorner, 0 ≤ left e.2 e.1 q) ∧
      0 < left e.2 e.1 (centroid (pts.map projectCorner)) := by
  set l := pts.map projectCorner with hl
  have hp : (sortCorners (Detector.init pts)).corners.Perm l := by
    unfold sortCorners Detector.init
    exact List.perm_insertionSort _ _
  refine ⟨hp, rfl, ?_⟩
  have hs : (sortCorners (Detector.init pts)).corners.Pairwise fun a b => th l a ≤ th l b := by
    unfold sortCorners Detector.init
    simp only
    let _ : Std.Total (fun a b : Pt => arctan2 (a.2 - (centroid l).2) (a.1 - (centroid l).1) ≤
      arctan2 (b.2 - (centroid l).2) (b.1 - (centroid l).1)) := ⟨fun a b => le_total _ _⟩
    let _ : IsTrans Pt (fun a b : Pt => arctan2 (a.2 - (centroid l).2) (a.1 - (centroid l).1) ≤
      arctan2 (b.2 - (centroid l).2) (b.1 - (centroid l).1)) := ⟨fun a b c h1 h2 => le_trans h1 h2⟩
    exact List.pairwise_insertionSort _ _
  intro e he
  obtain ⟨m1, m2⟩ := mem_es he
  rw [hp.mem_iff] at m1 m2
  obtain ⟨hn, hne⟩ := es_neighbours l _ hp hs (by rw [hp.length_eq]; have := h.1; omega) (hp.nodup_iff.2 h.2.1) e he
  refine ⟨hne, fun q hq => edge_left h e.1 e.2 m1 m2 hne hn q hq, ?_⟩
  have := gap_pos h e.1 e.2 m1 m2 hne hn
  have e1 : left e.2 e.1 (centroid l) = cr l e.2 e.1 := by unfold left cr; ring
  rw [e1]
  exact this

theorem es_first {l : List Pt} {a : Pt} (ha : a ∈ l) : ∃ b, (a, b) ∈ es l := by
  obtain ⟨i, hi, rfl⟩ := List.mem_iff_getElem.1 ha
  refine ⟨(roll l)[i]'(by rw [roll_length]; exact hi), ?_⟩
  unfold es
  rw [List.mem_iff_getElem]
  refine ⟨i, by rw [List.length_zip, roll_length, min_self]; exact hi, ?_⟩
  rw [List.getElem_zip]

theorem no_collinear {l : List Pt} (h : ConvexPosition l) (a b c : Pt) (ha : a ∈ l) (hb : b ∈ l) (hc : c ∈ l) (hab : a ≠ b)
    (hac : a ≠ c) (hbc : b ≠ c) : left a b c ≠ 0 := by
  intro h0
  -- c - b = k (a - b)
  obtain ⟨k, k1, k2⟩ : ∃ k : ℝ, c.1 - b.1 = k * (a.1 - b.1) ∧ c.2 - b.2 = k * (a.2 - b.2) := by
    unfold left at h0
    by_cases hx : a.1 - b.1 = 0
    · have hy : a.2 - b.2 ≠ 0 := fun hy => hab (Prod.ext (by linarith) (by linarith))
      refine ⟨(c.2 - b.2) / (a.2 - b.2), ?_, by field_simp⟩
      rw [hx, mul_zero]
      have : (a.2 - b.2) * (c.1 - b.1) = 0 := by
        have hx' : a.1 = b.1 := by linarith
        rw [hx'] at h0
        linear_combination h0
      rcases mul_eq_zero.1 this with h | h
      · exact absurd h hy
      · exact h
    · refine ⟨(c.1 - b.1) / (a.1 - b.1), by field_simp, ?_⟩
      field_simp
      linear_combination -h0
  have lin : ∀ A B : ℝ, (A * c.1 + B * c.2) - (A * b.1 + B * b.2) = k * ((A * a.1 + B * a.2) - (A * b.1 + B * b.2)) := by
    intro A B; linear_combination A * k1 + B * k2
  rcases lt_trichotomy k 0 with hk | hk | hk
  · obtain ⟨A, B, hw, -⟩ := exposed h b hb
    have h1 := hw a ha hab
    have h2 := hw c hc hbc.symm
    have := lin A B
    nlinarith
  · subst hk
    exact hbc (Prod.ext (by linarith) (by linarith))
  · rcases lt_trichotomy k 1 with hk1 | hk1 | hk1
    · obtain ⟨A, B, hw, -⟩ := exposed h c hc
      have h1 := hw a ha hac
      have h2 := hw b hb hbc
      have := lin A B
      nlinarith
    · subst hk1
      exact hac (Prod.ext (by linarith) (by linarith))
    · obtain ⟨A, B, hw, -⟩ := exposed h a ha
      have h1 := hw c hc hac.symm
      have h2 := hw b hb hab.symm
      have := lin A B
      nlinarith

/-- The pairs tested by the code are exactly the sides. -/
theorem es_iff_side (pts : List Pt) (h : ConvexPosition (pts.map projectCorner)) (a b : Pt) :
    (b, a) ∈ es (sortCorners (Detector.init pts)).corners ↔ Side (pts.map projectCorner) a b := by
  obtain ⟨hp, -, hes⟩ := sorted_facts pts h
  constructor
  · intro he
    obtain ⟨m1, m2⟩ := mem_es he
    obtain ⟨h1, h2, -⟩ := hes _ he
    exact ⟨hp.mem_iff.1 m2, hp.mem_iff.1 m1, Ne.symm h1, h2⟩
  · rintro ⟨ha, hb, hab, hl⟩
    obtain ⟨a', he⟩ := es_first (hp.mem_iff.2 hb)
    obtain ⟨-, m2⟩ := mem_es he
    obtain ⟨h1, h2, -⟩ := hes _ he
    by_cases haa : a = a'
    · rw [haa]; exact he
    · exfalso
      have g1 := hl a' (hp.mem_iff.1 m2)
      have g2 := h2 a ha
      refine no_collinear h a b a' ha hb (hp.mem_iff.1 m2) hab haa h1 ?_
      have : left a' b a = -left a b a' := by unfold left; ring
      simp only at g2
      rw [this] at g2
      linarith

theorem edges_iff (l : List Pt) (a b : Pt) : (a, b) ∈ edges l ↔ (b, a) ∈ es l := by
  have hroll : ∀ (i : ℕ) (hi : i < l.length), (roll l)[i]? = if i = 0 then l[l.length - 1]? else l[i - 1]? := by
    intro i hi
    unfold roll
    rcases List.eq_nil_or_concat l with h | ⟨m', x, h⟩
    · rw [h] at hi; simp at hi
    · rw [h, List.concat_eq_append] at hi ⊢
      rw [List.getLast?_append, List.dropLast_concat]
      simp only [List.getLast?_singleton, Option.some_or, Option.toList_some, List.length_append, List.length_cons, List.length_nil,
        List.singleton_append] at hi ⊢
      cases i with
      | zero => simp
      | succ i =>
        simp only [List.getElem?_cons_succ, Nat.add_one_ne_zero, if_false, Nat.add_sub_cancel]
        rw [List.getElem?_append_left (by omega)]
  unfold edges es
  rw [List.mem_iff_getElem?, List.mem_iff_getElem?]
  simp only [List.getElem?_zip_eq_some]
  constructor
  · rintro ⟨i, h1, h2⟩
    obtain ⟨hi, h1'⟩ := List.getElem?_eq_some_iff.1 h1
    rw [List.getElem?_rotate hi] at h2
    by_cases hlast : i + 1 = l.length
    · refine ⟨0, ?_, ?_⟩
      · rw [hlast, Nat.mod_self] at h2; exact h2
      · rw [hroll 0 (by omega), if_pos rfl, show l.length - 1 = i by omega]; exact h1
    · rw [Nat.mod_eq_of_lt (by omega)] at h2
      refine ⟨i + 1, h2, ?_⟩
      rw [hroll (i + 1) (by omega), if_neg (by omega), Nat.add_sub_cancel]; exact h1
  · rintro ⟨i, h1, h2⟩
    obtain ⟨hi, -⟩ := List.getElem?_eq_some_iff.1 h1
    rw [hroll i hi] at h2
    by_cases h0 : i = 0
    · subst h0
      rw [if_pos rfl] at h2
      refine ⟨l.length - 1, h2, ?_⟩
      rw [List.getElem?_rotate (by omega), show l.length - 1 + 1 = l.length by omega, Nat.mod_self]; exact h1
    · rw [if_neg h0] at h2
      refine ⟨i - 1, h2, ?_⟩
      rw [List.getElem?_rotate (by omega), show i - 1 + 1 = i by omega, Nat.mod_eq_of_lt hi]; exact h1

theorem region_perm {l m : List Pt} (h : l.Perm m) : region l = region m := by
  unfold region
  congr 1
  ext p
  exact h.mem_iff

theorem in_circle (l : List Pt) (c p : Pt) (hp : p ∈ region l) : sq p c ≤ npMax (l.map fun v => sq v c) := by
  have hmax : ∀ v ∈ l, sq v c ≤ npMax (l.map fun v => sq v c) := by
    intro v hv
    unfold npMax
    cases hm : (l.map fun v => sq v c).max? with
    | none => rw [List.max?_eq_none_iff, List.map_eq_nil_iff] at hm; rw [hm] at hv; simp at hv
    | some m => exact (List.max?_eq_some_iff.1 hm).2 _ (List.mem_map.2 ⟨v, hv, rfl⟩)
  have hconv : Convex ℝ {q : Pt | sq q c ≤ npMax (l.map fun v => sq v c)} := by
    intro x hx y hy a b ha hb hab
    simp only [Set.mem_ofPred_eq] at *
    have hb' : b = 1 - a := by linarith
    have : sq (a • x + b • y) c = a * sq x c + b * sq y c - a * b * ((x.1 - y.1) ^ 2 + (x.2 - y.2) ^ 2) := by
      unfold sq
      simp only [Prod.fst_add, Prod.snd_add, Prod.smul_fst, Prod.smul_snd, smul_eq_mul, hb']
      ring
    rw [this]
    have h0 : 0 ≤ a * b * ((x.1 - y.1) ^ 2 + (x.2 - y.2) ^ 2) := by positivity
    have h1 := mul_le_mul_of_nonneg_left hx ha
    have h2 := mul_le_mul_of_nonneg_left hy hb
    have h3 : a * npMax (List.map (fun v => sq v c) l) + b * npMax (List.map (fun v => sq v c) l) =
        npMax (List.map (fun v => sq v c) l) := by rw [← add_mul, hab, one_mul]
    linarith
  exact convexHull_min hmax hconv hp
end helpers

/-- C31 (inside): for a detector whose (projected) corners are those of a convex polygon, given in any order, the test with
zero tolerance accepts exactly the points of the polygon, boundary included. -/
theorem C31_inside (pts : List Pt) (h : ConvexPosition (pts.map projectCorner)) (p : Pt) :
    isOn (sortCorners (Detector.init pts)) 0 none p ↔ p ∈ region (pts.map projectCorner) := by
  obtain ⟨hp, hc, hes⟩ := sorted_facts pts h
  set d := sortCorners (Detector.init pts) with hd
  have hins : Inside d.corners d.center := by rw [hc]; exact fun e he => (hes e he).2.2.le
  unfold isOn
  rw [area_iff d p hins]
  constructor
  · rintro ⟨-, hi, -⟩
    rw [← region_perm hp]
    refine inside_hull _ ?_ p hi
    obtain ⟨v, hv⟩ := List.exists_mem_of_length_pos (l := pts.map projectCorner) (by have := h.1; omega)
    obtain ⟨b, hb⟩ := es_first (hp.mem_iff.2 hv)
    exact ⟨_, hb, _, hins, by rw [hc]; exact (hes _ hb).2.2⟩
  · intro hr
    rw [← region_perm hp] at hr
    exact ⟨in_circle _ _ _ hr, hull_inside _ (fun v hv e he => (hes e he).2.1 v (hp.mem_iff.1 hv)) p hr, trivial⟩

/-- C31 (tolerance): with a tolerance `ε` no point of the detector is rejected, and an accepted point is at most `ε` (twice the
area of the triangle it makes with the side) on the wrong side of any side. -/
theorem C31_tolerance (pts : List Pt) (h : ConvexPosition (pts.map projectCorner)) (ε : ℝ) (hε : 0 ≤ ε) (p : Pt) :
    (p ∈ region (pts.map projectCorner) → isOn (sortCorners (Detector.init pts)) ε none p) ∧
    (isOn (sortCorners (Detector.init pts)) ε none p → ∀ a b, Side (pts.map projectCorner) a b → -ε ≤ left a b p) := by
  obtain ⟨hp, hc, hes⟩ := sorted_facts pts h
  constructor
  · intro hr
    obtain ⟨h1, h2, -⟩ := (C31_inside pts h p).2 hr
    exact ⟨h1, le_trans h2 hε, trivial⟩
  · rintro ⟨-, h2, -⟩ a b hs
    have hins : Inside (sortCorners (Detector.init pts)).corners (sortCorners (Detector.init pts)).center := by
      rw [hc]; exact fun e he => (hes e he).2.2.le
    rw [area_excess _ p hins] at h2
    have he := (es_iff_side pts h a b).2 hs
    have hle : max 0 (-left a b p) ≤ ((es (sortCorners (Detector.init pts)).corners).map fun e => max 0 (-left e.2 e.1 p)).sum := by
      apply List.single_le_sum
      · intro x hx
        obtain ⟨e, -, rfl⟩ := List.mem_map.1 hx
        exact le_max_left _ _
      · exact List.mem_map.2 ⟨(b, a), he, rfl⟩
    have := le_max_right 0 (-left a b p)
    have := le_abs_self (((es (sortCorners (Detector.init pts)).corners).map fun e => max 0 (-left e.2 e.1 p)).sum)
    linarith

/-- C31 (edge threshold): with an edge threshold of `t` arcseconds a point is accepted iff it is accepted without and every
point of every side is more than `t` arcseconds (in radians on the focal plane) away. -/
theorem C31_edge (pts : List Pt) (h : ConvexPosition (pts.map projectCorner)) (ε t : ℝ) (p : Pt) :
    isOn (sortCorners (Detector.init pts)) ε (some t) p ↔
    isOn (sortCorners (Detector.init pts)) ε none p ∧
      ∀ a b, Side (pts.map projectCorner) a b → ∀ q ∈ segment ℝ a b, t / 3600 * (Real.pi / 180) < Spec.dist p q := by
  unfold isOn
  simp only [and_true]
  rw [and_assoc]
  apply and_congr_right; intro _
  apply and_congr_right; intro _
  constructor
  · intro hall a b hs q hq
    have he := (edges_iff _ a b).2 ((es_iff_side pts h a b).2 hs)
    have := hall _ he
    simp only at this
    exact lt_of_lt_of_le this ((C32_distance p a b).2 q hq)
  · intro hall e he
    obtain ⟨a, b⟩ := e
    have hs := (es_iff_side pts h a b).1 ((edges_iff _ a b).1 he)
    obtain ⟨q, hq, hd⟩ := (C32_distance p a b).1
    simp only
    rw [hd]
    exact hall a b hs q hq

/-- C31 (bookkeeping): `applyFootprint` reports a row with a detector number exactly when the row's point is on that detector,
each such pair once: a row on exactly one detector is kept once, a row on none is dropped. -/
theorem C31_rows (ds : List Detector) (ε : ℝ) (t : Option ℝ) (points : List Pt) :
    (applyFootprint ds ε t points).Nodup ∧
    ∀ i k, (i, k) ∈ applyFootprint ds ε t points ↔ ∃ p d, points[i]? = some p ∧ ds[k]? = some d ∧ isOn d ε t p := by
  classical
  unfold applyFootprint
  constructor
  · rw [List.nodup_flatMap]
    constructor
    · intro d _
      apply List.Nodup.map_on
      · intro p hp q hq he
        simp only [Prod.mk.injEq, and_true] at he
        have h1 := List.mem_zipIdx_iff_getElem?.1 (List.mem_filter.1 hp).1
        have h2 := List.mem_zipIdx_iff_getElem?.1 (List.mem_filter.1 hq).1
        rw [he, h2] at h1
        exact Prod.ext (Option.some.inj h1).symm he
      · apply List.Nodup.filter
        apply List.Nodup.of_map (f := Prod.snd)
        rw [List.zipIdx_map_snd]
        exact List.nodup_range' ..
    · have hnd : (ds.zipIdx.map Prod.snd).Nodup := by rw [List.zipIdx_map_snd]; exact List.nodup_range' ..
      have hpw := List.pairwise_map.1 hnd
      refine hpw.imp ?_
      intro d d' hne x hx hx'
      obtain ⟨p, -, rfl⟩ := List.mem_map.1 hx
      obtain ⟨p', -, he⟩ := List.mem_map.1 hx'
      exact hne (congrArg Prod.snd he).symm
  · intro i k
    simp only [List.mem_flatMap, List.mem_map, List.mem_filter, decide_eq_true_eq, Prod.mk.injEq]
    constructor
    · rintro ⟨⟨d, k'⟩, hd, ⟨p, i'⟩, ⟨hp, hon⟩, rfl, rfl⟩
      exact ⟨p, d, List.mem_zipIdx_iff_getElem?.1 hp, List.mem_zipIdx_iff_getElem?.1 hd, hon⟩
    · rintro ⟨p, d, hp, hd, hon⟩
      exact ⟨(d, k), List.mem_zipIdx_iff_getElem?.2 hd, (p, i), ⟨List.mem_zipIdx_iff_getElem?.2 hp, hon⟩, rfl, rfl⟩

/-- Corners listed for a detector in the corner file. -/
def cornersOf (rows : List (String × Pt)) (n : String) : List Pt := (rows.filter (·.1 = n)).map (·.2)

/-- C31 (whole camera): the camera built from a corner file has one detector per name, and if the corners of every detector are
those of a convex polygon, a row is reported (zero tolerance) iff its point lies in the polygon of some detector of the file. -/
theorem C31_camera (rows : List (String × Pt)) (points : List Pt)
    (h : ∀ n ∈ rows.map (·.1), ConvexPosition ((cornersOf rows n).map projectCorner)) :
    (footprint rows).length = (rows.map (·.1)).dedup.length ∧
    ∀ i, (∃ k, (i, k) ∈ applyFootprint (footprint rows) 0 none points) ↔
      ∃ p, points[i]? = some p ∧ ∃ n ∈ rows.map (·.1), p ∈ region ((cornersOf rows n).map projectCorner) := by
  constructor
  · unfold footprint
    simp only [List.length_map, List.length_reverse]
    exact ((List.reverse_perm _).dedup).length_eq
  · intro i
    have hmem : ∀ d, d ∈ footprint rows ↔ ∃ n ∈ rows.map (·.1), sortCorners (Detector.init (cornersOf rows n)) = d := by
      intro d
      unfold footprint cornersOf
      simp only [List.mem_map, List.mem_reverse, List.mem_dedup]
    constructor
    · rintro ⟨k, hk⟩
      obtain ⟨p, d, hp, hd, hon⟩ := ((C31_rows _ 0 none points).2 i k).1 hk
      obtain ⟨n, hn, rfl⟩ := (hmem d).1 (List.mem_of_getElem? hd)
      exact ⟨p, hp, n, hn, (C31_inside _ (h n hn) p).1 hon⟩
    · rintro ⟨p, hp, n, hn, hr⟩
      obtain ⟨k, hk⟩ := List.mem_iff_getElem?.1 ((hmem _).2 ⟨n, hn, rfl⟩)
      exact ⟨k, ((C31_rows _ 0 none points).2 i k).2 ⟨p, _, hp, hk, (C31_inside _ (h n hn) p).2 hr⟩⟩

/-! ## C31: projection -/

/-- C31 (projection): the focal-plane coordinates are those of the line of sight where it meets the plane tangent to the sphere
at the field centre, in the basis of the directions of increasing right ascension and declination there, turned by the rotation
angle. The field is not at a pole and the object is not 90 degrees away. -/
theorem C31_projection (ra dec fra fdec rot : ℝ) (hf : 0 < Real.cos fdec)
    (hvis : Real.cos dec * Real.cos fdec * Real.cos (ra - fra) + Real.sin dec * Real.sin fdec ≠ 0) :
    ∃ x y k : ℝ,
      k * (Real.cos ra * Real.cos dec) = Real.cos fra * Real.cos fdec + x * -Real.sin fra + y * -(Real.sin fdec * Real.cos fra) ∧
      k * (Real.sin ra * Real.cos dec) = Real.sin fra * Real.cos fdec + x * Real.cos fra + y * -(Real.sin fdec * Real.sin fra) ∧
      k * Real.sin dec = Real.sin fdec + y * Real.cos fdec ∧
      k * (Real.cos dec * Real.cos fdec * Real.cos (ra - fra) + Real.sin dec * Real.sin fdec) = 1 ∧
      radecToFocalPlane ra dec fra fdec rot = (x * Real.cos rot - y * Real.sin rot, x * Real.sin rot + y * Real.cos rot) := by
  set D := Real.cos dec * Real.cos fdec * Real.cos (ra - fra) + Real.sin dec * Real.sin fdec with hD
  have sc := Real.sin_sq_add_cos_sq fra
  have sd := Real.sin_sq_add_cos_sq fdec
  have hDe : D = Real.cos fra * Real.cos fdec * (Real.cos ra * Real.cos dec) + Real.sin fra * Real.cos fdec * (Real.sin ra * Real.cos dec) +
      Real.sin fdec * Real.sin dec := by rw [hD, Real.cos_sub]; ring
  refine ⟨(Real.cos ra * Real.cos dec * -Real.sin fra + Real.sin ra * Real.cos dec * Real.cos fra) / D,
    (Real.cos ra * Real.cos dec * -(Real.sin fdec * Real.cos fra) + Real.sin ra * Real.cos dec * -(Real.sin fdec * Real.sin fra) +
      Real.sin dec * Real.cos fdec) / D, 1 / D, ?_, ?_, ?_, ?_, ?_⟩
  · field_simp
    rw [hDe]
    linear_combination (Real.cos ra * Real.cos dec) * (-sc - Real.cos fra ^ 2 * sd)  - (Real.cos dec * Real.sin ra * Real.sin fra * Real.cos fra) * sd
  · field_simp
    rw [hDe]
    linear_combination (Real.sin ra * Real.cos dec) * (-sc - Real.sin fra ^ 2 * sd) - (Real.cos dec * Real.cos ra * Real.sin fra * Real.cos fra) * sd
  · field_simp
    rw [hDe]
    linear_combination (-Real.sin dec) * sd
  · field_simp
  · have n1 : √(dot3 ⟨-(Real.sin fra * Real.cos fdec), Real.cos fra * Real.cos fdec, 0⟩
        ⟨-(Real.sin fra * Real.cos fdec), Real.cos fra * Real.cos fdec, 0⟩) = Real.cos fdec := by
      refine Eq.trans (congrArg Real.sqrt ?_) (Real.sqrt_sq hf.le)
      unfold dot3
      simp only
      linear_combination Real.cos fdec ^ 2 * sc
    have n2 : √(dot3 (cross3 ⟨Real.cos fra * Real.cos fdec, Real.sin fra * Real.cos fdec, Real.sin fdec⟩
          ⟨-(Real.sin fra * Real.cos fdec), Real.cos fra * Real.cos fdec, 0⟩)
        (cross3 ⟨Real.cos fra * Real.cos fdec, Real.sin fra * Real.cos fdec, Real.sin fdec⟩
          ⟨-(Real.sin fra * Real.cos fdec), Real.cos fra * Real.cos fdec, 0⟩)) = Real.cos fdec := by
      refine Eq.trans (congrArg Real.sqrt ?_) (Real.sqrt_sq hf.le)
      unfold dot3 cross3
      simp only
      have e1 : Real.cos fra * Real.cos fdec * (Real.cos fra * Real.cos fdec) - Real.sin fra * Real.cos fdec * -(Real.sin fra * Real.cos fdec) =
          Real.cos fdec ^ 2 := by linear_combination Real.cos fdec ^ 2 * sc
      rw [e1]
      linear_combination (Real.sin fdec ^ 2 * Real.cos fdec ^ 2) * sc + Real.cos fdec ^ 2 * sd
    have hT : radecToTangentPlane ra dec fra fdec =
        ((Real.cos ra * Real.cos dec * -Real.sin fra + Real.sin ra * Real.cos dec * Real.cos fra) / D,
        (Real.cos ra * Real.cos dec * -(Real.sin fdec * Real.cos fra) + Real.sin ra * Real.cos dec * -(Real.sin fdec * Real.sin fra) +
          Real.sin dec * Real.cos fdec) / D) := by
      unfold radecToTangentPlane
      simp only
      unfold unit3
      simp only [n1, n2]
      have hdot : dot3 ⟨Real.cos fra * Real.cos fdec, Real.sin fra * Real.cos fdec, Real.sin fdec⟩
          ⟨Real.cos ra * Real.cos dec, Real.sin ra * Real.cos dec, Real.sin dec⟩ = D := by
        rw [hDe]; rfl
      rw [hdot]
      unfold dot3 cross3
      simp only
      ext
      · simp only
        field_simp
        ring
      · simp only
        have e1 : Real.cos fra * Real.cos fdec * (Real.cos fra * Real.cos fdec) - Real.sin fra * Real.cos fdec * -(Real.sin fra * Real.cos fdec) =
            Real.cos fdec ^ 2 := by linear_combination Real.cos fdec ^ 2 * sc
        rw [e1]
        field_simp
        linear_combination (D * Real.sin fdec * Real.cos fdec ^ 1) * sc
    unfold radecToFocalPlane
    rw [hT]
    simp only
    have hexp : Complex.exp (Complex.I * rot) = ⟨Real.cos rot, Real.sin rot⟩ := by
      rw [mul_comm, Complex.exp_mul_I]
      apply Complex.ext
      · rw [Complex.add_re, Complex.mul_I_re, Complex.cos_ofReal_re, Complex.sin_ofReal_im]; simp
      · rw [Complex.add_im, Complex.mul_I_im, Complex.cos_ofReal_im, Complex.sin_ofReal_re]; simp
    rw [hexp]
    ext
    · simp [Complex.mul_re]
    · simp [Complex.mul_im]

/-- C31 (corners): corners are projected like sky positions seen from a field at the origin without rotation. -/
theorem C31_corners (ra dec : ℝ) : radecToFocalPlane ra dec 0 0 0 = projectCorner (ra, dec) := by
  unfold radecToFocalPlane radecToTangentPlane projectCorner unit3 dot3 cross3
  simp
  constructor <;> ring

/-- C31 (behind): a position on the opposite side of the sky is projected to the same point, so the footprint alone does not
reject it. -/
theorem C31_antipode_fails (ra dec fra fdec rot : ℝ) :
    radecToFocalPlane (ra + Real.pi) (-dec) fra fdec rot = radecToFocalPlane ra dec fra fdec rot := by
  have : radecToTangentPlane (ra + Real.pi) (-dec) fra fdec = radecToTangentPlane ra dec fra fdec := by
    unfold radecToTangentPlane
    simp only [Real.cos_add_pi, Real.sin_add_pi, Real.cos_neg, Real.sin_neg]
    have hd : dot3 ⟨Real.cos fra * Real.cos fdec, Real.sin fra * Real.cos fdec, Real.sin fdec⟩
        ⟨-Real.cos ra * Real.cos dec, -Real.sin ra * Real.cos dec, -Real.sin dec⟩ =
      -dot3 ⟨Real.cos fra * Real.cos fdec, Real.sin fra * Real.cos fdec, Real.sin fdec⟩
        ⟨Real.cos ra * Real.cos dec, Real.sin ra * Real.cos dec, Real.sin dec⟩ := by
      unfold dot3; ring
    rw [hd]
    have hk : ∀ D x : ℝ, -x * (1 / -D) = x * (1 / D) := by
      intro D x; rw [one_div_neg_eq_neg_one_div]; ring
    simp only [neg_mul_eq_neg_mul]
    simp only [← neg_mul_eq_neg_mul, hk]
  unfold radecToFocalPlane
  rw [this]

section example_square
theorem convex_of_exposed (l : List Pt) (h3 : 3 ≤ l.length) (hnd : l.Nodup)
    (h : ∀ v ∈ l, ∃ A B : ℝ, ∀ w ∈ l, w ≠ v → A * w.1 + B * w.2 < A * v.1 + B * v.2) : ConvexPosition l := by
  refine ⟨h3, hnd, ?_⟩
  intro v hv hmem
  obtain ⟨A, B, hAB⟩ := h v hv
  have hconv : Convex ℝ {q : Pt | A * q.1 + B * q.2 < A * v.1 + B * v.2} := by
    intro x hx y hy a b ha hb hab
    simp only [Set.mem_ofPred_eq, Prod.fst_add, Prod.snd_add, Prod.smul_fst, Prod.smul_snd, smul_eq_mul] at *
    rcases eq_or_lt_of_le ha with h | h
    · have : b = 1 := by linarith
      subst this
      rw [← h]; linarith
    · have hb' : b = 1 - a := by linarith
      subst hb'
      nlinarith
  have : v ∈ {q : Pt | A * q.1 + B * q.2 < A * v.1 + B * v.2} := convexHull_min (fun w hw => hAB w hw.1 hw.2) hconv hmem
  rw [Set.mem_ofPred_eq] at this
  exact lt_irrefl _ this

/-- A square whose corners are listed crosswise meets the hypotheses. -/
example : ConvexPosition [((0 : ℝ), (0 : ℝ)), (1, 1), (1, 0), (0, 1)] := by
  apply convex_of_exposed _ (by simp) (by simp)
  intro v hv
  simp at hv
  rcases hv with rfl | rfl | rfl | rfl
  · refine ⟨-1, -1, ?_⟩; intro w hw hne; simp at hw; rcases hw with rfl | rfl | rfl | rfl <;> simp at hne ⊢
  · refine ⟨1, 1, ?_⟩; intro w hw hne; simp at hw; rcases hw with rfl | rfl | rfl | rfl <;> simp at hne ⊢
  · refine ⟨1, -1, ?_⟩; intro w hw hne; simp at hw; rcases hw with rfl | rfl | rfl | rfl <;> simp at hne ⊢
  · refine ⟨-1, 1, ?_⟩; intro w hw hne; simp at hw; rcases hw with rfl | rfl | rfl | rfl <;> simp at hne ⊢
end example_square

end Sorcha.Geom.Props
