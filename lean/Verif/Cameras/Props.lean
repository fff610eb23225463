import Verif.Cameras.Lemmas2
import Verif.Photom.Props
import Mathlib.Analysis.Real.Pi.Bounds

/-!
# Property C73: the built-in cameras
-/

namespace Sorcha.Cameras.Props
open Sorcha.Geom Sorcha.Geom.Spec Sorcha.Geom.Props Sorcha.Cameras Sorcha.Photom.Spec

theorem lsst_nonempty : ∀ d ∈ lsstFile, d.2 ≠ [] := by
  intro d hd
  obtain ⟨a, b, c, e, h, -⟩ := lsst_ccw d hd
  rw [h]; simp

theorem lsst_convex (d : String × List (ℤ × ℤ)) (hd : d ∈ lsstFile) : ConvexPosition ((d.2.map (toPt 19)).map projectCorner) := by
  obtain ⟨a, b, c, e, h, -, hccw⟩ := lsst_ccw d hd
  rw [h]
  exact ccw_convex (by norm_num) hccw

theorem lsst_names (n : String) (hn : n ∈ lsstCamera.map (·.1)) : ∃ d ∈ lsstFile, d.1 = n := by
  obtain ⟨r, hr, rfl⟩ := List.mem_map.1 hn
  obtain ⟨e, he, hr⟩ := List.mem_flatMap.1 hr
  obtain ⟨c, -, rfl⟩ := List.mem_map.1 hr
  exact ⟨e, he, rfl⟩

theorem lsst_footprint : footprint lsstCamera = lsstFile.map fun d => sortCorners (Detector.init (d.2.map (toPt 19))) :=
  footprint_read 19 lsstFile names_lsst lsst_nonempty

/-- C73 (choice): without a camera file the survey names the configuration accepts have a built-in camera. -/
theorem C73_choice : builtIn "lsst" = some lsstCamera ∧ builtIn "rubin_sim" = some lsstCamera ∧ builtIn "des" = some desCamera := by
  refine ⟨?_, ?_, ?_⟩ <;> unfold builtIn <;> simp

/-- C73 (detectors): the built-in LSST camera has 189 detectors, and the four corners of each of them, projected on the focal
plane, are those of a convex polygon. -/
theorem C73_lsst_detectors :
    (footprint lsstCamera).length = 189 ∧
    ∀ n ∈ lsstCamera.map (·.1), (cornersOf lsstCamera n).length = 4 ∧ ConvexPosition ((cornersOf lsstCamera n).map projectCorner) := by
  constructor
  · rw [lsst_footprint, List.length_map]; exact boxes_length.1
  · intro n hn
    obtain ⟨d, hd, rfl⟩ := lsst_names n hn
    have : cornersOf lsstCamera d.1 = d.2.map (toPt 19) := filter_read 19 lsstFile names_lsst d hd
    rw [this]
    refine ⟨?_, lsst_convex d hd⟩
    obtain ⟨a, b, c, e, h, -⟩ := lsst_ccw d hd
    rw [h]; rfl

/-- A point accepted by a detector of the LSST camera is within a box of the file, up to less than `5e-5`. -/
theorem lsst_box (d : String × List (ℤ × ℤ)) (hd : d ∈ lsstFile) (b : ℤ × ℤ × ℤ × ℤ) (hb : d.2.all (inBox b) = true) (t : Option ℝ) (p : Pt)
    (hon : isOn (sortCorners (Detector.init (d.2.map (toPt 19)))) tolerance t p) :
    (b.1 : ℝ) / 10 ^ 19 - 0.00005 ≤ p.1 ∧ p.1 ≤ (b.2.1 : ℝ) / 10 ^ 19 + 0.00005 ∧
    (b.2.2.1 : ℝ) / 10 ^ 19 - 0.00005 ≤ p.2 ∧ p.2 ≤ (b.2.2.2 : ℝ) / 10 ^ 19 + 0.00005 := by
  obtain ⟨a, b', c, e, h, hok, hccw⟩ := lsst_ccw d hd
  have hl : (d.2.map (toPt 19)).map projectCorner =
      [projectCorner (toPt 19 a), projectCorner (toPt 19 b'), projectCorner (toPt 19 c), projectCorner (toPt 19 e)] := by rw [h]; rfl
  have htol : (0 : ℝ) ≤ tolerance ∧ 2 * tolerance / 0.00001 ≤ 0.000003 := by unfold tolerance; constructor <;> norm_num
  have hbox : ∀ v ∈ d.2, (b.1 : ℝ) / 10 ^ 19 - 0.00004 ≤ (projectCorner (toPt 19 v)).1 ∧ (projectCorner (toPt 19 v)).1 ≤ (b.2.1 : ℝ) / 10 ^ 19 + 0.00004 ∧
      (b.2.2.1 : ℝ) / 10 ^ 19 - 0.00004 ≤ (projectCorner (toPt 19 v)).2 ∧ (projectCorner (toPt 19 v)).2 ≤ (b.2.2.2 : ℝ) / 10 ^ 19 + 0.00004 ∧
      |(projectCorner (toPt 19 v)).1| ≤ 0.04 ∧ |(projectCorner (toPt 19 v)).2| ≤ 0.04 := by
    intro v hv
    have hin := List.all_eq_true.1 hb v hv
    simp only [inBox, Bool.and_eq_true, decide_eq_true_eq] at hin
    obtain ⟨⟨⟨i1, i2⟩, i3⟩, i4⟩ := hin
    have hn := near_of (hok v hv)
    have hc := corner_of (hok v hv)
    unfold Near at hn
    rw [abs_le, abs_le] at hn
    rw [abs_le, abs_le] at hc
    have j1 : (b.1 : ℝ) / 10 ^ 19 ≤ (toPt 19 v).1 := by unfold toPt; simp only; gcongr
    have j2 : (toPt 19 v).1 ≤ (b.2.1 : ℝ) / 10 ^ 19 := by unfold toPt; simp only; gcongr
    have j3 : (b.2.2.1 : ℝ) / 10 ^ 19 ≤ (toPt 19 v).2 := by unfold toPt; simp only; gcongr
    have j4 : (toPt 19 v).2 ≤ (b.2.2.2 : ℝ) / 10 ^ 19 := by unfold toPt; simp only; gcongr
    rw [abs_le, abs_le]
    refine ⟨by linarith, by linarith, by linarith, by linarith, ⟨by linarith, by linarith⟩, ⟨by linarith, by linarith⟩⟩
  have ha := hbox a (by rw [h]; simp)
  have hb' := hbox b' (by rw [h]; simp)
  have hc := hbox c (by rw [h]; simp)
  have he := hbox e (by rw [h]; simp)
  have bound := accepted_bound _ hl (by norm_num) hccw tolerance htol.1 t p hon
  set A := projectCorner (toPt 19 a)
  set B := projectCorner (toPt 19 b')
  set C := projectCorner (toPt 19 c)
  set E := projectCorner (toPt 19 e)
  simp only [abs_le] at ha hb' hc he
  clear hl hccw hon hok hbox
  have key : ∀ u v M : ℝ, (∀ w ∈ [A, B, C, E], u * w.1 + v * w.2 ≤ M ∧ -0.04 ≤ u * w.1 + v * w.2 ∧ u * w.1 + v * w.2 ≤ 0.04) →
      u * p.1 + v * p.2 ≤ M + 0.000003 * 0.08 := by
    intro u v M hM
    have hb1 := bound u v (min M 0.04) (fun w hw => le_min (hM w hw).1 (hM w hw).2.2)
    have h1 := hM A (by simp)
    have h2 := hM B (by simp)
    have h3 := hM C (by simp)
    have h4 := hM E (by simp)
    have hmm : min M 0.04 ≤ M := min_le_left _ _
    have hm4 : min M 0.04 ≤ 0.04 := min_le_right _ _
    have hg : u * ((A.1 + B.1 + C.1 + E.1) / 4) + v * ((A.2 + B.2 + C.2 + E.2) / 4) =
        ((u * A.1 + v * A.2) + (u * B.1 + v * B.2) + (u * C.1 + v * C.2) + (u * E.1 + v * E.2)) / 4 := by ring
    rw [hg] at hb1
    have hd : min M 0.04 - ((u * A.1 + v * A.2) + (u * B.1 + v * B.2) + (u * C.1 + v * C.2) + (u * E.1 + v * E.2)) / 4 ≤ 0.08 := by linarith [h1.2.1, h2.2.1, h3.2.1, h4.2.1]
    have hd0 : 0 ≤ min M 0.04 - ((u * A.1 + v * A.2) + (u * B.1 + v * B.2) + (u * C.1 + v * C.2) + (u * E.1 + v * E.2)) / 4 := by
      have l1 := le_min h1.1 h1.2.2
      have l2 := le_min h2.1 h2.2.2
      have l3 := le_min h3.1 h3.2.2
      have l4 := le_min h4.1 h4.2.2
      linarith
    have := mul_le_mul htol.2 hd hd0 (by norm_num)
    linarith
  have corner : ∀ w ∈ [A, B, C, E], ((b.1 : ℝ) / 10 ^ 19 - 0.00004 ≤ w.1 ∧ w.1 ≤ (b.2.1 : ℝ) / 10 ^ 19 + 0.00004 ∧
      (b.2.2.1 : ℝ) / 10 ^ 19 - 0.00004 ≤ w.2 ∧ w.2 ≤ (b.2.2.2 : ℝ) / 10 ^ 19 + 0.00004 ∧ (-0.04 ≤ w.1 ∧ w.1 ≤ 0.04) ∧ -0.04 ≤ w.2 ∧ w.2 ≤ 0.04) := by
    intro w hw
    simp only [List.mem_cons, List.not_mem_nil, or_false] at hw
    rcases hw with rfl | rfl | rfl | rfl
    · exact ha
    · exact hb'
    · exact hc
    · exact he
  clear ha hb' hc he bound htol
  have k1 := key 1 0 ((b.2.1 : ℝ) / 10 ^ 19 + 0.00004) (by
    intro w hw
    obtain ⟨-, c2, -, -, c5, -⟩ := corner w hw
    refine ⟨by linarith, by linarith [c5.1], by linarith [c5.2]⟩)
  have k2 := key (-1) 0 (-((b.1 : ℝ) / 10 ^ 19 - 0.00004)) (by
    intro w hw
    obtain ⟨c1, -, -, -, c5, -⟩ := corner w hw
    refine ⟨by linarith, by linarith [c5.2], by linarith [c5.1]⟩)
  have k3 := key 0 1 ((b.2.2.2 : ℝ) / 10 ^ 19 + 0.00004) (by
    intro w hw
    obtain ⟨-, -, -, c4, -, c6, c7⟩ := corner w hw
    refine ⟨by linarith, by linarith, by linarith⟩)
  have k4 := key 0 (-1) (-((b.2.2.1 : ℝ) / 10 ^ 19 - 0.00004)) (by
    intro w hw
    obtain ⟨-, -, c3, -, -, c6, c7⟩ := corner w hw
    refine ⟨by linarith, by linarith, by linarith⟩)
  refine ⟨?_, ?_, ?_, ?_⟩ <;> linarith

theorem allPairs_get {α : Type} (f : α → α → Bool) (l : List α) (h : allPairs f l = true) (i j : ℕ) (hij : i < j) (a b : α)
    (ha : l[i]? = some a) (hb : l[j]? = some b) : f a b = true := by
  induction l generalizing i j with
  | nil => simp at ha
  | cons c l ih =>
    simp only [allPairs, Bool.and_eq_true] at h
    cases j with
    | zero => omega
    | succ j =>
      cases i with
      | zero =>
        simp only [List.getElem?_cons_zero, Option.some.injEq] at ha
        subst ha
        simp only [List.getElem?_cons_succ] at hb
        exact List.all_eq_true.1 h.1 b (List.mem_of_getElem? hb)
      | succ i =>
        simp only [List.getElem?_cons_succ] at ha hb
        exact ih h.2 i j (by omega) ha hb

/-- No point is on two detectors of the LSST camera. -/
theorem lsst_disjoint (i j : ℕ) (hij : i < j) (d e : Detector) (t t' : Option ℝ) (p : Pt) (hd : (footprint lsstCamera)[i]? = some d)
    (he : (footprint lsstCamera)[j]? = some e) (hon : isOn d tolerance t p) (hon' : isOn e tolerance t' p) : False := by
  rw [lsst_footprint, List.getElem?_map] at hd he
  cases hd0 : lsstFile[i]? with
  | none => rw [hd0] at hd; simp at hd
  | some d0 =>
    cases he0 : lsstFile[j]? with
    | none => rw [he0] at he; simp at he
    | some e0 =>
      rw [hd0] at hd; rw [he0] at he
      simp only [Option.map_some, Option.some.injEq] at hd he
      subst hd; subst he
      obtain ⟨hi, hi'⟩ := List.getElem?_eq_some_iff.1 hd0
      obtain ⟨hj, hj'⟩ := List.getElem?_eq_some_iff.1 he0
      have hlen : lsstFile.length = boxes.length := by rw [boxes_length.1, boxes_length.2]
      have hbi : boxes[i]? = some (boxes[i]'(hlen ▸ hi)) := List.getElem?_eq_getElem _
      have hbj : boxes[j]? = some (boxes[j]'(hlen ▸ hj)) := List.getElem?_eq_getElem _
      have hz : ∀ (k : ℕ) (x : String × List (ℤ × ℤ)) (b : ℤ × ℤ × ℤ × ℤ), lsstFile[k]? = some x → boxes[k]? = some b → x.2.all (inBox b) = true := by
        intro k x b hx hb
        have hmem : (x, b) ∈ lsstFile.zip boxes := by
          apply List.mem_of_getElem? (i := k)
          rw [List.getElem?_zip_eq_some]
          exact ⟨hx, hb⟩
        exact List.all_eq_true.1 boxes_ok _ hmem
      have b1 := lsst_box d0 (List.mem_of_getElem? hd0) _ (hz i d0 _ hd0 hbi) t p hon
      have b2 := lsst_box e0 (List.mem_of_getElem? he0) _ (hz j e0 _ he0 hbj) t' p hon'
      have hap := allPairs_get apart boxes boxes_apart i j hij _ _ hbi hbj
      generalize boxes[i]'(hlen ▸ hi) = u at *
      generalize boxes[j]'(hlen ▸ hj) = v at *
      simp only [apart, Bool.or_eq_true, decide_eq_true_eq] at hap
      have cast : ∀ x y : ℤ, x + 1300000000000000 ≤ y → (x : ℝ) / 10 ^ 19 + 0.00013 ≤ (y : ℝ) / 10 ^ 19 := by
        intro x y hxy
        have : ((x + 1300000000000000 : ℤ) : ℝ) ≤ (y : ℝ) := Int.cast_le.2 hxy
        push_cast at this
        rw [le_div_iff₀ (by positivity), add_mul, div_mul_cancel₀ _ (by positivity)]
        norm_num at this ⊢
        linarith
      rcases hap with ((hap | hap) | hap) | hap <;> have := cast _ _ hap <;> linarith

/-- C73 (once): with the built-in LSST camera, whatever the edge threshold, no observation is reported on two detectors, so no
observation is duplicated. -/
theorem C73_lsst_once (t : Option ℝ) (rows : List (ℝ × ℝ × ℝ × ℝ × ℝ)) : ((observe lsstCamera t rows).map (·.1)).Nodup := by
  unfold observe
  obtain ⟨hnd, hiff⟩ := C31_rows (footprint lsstCamera) tolerance t (rows.map fun r =>
    radecToFocalPlane (Photom.deg2rad r.1) (Photom.deg2rad r.2.1) (Photom.deg2rad r.2.2.1) (Photom.deg2rad r.2.2.2.1) (Photom.deg2rad r.2.2.2.2))
  refine hnd.map_on ?_
  rintro ⟨i, k⟩ h1 ⟨i', k'⟩ h2 hi
  simp only at hi
  subst hi
  obtain ⟨p, d, hp, hd, hon⟩ := (hiff i k).1 h1
  obtain ⟨p', d', hp', hd', hon'⟩ := (hiff i k').1 h2
  rw [hp] at hp'
  have := Option.some.inj hp'
  subst this
  rcases lt_trichotomy k k' with h | h | h
  · exact (lsst_disjoint k k' h d d' t t p hd hd' hon hon').elim
  · rw [h]
  · exact (lsst_disjoint k' k h d' d t t p hd' hd hon' hon).elim

/-- C73 (seen): with the built-in LSST camera a position whose image lies on a detector, and further than the edge threshold from
its sides if there is one, is reported, on that detector. -/
theorem C73_lsst_seen (t : Option ℝ) (rows : List (ℝ × ℝ × ℝ × ℝ × ℝ)) (i : ℕ) (ra dec fra fdec rot : ℝ)
    (hr : rows[i]? = some (ra, dec, fra, fdec, rot)) (n : String) (hn : n ∈ lsstCamera.map (·.1)) (p : Pt)
    (hp : p = radecToFocalPlane (ra * (Real.pi / 180)) (dec * (Real.pi / 180)) (fra * (Real.pi / 180)) (fdec * (Real.pi / 180)) (rot * (Real.pi / 180)))
    (hin : p ∈ region ((cornersOf lsstCamera n).map projectCorner))
    (ht : ∀ s, t = some s → ∀ a b, Side ((cornersOf lsstCamera n).map projectCorner) a b → ∀ q ∈ segment ℝ a b,
      s / 3600 * (Real.pi / 180) < Spec.dist p q) :
    ∃ k, (i, k) ∈ observe lsstCamera t rows ∧
      (footprint lsstCamera)[k]? = some (sortCorners (Detector.init (cornersOf lsstCamera n))) := by
  obtain ⟨d, hd, rfl⟩ := lsst_names n hn
  have hcor : cornersOf lsstCamera d.1 = d.2.map (toPt 19) := filter_read 19 lsstFile names_lsst d hd
  rw [hcor] at hin ht ⊢
  obtain ⟨k, hk, hk'⟩ := List.mem_iff_getElem.1 hd
  have hfk : (footprint lsstCamera)[k]? = some (sortCorners (Detector.init (d.2.map (toPt 19)))) := by
    rw [lsst_footprint, List.getElem?_map, List.getElem?_eq_getElem hk, hk']; rfl
  refine ⟨k, ?_, hfk⟩
  unfold observe
  rw [(C31_rows _ _ _ _).2]
  refine ⟨p, _, ?_, hfk, ?_⟩
  · rw [List.getElem?_map, hr, hp]; rfl
  · have htol : (0 : ℝ) ≤ tolerance := by unfold tolerance; norm_num
    have h0 := (C31_tolerance _ (lsst_convex d hd) tolerance htol p).1 hin
    cases t with
    | none => exact h0
    | some s => exact (C31_edge _ (lsst_convex d hd) tolerance s p).2 ⟨h0, ht s rfl⟩

/-- A point accepted by a detector of the LSST camera is less than 0.03588 from the centre of the focal plane. -/
theorem lsst_radius (d : String × List (ℤ × ℤ)) (hd : d ∈ lsstFile) (t : Option ℝ) (p : Pt)
    (hon : isOn (sortCorners (Detector.init (d.2.map (toPt 19)))) tolerance t p) : p.1 ^ 2 + p.2 ^ 2 ≤ 0.03588 ^ 2 := by
  obtain ⟨a, b, c, e, h, hok, hccw⟩ := lsst_ccw d hd
  have hl : (d.2.map (toPt 19)).map projectCorner =
      [projectCorner (toPt 19 a), projectCorner (toPt 19 b), projectCorner (toPt 19 c), projectCorner (toPt 19 e)] := by rw [h]; rfl
  have htol : (0 : ℝ) ≤ tolerance ∧ 2 * tolerance / 0.00001 ≤ 0.000003 := by unfold tolerance; constructor <;> norm_num
  have bound := accepted_bound _ hl (by norm_num) hccw tolerance htol.1 t p hon p.1 p.2
  by_contra hcon
  push Not at hcon
  set n := √(p.1 ^ 2 + p.2 ^ 2) with hn
  have hn2 : n ^ 2 = p.1 ^ 2 + p.2 ^ 2 := Real.sq_sqrt (by positivity)
  have hn0 : 0 ≤ n := Real.sqrt_nonneg _
  have hnl : 0.03588 < n := by
    rw [hn]; exact Real.lt_sqrt_of_sq_lt hcon
  have hcor : ∀ v ∈ d.2, |p.1 * (projectCorner (toPt 19 v)).1 + p.2 * (projectCorner (toPt 19 v)).2| ≤ n * 0.03587 := by
    intro v hv
    have hnr := near_of (hok v hv)
    have hc := (corner_of (hok v hv)).2.2
    unfold Near at hnr
    set w := projectCorner (toPt 19 v)
    set o := toPt 19 v
    have h1 : |p.1 * o.1 + p.2 * o.2| ≤ n * 0.0358 := by
      apply abs_le_of_sq_le_sq _ (by positivity)
      rw [mul_pow, hn2]
      have := mul_le_mul_of_nonneg_left hc (by positivity : 0 ≤ p.1 ^ 2 + p.2 ^ 2)
      nlinarith [sq_nonneg (p.1 * o.2 - p.2 * o.1)]
    have h2 : |p.1 * (w.1 - o.1) + p.2 * (w.2 - o.2)| ≤ n * 0.00007 := by
      apply abs_le_of_sq_le_sq _ (by positivity)
      rw [mul_pow, hn2]
      have e1 : (w.1 - o.1) ^ 2 ≤ 0.00004 ^ 2 := sq_le_sq' (by linarith [(abs_le.1 hnr.1).1]) (abs_le.1 hnr.1).2
      have e2 : (w.2 - o.2) ^ 2 ≤ 0.00004 ^ 2 := sq_le_sq' (by linarith [(abs_le.1 hnr.2).1]) (abs_le.1 hnr.2).2
      have := mul_le_mul_of_nonneg_left (by norm_num at *; linarith : (w.1 - o.1) ^ 2 + (w.2 - o.2) ^ 2 ≤ 0.00007 ^ 2) (by positivity : 0 ≤ p.1 ^ 2 + p.2 ^ 2)
      nlinarith [sq_nonneg (p.1 * (w.2 - o.2) - p.2 * (w.1 - o.1))]
    have e3 : p.1 * w.1 + p.2 * w.2 = (p.1 * o.1 + p.2 * o.2) + (p.1 * (w.1 - o.1) + p.2 * (w.2 - o.2)) := by ring
    rw [e3]
    calc _ ≤ |p.1 * o.1 + p.2 * o.2| + |p.1 * (w.1 - o.1) + p.2 * (w.2 - o.2)| := abs_add_le _ _
      _ ≤ _ := by linarith
  have ha := hcor a (by rw [h]; simp)
  have hb := hcor b (by rw [h]; simp)
  have hc := hcor c (by rw [h]; simp)
  have he := hcor e (by rw [h]; simp)
  set A := projectCorner (toPt 19 a)
  set B := projectCorner (toPt 19 b)
  set C := projectCorner (toPt 19 c)
  set E := projectCorner (toPt 19 e)
  rw [abs_le] at ha hb hc he
  have hb1 := bound (n * 0.03587) (by
    intro v hv
    simp only [List.mem_cons, List.not_mem_nil, or_false] at hv
    rcases hv with rfl | rfl | rfl | rfl
    · exact ha.2
    · exact hb.2
    · exact hc.2
    · exact he.2)
  have hd0 : 0 ≤ n * 0.03587 - (p.1 * ((A.1 + B.1 + C.1 + E.1) / 4) + p.2 * ((A.2 + B.2 + C.2 + E.2) / 4)) := by linarith [ha.2, hb.2, hc.2, he.2]
  have hd1 : n * 0.03587 - (p.1 * ((A.1 + B.1 + C.1 + E.1) / 4) + p.2 * ((A.2 + B.2 + C.2 + E.2) / 4)) ≤ n * 0.08 := by
    linarith [ha.1, hb.1, hc.1, he.1]
  have := mul_le_mul htol.2 hd1 hd0 (by norm_num)
  nlinarith

theorem cos_separation (ra1 dec1 ra2 dec2 : ℝ) : Real.cos (separation ra1 dec1 ra2 dec2 * (Real.pi / 180)) =
    Real.cos (dec1 * (Real.pi / 180)) * Real.cos (dec2 * (Real.pi / 180)) * Real.cos (ra1 * (Real.pi / 180) - ra2 * (Real.pi / 180)) +
      Real.sin (dec1 * (Real.pi / 180)) * Real.sin (dec2 * (Real.pi / 180)) := by
  have e : separation ra1 dec1 ra2 dec2 * (Real.pi / 180) = InnerProductGeometry.angle (direction ra1 dec1) (direction ra2 dec2) := by
    unfold separation
    have := Real.pi_ne_zero
    field_simp
  rw [e]
  have n1 := (Photom.Props.C27_unit ra1 dec1).2
  have n2 := (Photom.Props.C27_unit ra2 dec2).2
  rw [InnerProductGeometry.cos_angle, n1, n2, Real.cos_sub]
  simp only [direction, PiLp.inner_apply, Fin.sum_univ_three]
  simp
  ring_nf

/-- C73 (radius): whatever the edge threshold, a position in the hemisphere of the field centre that is reported with the built-in
LSST camera is within 2.06 degrees of the field centre, the radius of the search for visible objects in the supplied
configurations: the search misses nothing that the camera sees. -/
theorem C73_lsst_radius (t : Option ℝ) (rows : List (ℝ × ℝ × ℝ × ℝ × ℝ)) (i k : ℕ) (ra dec fra fdec rot : ℝ)
    (hr : rows[i]? = some (ra, dec, fra, fdec, rot)) (hf : |fdec| < 90) (hs : separation ra dec fra fdec < 90)
    (h : (i, k) ∈ observe lsstCamera t rows) : separation ra dec fra fdec ≤ 2.06 := by
  unfold observe at h
  obtain ⟨p, d, hp, hd, hon⟩ := ((C31_rows _ _ _ _).2 i k).1 h
  rw [List.getElem?_map, hr] at hp
  simp only [Option.map_some, Option.some.injEq] at hp
  rw [lsst_footprint, List.getElem?_map] at hd
  cases hd0 : lsstFile[k]? with
  | none => rw [hd0] at hd; simp at hd
  | some d0 =>
    rw [hd0] at hd
    simp only [Option.map_some, Option.some.injEq] at hd
    subst hd
    have hrad := lsst_radius d0 (List.mem_of_getElem? hd0) t p hon
    have hpi := Real.pi_pos
    have hsep0 : 0 ≤ separation ra dec fra fdec := by
      unfold separation
      have := InnerProductGeometry.angle_nonneg (direction ra dec) (direction fra fdec)
      positivity
    have hcos := cos_separation ra dec fra fdec
    have hcpos : 0 < Real.cos (separation ra dec fra fdec * (Real.pi / 180)) := by
      apply Real.cos_pos_of_mem_Ioo
      constructor
      · have : 0 ≤ separation ra dec fra fdec * (Real.pi / 180) := by positivity
        linarith
      · have : separation ra dec fra fdec * (Real.pi / 180) < 90 * (Real.pi / 180) := by gcongr
        linarith
    have hfc : 0 < Real.cos (fdec * (Real.pi / 180)) := by
      rw [abs_lt] at hf
      apply Real.cos_pos_of_mem_Ioo
      constructor
      · have : -90 * (Real.pi / 180) < fdec * (Real.pi / 180) := by gcongr; linarith
        linarith
      · have : fdec * (Real.pi / 180) < 90 * (Real.pi / 180) := by gcongr; linarith
        linarith
    rw [hcos] at hcpos
    obtain ⟨x, y, κ, e1, e2, e3, e4, e5⟩ := C31_projection (ra * (Real.pi / 180)) (dec * (Real.pi / 180)) (fra * (Real.pi / 180))
      (fdec * (Real.pi / 180)) (rot * (Real.pi / 180)) hfc hcpos.ne'
    have hpe : p = (x * Real.cos (rot * (Real.pi / 180)) - y * Real.sin (rot * (Real.pi / 180)),
        x * Real.sin (rot * (Real.pi / 180)) + y * Real.cos (rot * (Real.pi / 180))) := by
      rw [← hp, ← e5]; rfl
    rw [← hcos] at e4 hcpos
    set D := Real.cos (separation ra dec fra fdec * (Real.pi / 180)) with hD
    have hxy : x ^ 2 + y ^ 2 ≤ 0.03588 ^ 2 := by
      rw [hpe] at hrad
      simp only at hrad
      have := Real.sin_sq_add_cos_sq (rot * (Real.pi / 180))
      have e : (x * Real.cos (rot * (Real.pi / 180)) - y * Real.sin (rot * (Real.pi / 180))) ^ 2 +
          (x * Real.sin (rot * (Real.pi / 180)) + y * Real.cos (rot * (Real.pi / 180))) ^ 2 =
          (x ^ 2 + y ^ 2) * (Real.sin (rot * (Real.pi / 180)) ^ 2 + Real.cos (rot * (Real.pi / 180)) ^ 2) := by ring
      rw [e, this, mul_one] at hrad
      exact hrad
    have hk2 : κ ^ 2 = 1 + x ^ 2 + y ^ 2 := by
      have s1 := Real.sin_sq_add_cos_sq (ra * (Real.pi / 180))
      have s2 := Real.sin_sq_add_cos_sq (dec * (Real.pi / 180))
      have s3 := Real.sin_sq_add_cos_sq (fra * (Real.pi / 180))
      have s4 := Real.sin_sq_add_cos_sq (fdec * (Real.pi / 180))
      have hlhs : (κ * (Real.cos (ra * (Real.pi / 180)) * Real.cos (dec * (Real.pi / 180)))) ^ 2 +
          (κ * (Real.sin (ra * (Real.pi / 180)) * Real.cos (dec * (Real.pi / 180)))) ^ 2 + (κ * Real.sin (dec * (Real.pi / 180))) ^ 2 = κ ^ 2 := by
        have : (κ * (Real.cos (ra * (Real.pi / 180)) * Real.cos (dec * (Real.pi / 180)))) ^ 2 +
          (κ * (Real.sin (ra * (Real.pi / 180)) * Real.cos (dec * (Real.pi / 180)))) ^ 2 + (κ * Real.sin (dec * (Real.pi / 180))) ^ 2 =
          κ ^ 2 * ((Real.sin (ra * (Real.pi / 180)) ^ 2 + Real.cos (ra * (Real.pi / 180)) ^ 2) * Real.cos (dec * (Real.pi / 180)) ^ 2 +
            Real.sin (dec * (Real.pi / 180)) ^ 2) := by ring
        rw [this, s1, one_mul, add_comm, s2, mul_one]
      rw [← hlhs, e1, e2, e3]
      generalize Real.sin (fra * (Real.pi / 180)) = sf at *
      generalize Real.cos (fra * (Real.pi / 180)) = cf at *
      generalize Real.sin (fdec * (Real.pi / 180)) = sd at *
      generalize Real.cos (fdec * (Real.pi / 180)) = cd at *
      have hs3 : sf ^ 2 = 1 - cf ^ 2 := by linarith
      have hs4 : sd ^ 2 = 1 - cd ^ 2 := by linarith
      ring_nf
      rw [hs3, hs4]
      ring
    have hkp : 0 < κ := by
      by_contra hneg
      push Not at hneg
      nlinarith
    have hk : κ ≤ 1.0006435 := by
      by_contra hgt
      push Not at hgt
      norm_num at hxy
      nlinarith
    by_contra hcon
    push Not at hcon
    have hlt : D < Real.cos (2.06 * (Real.pi / 180)) := by
      apply Real.cos_lt_cos_of_nonneg_of_le_pi (by positivity)
      · have : separation ra dec fra fdec * (Real.pi / 180) ≤ 90 * (Real.pi / 180) := by gcongr
        linarith
      · gcongr
    have hpl := Real.pi_gt_d4
    have hpu := Real.pi_lt_d4
    have hθ1 : (0.03595 : ℝ) ≤ 2.06 * (Real.pi / 180) := by norm_num at hpl ⊢; linarith
    have hθ2 : 2.06 * (Real.pi / 180) ≤ 0.03596 := by norm_num at hpu ⊢; linarith
    have hcb := Real.cos_bound (x := 2.06 * (Real.pi / 180)) (by rw [abs_of_nonneg (by positivity)]; linarith)
    rw [abs_of_nonneg (by positivity : (0 : ℝ) ≤ 2.06 * (Real.pi / 180)), abs_le] at hcb
    generalize 2.06 * (Real.pi / 180) = θ at *
    have h4 : θ ^ 4 ≤ 0.03596 ^ 4 := by gcongr
    have h2 : (0.03595 : ℝ) ^ 2 ≤ θ ^ 2 := by gcongr
    have hDu : D < 0.999354 := by norm_num at h4 h2; linarith [hcb.2]
    have : κ * D < 1.0006435 * 0.999354 := by
      calc κ * D ≤ 1.0006435 * D := by gcongr
        _ < _ := by gcongr
    norm_num at this
    linarith

/-- The field centre is on detector 94, more than two arcseconds from its sides. -/
theorem center_inside : ((0, 0) : Pt) ∈ region ((cornersOf lsstCamera "94").map projectCorner) ∧
    ∀ u v, Side ((cornersOf lsstCamera "94").map projectCorner) u v → ∀ q ∈ segment ℝ u v, 2 / 3600 * (Real.pi / 180) < Spec.dist (0, 0) q := by
  have hd : ("94", [((19348700233431325 : ℤ), (-19711469191125790 : ℤ)), (19344791204188570, 19771529062389600), (-19440076578457468, 19767688893238680),
      (-19436168345675954, -19715308066026400)]) ∈ lsstFile := by decide +kernel
  have hcor := filter_read 19 lsstFile names_lsst _ hd
  obtain ⟨a, b, c, e, hl, hok, hccw⟩ := lsst_ccw _ hd
  simp only [List.cons.injEq, and_true] at hl
  obtain ⟨rfl, rfl, rfl, rfl⟩ := hl
  have hcv := lsst_convex _ hd
  have near : ∀ v : ℤ × ℤ, cornerOk v = true → Near (toPt 19 v) (projectCorner (toPt 19 v)) := fun v hv => near_of hv
  have n1 := near (19348700233431325, -19711469191125790) (by decide +kernel)
  have n2 := near (19344791204188570, 19771529062389600) (by decide +kernel)
  have n3 := near (-19440076578457468, 19767688893238680) (by decide +kernel)
  have n4 := near (-19436168345675954, -19715308066026400) (by decide +kernel)
  have hside : ∀ u v, Side ((List.map (toPt 19) [((19348700233431325 : ℤ), (-19711469191125790 : ℤ)), (19344791204188570, 19771529062389600),
      (-19440076578457468, 19767688893238680), (-19436168345675954, -19715308066026400)]).map projectCorner) u v →
      (0.0018 ≤ u.1 ∧ 0.0018 ≤ v.1 ∨ 0.0018 ≤ u.2 ∧ 0.0018 ≤ v.2 ∨ u.1 ≤ -0.0018 ∧ v.1 ≤ -0.0018 ∨ u.2 ≤ -0.0018 ∧ v.2 ≤ -0.0018) ∧
        0 ≤ left u v (0, 0) := by
    intro u v hs
    unfold Near toPt at n1 n2 n3 n4
    simp only [abs_le] at n1 n2 n3 n4
    norm_num at n1 n2 n3 n4
    rcases ccw_side_cases (by norm_num) hccw hs with ⟨rfl, rfl⟩ | ⟨rfl, rfl⟩ | ⟨rfl, rfl⟩ | ⟨rfl, rfl⟩
    all_goals
      unfold toPt left
      norm_num
      obtain ⟨⟨p1, p2⟩, p3, p4⟩ := n1
      obtain ⟨⟨q1, q2⟩, q3, q4⟩ := n2
      obtain ⟨⟨r1, r2⟩, r3, r4⟩ := n3
      obtain ⟨⟨s1, s2⟩, s3, s4⟩ := n4
    · exact ⟨.inl ⟨by linarith, by linarith⟩, by nlinarith⟩
    · exact ⟨.inr (.inl ⟨by linarith, by linarith⟩), by nlinarith⟩
    · exact ⟨.inr (.inr (.inl ⟨by linarith, by linarith⟩)), by nlinarith⟩
    · exact ⟨.inr (.inr (.inr ⟨by linarith, by linarith⟩)), by nlinarith⟩
  have hreg := region_of_sides _ hcv (0, 0) (fun u v hs => (hside u v hs).2)
  refine ⟨by rw [show cornersOf lsstCamera "94" = _ from hcor]; exact hreg, ?_⟩
  · intro u v huv q hq
    rw [show cornersOf lsstCamera "94" = _ from hcor] at huv
    have hfar := (hside u v huv).1
    obtain ⟨α, β, hα, hβ, hαβ, rfl⟩ := hq
    have hpi := Real.pi_lt_d4
    have hlt : (2 : ℝ) / 3600 * (Real.pi / 180) < 0.0018 := by norm_num at hpi ⊢; linarith
    refine lt_of_lt_of_le hlt ?_
    unfold Spec.dist
    apply Real.le_sqrt_of_sq_le
    simp only [Prod.fst_add, Prod.snd_add, Prod.smul_fst, Prod.smul_snd, smul_eq_mul, zero_sub, neg_sq]
    have hβ' : β = 1 - α := by linarith
    subst hβ'
    rcases hfar with ⟨f1, f2⟩ | ⟨f1, f2⟩ | ⟨f1, f2⟩ | ⟨f1, f2⟩
    · have : 0.0018 ≤ α * u.1 + (1 - α) * v.1 := by nlinarith
      nlinarith [sq_nonneg (α * u.2 + (1 - α) * v.2)]
    · have : 0.0018 ≤ α * u.2 + (1 - α) * v.2 := by nlinarith
      nlinarith [sq_nonneg (α * u.1 + (1 - α) * v.1)]
    · have : α * u.1 + (1 - α) * v.1 ≤ -0.0018 := by nlinarith
      nlinarith [sq_nonneg (α * u.2 + (1 - α) * v.2)]
    · have : α * u.2 + (1 - α) * v.2 ≤ -0.0018 := by nlinarith
      nlinarith [sq_nonneg (α * u.1 + (1 - α) * v.1)]

/-- A concrete case: with the field centre at the origin, an object there is on a detector; all hypotheses of the theorems above
are met by it. -/
theorem center_seen : ∃ k, (0, k) ∈ observe lsstCamera (some 2) [(0, 0, 0, 0, 0)] := by
  have hd : ("94", [((19348700233431325 : ℤ), (-19711469191125790 : ℤ)), (19344791204188570, 19771529062389600), (-19440076578457468, 19767688893238680),
      (-19436168345675954, -19715308066026400)]) ∈ lsstFile := by decide +kernel
  have hn : "94" ∈ lsstCamera.map (·.1) := by
    refine List.mem_map.2 ⟨("94", toPt 19 (19348700233431325, -19711469191125790)), ?_, rfl⟩
    exact List.mem_flatMap.2 ⟨_, hd, by simp [toPt]⟩
  have hp : ((0, 0) : Pt) = radecToFocalPlane (0 * (Real.pi / 180)) (0 * (Real.pi / 180)) (0 * (Real.pi / 180)) (0 * (Real.pi / 180)) (0 * (Real.pi / 180)) := by
    rw [zero_mul, C31_corners]; simp [projectCorner]
  obtain ⟨k, hk, -⟩ := C73_lsst_seen (some 2) [(0, 0, 0, 0, 0)] 0 0 0 0 0 0 rfl "94" hn (0, 0) hp center_inside.1 (by
    intro s hs
    have := Option.some.inj hs
    subst this
    exact center_inside.2)
  exact ⟨k, hk⟩

/-! ## The built-in DES camera -/

theorem convexPosition_perm {l m : List Pt} (h : l.Perm m) (hl : ConvexPosition l) : ConvexPosition m := by
  obtain ⟨h1, h2, h3⟩ := hl
  refine ⟨h.length_eq ▸ h1, h.nodup_iff.1 h2, fun v hv => ?_⟩
  have := h3 v (h.mem_iff.2 hv)
  have e : {p | p ∈ l ∧ p ≠ v} = {p | p ∈ m ∧ p ≠ v} := by
    ext p; simp only [Set.mem_ofPred_eq, h.mem_iff]
  rwa [e] at this

theorem corner_down (u v : ℝ) (hu : |u| ≤ 0.16) (hv : 0 < v) (hv' : v ≤ 0.16) :
    (projectCorner (u, -v)).1 = Real.tan u ∧ v ≤ -(projectCorner (u, -v)).2 ∧ -(projectCorner (u, -v)).2 ≤ v / 0.974 := by
  have hcu := Real.one_sub_sq_div_two_le_cos (x := u)
  have hcv := Real.one_sub_sq_div_two_le_cos (x := v)
  have hu2 : u ^ 2 ≤ 0.16 ^ 2 := sq_le_sq' (by linarith [(abs_le.1 hu).1]) (abs_le.1 hu).2
  have hv2 : v ^ 2 ≤ 0.16 ^ 2 := by gcongr
  have cu : 0.987 ≤ Real.cos u := by norm_num at hu2; linarith
  have cv : 0.987 ≤ Real.cos v := by norm_num at hv2; linarith
  have hsv := Real.sin_lt hv
  have htv := Real.le_tan hv.le (by have := Real.pi_gt_d2; norm_num at this; linarith)
  unfold projectCorner
  simp only [Real.sin_neg, Real.cos_neg, neg_div, neg_neg]
  refine ⟨?_, ?_, ?_⟩
  · rw [Real.tan_eq_sin_div_cos]; field_simp
  · rw [Real.tan_eq_sin_div_cos, le_div_iff₀ (by linarith)] at htv
    rw [le_div_iff₀ (by positivity)]
    have := Real.cos_le_one u
    nlinarith [mul_nonneg hv.le (by linarith : 0 ≤ Real.cos v)]
  · rw [div_le_div_iff₀ (by positivity) (by norm_num)]
    have : 0.974 ≤ Real.cos u * Real.cos v := by nlinarith
    nlinarith

/-- The built-in DES camera reads its file, which is in degrees (no number in it exceeds 1.2), as radians. As a result every position on the
meridian of a field at the origin from half a degree to eight degrees south of it is reported as being on detector number 3
(N4), although the real camera ends about a degree from its centre. -/
theorem C73_des_fails :
    (∀ r ∈ desCamera, |r.2.1| ≤ 1.2 ∧ |r.2.2| ≤ 1.2) ∧
    ∀ dec : ℝ, -8 ≤ dec → dec ≤ -0.5 → (0, 3) ∈ observe desCamera none [(0, dec, 0, 0, 0)] := by
  constructor
  · have hall : desFile.all (fun d => d.2.all fun c => decide (-1200000000 ≤ c.1) && decide (c.1 ≤ 1200000000) &&
        decide (-1200000000 ≤ c.2) && decide (c.2 ≤ 1200000000)) = true := by decide +kernel
    intro r hr
    obtain ⟨d, hd, hr⟩ := List.mem_flatMap.1 hr
    obtain ⟨c, hc, rfl⟩ := List.mem_map.1 hr
    have := List.all_eq_true.1 (List.all_eq_true.1 hall d hd) c hc
    simp only [Bool.and_eq_true, decide_eq_true_eq] at this
    obtain ⟨⟨⟨h1, h2⟩, h3⟩, h4⟩ := this
    have h1' : ((-1200000000 : ℤ) : ℝ) ≤ (c.1 : ℝ) := Int.cast_le.2 h1
    have h2' : (c.1 : ℝ) ≤ ((1200000000 : ℤ) : ℝ) := Int.cast_le.2 h2
    have h3' : ((-1200000000 : ℤ) : ℝ) ≤ (c.2 : ℝ) := Int.cast_le.2 h3
    have h4' : (c.2 : ℝ) ≤ ((1200000000 : ℤ) : ℝ) := Int.cast_le.2 h4
    push_cast at h1' h2' h3' h4'
    simp only
    constructor <;> rw [abs_le] <;> constructor <;> norm_num <;> linarith
  · intro dec hd1 hd2
    have hne : ∀ d ∈ desFile, d.2 ≠ [] := by
      have : desFile.all (fun d => !d.2.isEmpty) = true := by decide +kernel
      intro d hd
      have := List.all_eq_true.1 this d hd
      intro h0
      rw [h0] at this
      simp at this
    have hfile : desFile[3]? = some ("N4", [(-150127000, -157470000), (-150127000, -7490850), (149894000, -7490850), (149894000, -157470000)]) := by decide +kernel
    have hfp : (footprint desCamera)[3]? = some (sortCorners (Detector.init ([(-150127000, -157470000), (-150127000, -7490850), (149894000, -7490850),
        (149894000, -157470000)].map (toPt 9)))) := by
      unfold desCamera
      rw [footprint_read 9 desFile names_des hne, List.getElem?_map, hfile]; rfl
    unfold observe
    rw [(C31_rows _ _ _ _).2]
    refine ⟨_, _, rfl, hfp, ?_⟩
    simp only [Photom.deg2rad, zero_mul, C31_corners]
    set pts : List Pt := [(-150127000, -157470000), (-150127000, -7490850), (149894000, -7490850), (149894000, -157470000)].map (toPt 9) with hpts
    have hptse : pts = [(-0.150127, -0.15747), (-0.150127, -0.00749085), (0.149894, -0.00749085), (0.149894, -0.15747)] := by
      rw [hpts]; simp only [List.map_cons, List.map_nil, toPt]; norm_num
    obtain ⟨xa, ya, ya'⟩ := corner_down (-0.150127) 0.15747 (by rw [abs_le]; constructor <;> norm_num) (by norm_num) (by norm_num)
    obtain ⟨xb, yb, yb'⟩ := corner_down (-0.150127) 0.00749085 (by rw [abs_le]; constructor <;> norm_num) (by norm_num) (by norm_num)
    obtain ⟨xc, yc, yc'⟩ := corner_down 0.149894 0.00749085 (by rw [abs_le]; constructor <;> norm_num) (by norm_num) (by norm_num)
    obtain ⟨xd, yd, yd'⟩ := corner_down 0.149894 0.15747 (by rw [abs_le]; constructor <;> norm_num) (by norm_num) (by norm_num)
    have t1 : 0 < Real.tan 0.150127 := lt_trans (by norm_num) (Real.lt_tan (by norm_num) (by have := Real.pi_gt_d2; norm_num at this ⊢; linarith))
    have t2 : 0 < Real.tan 0.149894 := lt_trans (by norm_num) (Real.lt_tan (by norm_num) (by have := Real.pi_gt_d2; norm_num at this ⊢; linarith))
    rw [Real.tan_neg] at xa xb
    have hl : pts.map projectCorner = [projectCorner (-0.150127, -0.15747), projectCorner (-0.150127, -0.00749085),
        projectCorner (0.149894, -0.00749085), projectCorner (0.149894, -0.15747)] := by rw [hptse]; rfl
    set a := projectCorner (-0.150127, -0.15747)
    set b := projectCorner (-0.150127, -0.00749085)
    set c := projectCorner (0.149894, -0.00749085)
    set d := projectCorner (0.149894, -0.15747)
    have hb' : -0.0077 ≤ b.2 := by norm_num at yb' ⊢; linarith
    have hc' : -0.0077 ≤ c.2 := by norm_num at yc' ⊢; linarith
    have ha' : a.2 ≤ -0.157 := by norm_num at ya ⊢; linarith
    have hd' : d.2 ≤ -0.157 := by norm_num at yd ⊢; linarith
    have hm : 0 < (Real.tan 0.149894 + Real.tan 0.150127) * 0.149 := by positivity
    have hccw : Ccw ((Real.tan 0.149894 + Real.tan 0.150127) * 0.149) a d c b := by
      unfold Ccw left
      rw [xa, xb, xc, xd]
      refine ⟨?_, ?_, ?_, ?_⟩ <;> nlinarith
    have hconv : ConvexPosition (pts.map projectCorner) := by
      rw [hl]
      refine convexPosition_perm ?_ (ccw_convex hm hccw)
      refine List.Perm.cons a ?_
      exact (List.Perm.swap c d [b]).trans ((List.Perm.cons c (List.Perm.swap b d [])).trans (List.Perm.swap b c [d]))
    refine (C31_tolerance pts hconv tolerance (by unfold tolerance; norm_num) _).1 ?_
    -- the object is in the polygon
    have hy : (projectCorner (0, dec * (Real.pi / 180))).1 = 0 ∧ -0.157 ≤ (projectCorner (0, dec * (Real.pi / 180))).2 ∧
        (projectCorner (0, dec * (Real.pi / 180))).2 ≤ -0.0077 := by
      have hpl := Real.pi_gt_d4
      have hpu := Real.pi_lt_d4
      norm_num at hpl hpu
      have hv1 : 0.0087 ≤ -dec * (Real.pi / 180) := by nlinarith
      have hv2 : -dec * (Real.pi / 180) ≤ 0.13965 := by nlinarith
      have := corner_down 0 (-dec * (Real.pi / 180)) (by simp; norm_num) (by linarith) (by linarith)
      rw [show -(-dec * (Real.pi / 180)) = dec * (Real.pi / 180) by ring] at this
      obtain ⟨e1, e2, e3⟩ := this
      refine ⟨by rw [e1, Real.tan_zero], ?_, by linarith⟩
      have : -dec * (Real.pi / 180) / 0.974 ≤ 0.157 := by rw [div_le_iff₀ (by norm_num)]; norm_num; linarith
      linarith
    set p := projectCorner (0, dec * (Real.pi / 180))
    unfold region
    rw [hl]
    set S : Set Pt := {q | q ∈ [a, b, c, d]}
    have hS := convex_convexHull ℝ S
    have mem : ∀ q ∈ [a, b, c, d], q ∈ convexHull ℝ S := fun q hq => subset_convexHull ℝ S hq
    set X1 := Real.tan 0.150127
    set X2 := Real.tan 0.149894
    have hsum : X2 / (X1 + X2) + X1 / (X1 + X2) = 1 := by field_simp; ring
    have hP := hS (mem a (by simp)) (mem d (by simp)) (a := X2 / (X1 + X2)) (b := X1 / (X1 + X2)) (by positivity) (by positivity) hsum
    have hQ := hS (mem b (by simp)) (mem c (by simp)) (a := X2 / (X1 + X2)) (b := X1 / (X1 + X2)) (by positivity) (by positivity) hsum
    set P := (X2 / (X1 + X2)) • a + (X1 / (X1 + X2)) • d with hPd
    set Q := (X2 / (X1 + X2)) • b + (X1 / (X1 + X2)) • c with hQd
    have hw1 : 0 ≤ X2 / (X1 + X2) := by positivity
    have hw2 : 0 ≤ X1 / (X1 + X2) := by positivity
    have hP1 : P.1 = 0 := by
      rw [hPd]; simp only [Prod.fst_add, Prod.smul_fst, smul_eq_mul, xa, xd]; field_simp; ring
    have hQ1 : Q.1 = 0 := by
      rw [hQd]; simp only [Prod.fst_add, Prod.smul_fst, smul_eq_mul, xb, xc]; field_simp; ring
    have hP2 : P.2 ≤ -0.157 := by
      rw [hPd]; simp only [Prod.snd_add, Prod.smul_snd, smul_eq_mul]; nlinarith
    have hQ2 : -0.0077 ≤ Q.2 := by
      rw [hQd]; simp only [Prod.snd_add, Prod.smul_snd, smul_eq_mul]; nlinarith
    have hden : 0 < Q.2 - P.2 := by linarith
    have hfin := hS hP hQ (a := (Q.2 - p.2) / (Q.2 - P.2)) (b := (p.2 - P.2) / (Q.2 - P.2)) (div_nonneg (by linarith) hden.le)
      (div_nonneg (by linarith) hden.le) (by field_simp; ring)
    convert hfin using 1
    refine Prod.ext ?_ ?_
    · simp only [Prod.fst_add, Prod.smul_fst, smul_eq_mul, hP1, hQ1, hy.1]; ring
    · simp only [Prod.snd_add, Prod.smul_snd, smul_eq_mul]; field_simp; ring

end Sorcha.Cameras.Props
