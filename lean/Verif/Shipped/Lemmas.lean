import Verif.Shipped.Model
import Verif.Shipped.Spec
import Verif.Cameras.Edge
import Verif.Ini.Accept
import Verif.Pipeline.Props
import Verif.Pointing.Props

/-!
# Lemmas on runs with the supplied configurations
-/

namespace Sorcha.Shipped

open Sorcha.Pipeline (Env Row Final State)
open Sorcha.Geom.Spec Spec

variable {G W V : Type}

theorem polygon_eq (cs : List (ℤ × ℤ)) : polygon cs = (cs.map (Cameras.toPt 19)).map Geom.projectCorner ∨ ∃ c ∈ cs, Real.cos ((c.2 : ℝ) / 10 ^ 19) = 0 := by
  by_cases h : ∃ c ∈ cs, Real.cos ((c.2 : ℝ) / 10 ^ 19) = 0
  · exact .inr h
  · left
    push Not at h
    unfold polygon
    rw [List.map_map]
    apply List.map_congr_left
    intro c hc
    have := h c hc
    unfold Cameras.toPt Geom.projectCorner
    simp only [Function.comp_apply, Real.tan_eq_sin_div_cos]
    ext
    · simp only
      rw [mul_div_mul_right _ _ this]
    · simp only
      rw [div_div, mul_comm]

theorem lsst_polygon (d : String × List (ℤ × ℤ)) (hd : d ∈ Cameras.lsstFile) : polygon d.2 = (d.2.map (Cameras.toPt 19)).map Geom.projectCorner := by
  rcases polygon_eq d.2 with h | ⟨c, hc, h0⟩
  · exact h
  · exfalso
    obtain ⟨a, b, c', e, -, hok, -⟩ := Cameras.lsst_ccw d hd
    have hb := (Cameras.corner_of (hok c hc)).2.1
    have hc2 : (Cameras.toPt 19 c).2 = (c.2 : ℝ) / 10 ^ 19 := rfl
    rw [hc2] at hb
    have := Real.cos_pos_of_mem_Ioo (x := (c.2 : ℝ) / 10 ^ 19) (by
      rw [abs_le] at hb
      have := Real.pi_gt_three
      constructor <;> linarith)
    linarith

theorem image_eq (ra dec fra fdec rot : ℝ) (hf : |fdec| < 90) :
    Geom.radecToFocalPlane (Photom.deg2rad ra) (Photom.deg2rad dec) (Photom.deg2rad fra) (Photom.deg2rad fdec) (Photom.deg2rad rot) =
      image ra dec fra fdec rot := by
  have hcos : 0 < Real.cos (fdec * (Real.pi / 180)) := by
    apply Real.cos_pos_of_mem_Ioo
    rw [abs_lt] at hf
    have hpi := Real.pi_pos
    constructor <;> nlinarith
  unfold Photom.deg2rad
  unfold image
  simp only
  rw [sub_mul]
  generalize ra * (Real.pi / 180) = a at *
  generalize dec * (Real.pi / 180) = d at *
  generalize fra * (Real.pi / 180) = fa at *
  generalize fdec * (Real.pi / 180) = fd at *
  generalize rot * (Real.pi / 180) = ρ at *
  by_cases hD : Real.cos d * Real.cos fd * Real.cos (a - fa) + Real.sin d * Real.sin fd = 0
  · have hD' : Real.sin fd * Real.sin d + Real.cos fd * Real.cos d * Real.cos (a - fa) = 0 := by linarith
    rw [hD']
    have hdot : Geom.dot3 ⟨Real.cos fa * Real.cos fd, Real.sin fa * Real.cos fd, Real.sin fd⟩ ⟨Real.cos a * Real.cos d, Real.sin a * Real.cos d, Real.sin d⟩ = 0 := by
      rw [← hD, Real.cos_sub]
      unfold Geom.dot3
      ring
    have htan : Geom.radecToTangentPlane a d fa fd = (0, 0) := by
      unfold Geom.radecToTangentPlane
      simp only [hdot]
      unfold Geom.unit3 Geom.cross3 Geom.dot3
      simp only
      ext <;> simp only <;> ring
    unfold Geom.radecToFocalPlane
    simp only [htan]
    simp [show (⟨0, 0⟩ : ℂ) = 0 from rfl]
  · obtain ⟨x, y, k, h1, h2, h3, h4, h5⟩ := Geom.Props.C31_projection a d fa fd ρ hcos hD
    rw [h5]
    have hk : k ≠ 0 := by rintro rfl; simp at h4
    have hDk : Real.sin fd * Real.sin d + Real.cos fd * Real.cos d * Real.cos (a - fa) = 1 / k := by
      rw [eq_div_iff hk]; linarith
    have sfa := Real.sin_sq_add_cos_sq fa
    have sfd := Real.sin_sq_add_cos_sq fd
    have ex : x = Real.cos d * Real.sin (a - fa) / (1 / k) := by
      rw [Real.sin_sub]
      field_simp
      linear_combination Real.sin fa * h1 - Real.cos fa * h2 - x * sfa
    have ey : y = (Real.cos fd * Real.sin d - Real.sin fd * Real.cos d * Real.cos (a - fa)) / (1 / k) := by
      rw [Real.cos_sub]
      field_simp
      linear_combination (Real.sin fd * Real.cos fa) * h1 + (Real.sin fd * Real.sin fa) * h2 - Real.cos fd * h3 -
        (y * Real.sin fd ^ 2 - Real.cos fd * Real.sin fd) * sfa - y * sfd
    rw [hDk, ← ex, ← ey]
    ext <;> simp only <;> ring

/-! ## The camera -/

theorem lsst_lower {py : Config.Py} {rnd : ℚ → ℚ} (hpy : Ini.Spec.Python py rnd) (survey : String) (hs : Config.Spec.IsRubin survey) :
    Cameras.builtIn (py.lower survey) = some Cameras.lsstCamera := by
  have h1 := Cameras.Props.C73_choice
  rcases hs with rfl | rfl | rfl | rfl
  · rw [hpy.lower _ (by unfold Ini.Spec.Ascii; decide +kernel), show Ini.Spec.lowerAscii "LSST" = "lsst" by decide +kernel]; exact h1.1
  · rw [hpy.lower _ (by unfold Ini.Spec.Ascii; decide +kernel), show Ini.Spec.lowerAscii "lsst" = "lsst" by decide +kernel]; exact h1.1
  · rw [hpy.lower _ (by unfold Ini.Spec.Ascii; decide +kernel), show Ini.Spec.lowerAscii "rubin_sim" = "rubin_sim" by decide +kernel]; exact h1.2.1
  · rw [hpy.lower _ (by unfold Ini.Spec.Ascii; decide +kernel), show Ini.Spec.lowerAscii "RUBIN_SIM" = "rubin_sim" by decide +kernel]; exact h1.2.1

theorem camera_lsst {py : Config.Py} {rnd : ℚ → ℚ} (hpy : Ini.Spec.Python py rnd) (survey : String) (hs : Config.Spec.IsRubin survey)
    (field : V → ℝ × ℝ × ℝ) :
    camera (W := W) py.lower survey field (.footprint none (some (.fin 2))) = .ok (detectors field Cameras.lsstCamera (some 2)) := by
  unfold camera
  simp [lsst_lower hpy survey hs, threshold]

theorem chip_iff (field : V → ℝ × ℝ × ℝ) (r : Row W V) (k : ℕ) (hf : |(field r.rest.src.2.rest).2.1| < 90) :
    (∃ d, (detectors field Cameras.lsstCamera (some 2))[k]? = some d ∧ d r = true) ↔ OnChip (position field r) k := by
  unfold detectors
  rw [Cameras.Props.lsst_footprint]
  simp only [List.getElem?_map, Option.map_eq_some_iff]
  have him := image_eq r.rest.ra r.rest.dec (field r.rest.src.2.rest).1 (field r.rest.src.2.rest).2.1 (field r.rest.src.2.rest).2.2 hf
  constructor
  · rintro ⟨d, ⟨d1, ⟨d0, hd0, rfl⟩, rfl⟩, hon⟩
    simp only [decide_eq_true_eq] at hon
    have hm := List.mem_of_getElem? hd0
    obtain ⟨h1, h2⟩ := (Cameras.Props.lsst_exact d0 hm 2 (by norm_num) _).1 hon
    refine ⟨d0, hd0, ?_⟩
    rw [lsst_polygon d0 hm]
    unfold position
    rw [← him]
    exact ⟨h1, h2⟩
  · rintro ⟨d0, hd0, h1, h2⟩
    have hm := List.mem_of_getElem? hd0
    rw [lsst_polygon d0 hm] at h1 h2
    unfold position at h1 h2
    rw [← him] at h1 h2
    refine ⟨_, ⟨_, ⟨d0, hd0, rfl⟩, rfl⟩, ?_⟩
    simp only [decide_eq_true_eq]
    exact (Cameras.Props.lsst_exact d0 hm 2 (by norm_num) _).2 ⟨h1, h2⟩

theorem chip_unique (p : ℝ × ℝ) (i j : ℕ) (hi : OnChip p i) (hj : OnChip p j) : i = j := by
  have key : ∀ i j : ℕ, i < j → OnChip p i → OnChip p j → False := by
    rintro i j hij ⟨d, hd, h1, h2⟩ ⟨e, he, h3, h4⟩
    have hdm := List.mem_of_getElem? hd
    have hem := List.mem_of_getElem? he
    rw [lsst_polygon d hdm] at h1 h2
    rw [lsst_polygon e hem] at h3 h4
    refine Cameras.Props.lsst_disjoint i j hij (Geom.sortCorners (Geom.Detector.init (d.2.map (Cameras.toPt 19))))
      (Geom.sortCorners (Geom.Detector.init (e.2.map (Cameras.toPt 19)))) (some 2) (some 2) p ?_ ?_
      ((Cameras.Props.lsst_exact d hdm 2 (by norm_num) _).2 ⟨h1, h2⟩) ((Cameras.Props.lsst_exact e hem 2 (by norm_num) _).2 ⟨h3, h4⟩)
    · rw [Cameras.Props.lsst_footprint, List.getElem?_map, hd]; rfl
    · rw [Cameras.Props.lsst_footprint, List.getElem?_map, he]; rfl
  rcases lt_trichotomy i j with h | h | h
  · exact (key i j h hi hj).elim
  · exact h
  · exact (key j i h hj hi).elim

/-! ## The stages of a run -/

theorem run_ok {py : Config.Py} {lc ca : List String} {survey : String} {lines : List Ini.Line} {field : V → ℝ × ℝ × ℝ}
    {answer : Option (List (Pointing.Visit V))} {E : Env G W V} {s : State G} {blocks : List (List (Pointing.Obs W))} {c : Config.Cfg} {a : Inputs.Aux}
    {outs : List (List (Final W V))} (hc : Ini.configure py lc ca survey lines = .ok (c, a))
    (h : run py lc ca survey lines field answer E s blocks = .ok outs) :
    ∃ db ds, Pointing.readPointing answer c.filters survey false false = .ok db ∧ camera py.lower survey field c.fov = .ok ds ∧
      Pipeline.rounds { E with db := db, detectors := ds } c s blocks = .ok outs := by
  unfold run at h
  rw [hc] at h
  simp only at h
  cases hp : Pointing.readPointing answer c.filters survey false false with
  | error e => rw [hp] at h; simp at h
  | ok db =>
    rw [hp] at h
    simp only at h
    cases hcam : camera (W := W) py.lower survey field c.fov with
    | error e => rw [hcam] at h; simp at h
    | ok ds =>
      rw [hcam] at h
      simp only at h
      cases hr : Pipeline.rounds { E with db := db, detectors := ds } c s blocks with
      | error e => rw [hr] at h; simp at h
      | ok o =>
        rw [hr] at h
        simp only [Except.ok.injEq] at h
        subst h
        exact ⟨db, ds, rfl, rfl, hr⟩

theorem mem_visited {survey : String} {answer : List (Pointing.Visit V)} {filters : List String} {db : List (Pointing.Visit V)}
    (hf : ∀ f ∈ filters, Band f) (h : Pointing.readPointing (some answer) filters survey false false = .ok db) (v : Pointing.Visit V) (hv : v ∈ db) :
    Visited survey answer v := by
  obtain ⟨-, ⟨df, hdf, hall⟩, -⟩ := Pointing.Props.C40_read h
  have := Option.some.inj hdf
  subst this
  obtain ⟨v0, hv0, hp⟩ := Pipeline.Props.mem_forall₂ hall.flip v hv
  obtain ⟨h1, h2⟩ := List.mem_filter.1 hv0
  refine ⟨v0, h1, hp, ?_⟩
  rw [hp.2.2.1]
  exact hf _ (of_decide_eq_true h2)

end Sorcha.Shipped
