import Verif.Cull.Props

/-!
# Concrete cases for C79
-/

namespace Sorcha.Cull.Examples
open Sorcha.Photom Sorcha.Ephem Sorcha.Ephem.Spec Sorcha.Ephem.ParseProps Sorcha.Cull Sorcha.Cull.Spec Sorcha.Cull.Props

/-- Elements with a perihelion at 2.7 au. -/
def row (format : String) : OrbitRow := ⟨format, 2.7, 0.1, 5, 30, 40, 60000, 3, 200, ⟨0, 0, 0⟩, ⟨0, 0, 0⟩⟩

/-- Orbits exist in the element formats. -/
theorem orbit_elements (format : String) (hf : format ∈ ["KEP", "BKEP", "COM", "BCOM"]) : ∃ X, Orbit (row format) X := by
  obtain ⟨cart, hc⟩ := exact_exists
  obtain ⟨X, V, h1, h2, -⟩ := exact_motion hc (mu := 2.95e-4) (q := 2.7) (e := 0.1) (by norm_num) (by norm_num) (by norm_num) (radians 5) (radians 30) (radians 40) 0 0
  refine ⟨X, 2.95e-4, V, by norm_num, by norm_num, h1, .inr ?_⟩
  have hp : Perihelion 2.95e-4 2.7 0.1 (radians 5) (radians 30) (radians 40) X V := ⟨0, h2⟩
  simp only [List.mem_cons, List.not_mem_nil, or_false] at hf
  rcases hf with rfl | rfl | rfl | rfl
  · refine .inl ⟨by simp [row], by norm_num [row], by norm_num [row], by norm_num [row], ?_⟩
    have : (row "KEP").a * (1 - (row "KEP").e) = 2.7 := by norm_num [row]
    rw [this]
    exact hp
  · refine .inl ⟨by simp [row], by norm_num [row], by norm_num [row], by norm_num [row], ?_⟩
    have : (row "BKEP").a * (1 - (row "BKEP").e) = 2.7 := by norm_num [row]
    rw [this]
    exact hp
  · exact .inr ⟨by simp [row], by norm_num [row], by norm_num [row], hp⟩
  · exact .inr ⟨by simp [row], by norm_num [row], by norm_num [row], hp⟩

/-- Orbits exist in the Cartesian formats: a position and velocity at 2.7 au. -/
theorem orbit_cartesian : ∃ p v : Vec, ∃ X, Orbit { row "BCART" with pos := p, vel := v } X ∧ ∀ t, 2.7 ≤ length (X t) := by
  obtain ⟨cart, hc⟩ := exact_exists
  obtain ⟨X, V, h1, h2, -⟩ := exact_motion hc (mu := 2.95e-4) (q := 2.7) (e := 0.1) (by norm_num) (by norm_num) (by norm_num) (radians 5) (radians 30) (radians 40) 0 0
  refine ⟨X 7, V 7, X, ⟨2.95e-4, V, by norm_num, by norm_num, h1, .inl ⟨by simp [row], 7, rfl, rfl⟩⟩, fun t => ?_⟩
  have := q_le (by norm_num : (0 : ℝ) < 2.95e-4) h1 0 t
  rwa [h2.1, h2.2, q_perihelion (by norm_num) (by norm_num) (by norm_num)] at this

/-- Two objects with different epochs: one of magnitude 30, one of magnitude 10. -/
noncomputable def targets (format : String) : List Target :=
  [⟨"faint", 30, fun _ => 0, 60000, row format⟩, ⟨"bright", 10, fun _ => 0, 50000, row format⟩]

noncomputable def visits : List Mags.Visit := [⟨"r", 24⟩, ⟨"g", 25⟩]

theorem log_pos : 0 < Real.logb 10 (2.7 : ℝ) ∧ 0 < Real.logb 10 (2.7 - 1 : ℝ) ∧ Real.logb 10 (2.7 : ℝ) < 1 ∧ Real.logb 10 (2.7 - 1 : ℝ) < 1 :=
  ⟨Real.logb_pos (by norm_num) (by norm_num), Real.logb_pos (by norm_num) (by norm_num),
    by rw [Real.logb_lt_iff_lt_rpow (by norm_num) (by norm_num)]; norm_num, by rw [Real.logb_lt_iff_lt_rpow (by norm_num) (by norm_num)]; norm_num⟩

/-- The faint one is removed, the bright one is kept: the hypotheses of `C79_sound` are met. -/
theorem removed (cart : ToCartesian) : cullOrbits cart false ⟨none, none⟩ "r" ["r", "g"] visits (targets "KEP") = .ok ["bright"] := by
  have hq : perihelia cart false (targets "KEP") = .ok [2.7, 2.7] := by
    have h1 : ∀ epoch, perihelion cart epoch (row "KEP") = .ok 2.7 := by
      intro epoch
      rw [perihelion_eq]
      simp [row]
      norm_num
    simp only [perihelia, Bool.false_eq_true, if_false, targets, estimate]
    exact (mapM_ok _ _ _).2 (.cons (h1 _) (.cons (h1 _) .nil))
  have hids : ∃ out, Mags.cull ⟨none, none⟩ "r" ["r", "g"] visits
      [⟨"faint", 2.7, 30, fun _ => 0⟩, ⟨"bright", 2.7, 10, fun _ => 0⟩] = .ok out := by
    obtain ⟨ids, h⟩ := (C79_runs cart true "r" ["r", "g"] visits (targets "KEP")).2 ⟨by simp [visits], by simp⟩
    obtain ⟨qs, out, h1, h2, -⟩ := cullOrbits_ok h
    obtain rfl := Except.ok.inj h1
    exact ⟨out, h2⟩
  obtain ⟨out, ho⟩ := hids
  obtain ⟨l1, l2, l3, l4⟩ := log_pos
  have hk := Mags.Props.C29_kept "r" ["r", "g"] visits _ out ho (by simp)
  have hf : (⟨"faint", 2.7, 30, fun _ => 0⟩ : Mags.Obj) ∉ out := by
    rw [hk.2 _ (by simp)]
    rintro (h | ⟨b, hb, v, hv, hvb, h⟩)
    · norm_num at h
    · have h30 : Mags.Props.absMag "r" ⟨"faint", 2.7, 30, fun _ => 0⟩ b = 30 := by simp [Mags.Props.absMag]
      have hd : v.depth ≤ 25 := by
        simp only [visits, List.mem_cons, List.not_mem_nil, or_false] at hv
        rcases hv with rfl | rfl <;> norm_num
      rw [h30] at h
      simp only at h
      linarith
  have hb : (⟨"bright", 2.7, 10, fun _ => 0⟩ : Mags.Obj) ∈ out := by
    rw [hk.2 _ (by simp)]
    refine .inr ⟨"r", by simp, ⟨"r", 24⟩, by simp [visits], rfl, ?_⟩
    have h10 : Mags.Props.absMag "r" ⟨"bright", 2.7, 10, fun _ => 0⟩ "r" = 10 := by simp [Mags.Props.absMag]
    rw [h10]
    simp only
    linarith
  have hout : out = [⟨"bright", 2.7, 10, fun _ => 0⟩] := by
    have hs := hk.1
    rcases List.sublist_cons_iff.1 hs with hs | ⟨r, rfl, -⟩
    · rcases List.sublist_singleton.1 hs with rfl | rfl
      · simp at hb
      · rfl
    · simp at hf
  have : (((targets "KEP").zip [(2.7 : ℝ), 2.7]).map fun p => (⟨p.1.id, p.2, p.1.H, p.1.colour⟩ : Mags.Obj)) =
      [⟨"faint", 2.7, 30, fun _ => 0⟩, ⟨"bright", 2.7, 10, fun _ => 0⟩] := rfl
  simp only [cullOrbits, hq, bind, Except.bind, this, ho, Except.mapError, hout]
  rfl

example : Columns false (targets "KEP") ∧ ((targets "KEP").map (·.id)).Nodup := by
  constructor
  · intro t ht
    simp only [targets, List.mem_cons, List.not_mem_nil, or_false] at ht
    rcases ht with rfl | rfl <;> simp [row]
  · simp [targets]

/-- No object at all. -/
example (cart : ToCartesian) : ¬ ∃ ids, cullOrbits cart false ⟨none, none⟩ "r" ["r"] visits [] = .ok ids := by
  rw [C79_runs]
  simp

end Sorcha.Cull.Examples
