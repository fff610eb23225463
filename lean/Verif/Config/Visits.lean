import Verif.Config.Props

/-! # The expert section with the visit-specific footprint as camera model -/

namespace Sorcha.Config.Props
open Sorcha.Config.Spec

/-- The effects for a survey that is neither Rubin nor DES with the visit-specific footprint: vignetting is read as a switch and must be off. -/
def OtherVisitsOk (s : Sect) (c : Expert) : Prop :=
  Raw s "randomization_on" c.randomization ∧ c.vignetting = .bool false ∧ Switch s "vignetting_on" false false ∧ Raw s "trailing_losses_on" c.trailing

/-- C38 (EXPERT with the visit-specific footprint, not DES): accepted iff the values are valid and vignetting is off. -/
theorem C38_visits (py : Py) (survey : String) (s : Sect) (h : (s.map Prod.fst).Nodup) (hd : ¬IsDes survey) (c : Expert) :
    expert py survey (some "visits_footprint") s = .ok c ↔ LimitOk py s c ∧
      ((IsRubin survey ∧ RubinOk s c ∧ c.vignetting = .bool false) ∨ (¬IsRubin survey ∧ OtherVisitsOk s c)) := by
  obtain ⟨sn, mg, dc, bf, r, v, t⟩ := c
  have heff : effects survey (some "visits_footprint") s = .ok (r, v, t) ↔
      ((IsRubin survey ∧ RubinOk s ⟨sn, mg, dc, bf, r, v, t⟩ ∧ v = .bool false) ∨ (¬IsRubin survey ∧ OtherVisitsOk s ⟨sn, mg, dc, bf, r, v, t⟩)) := by
    unfold effects surveyOf
    by_cases hr : IsRubin survey
    · simp only [(rubin_mem survey).2 hr, if_true, hr, true_and, false_and, not_true_eq_false, or_false, bind_ok, castBoolOr_ok h,
        stopIf_ok, pure_ok, RubinOk, decide_true, Bool.true_and, Prod.mk.injEq]
      constructor
      · rintro ⟨a, ha, b, hb, d, hd, -, rfl, rfl, rfl, rfl⟩; exact ⟨⟨a, false, d, rfl, rfl, rfl, ha, hb, hd⟩, rfl⟩
      · rintro ⟨⟨a, b, d, rfl, rfl, rfl, ha, hb, hd⟩, hv⟩
        simp only [Flag.bool.injEq] at hv
        exact ⟨a, ha, b, hb, d, hd, (), hv, rfl, rfl, rfl⟩
    · have hr' : ¬["rubin_sim", "RUBIN_SIM", "LSST", "lsst"].contains survey = true := fun hx => hr ((rubin_mem survey).1 hx)
      have hd' : ¬["DES", "des"].contains survey = true := fun hx => hd ((des_mem survey).1 hx)
      rw [if_neg hr', if_neg hd']
      simp only [hr, false_and, not_false_eq_true, true_and, false_or, if_true, OtherVisitsOk, bind_ok, castBoolOr_ok h, stopIf_ok, pure_ok, Prod.mk.injEq,
        raw_iff h]
      constructor
      · rintro ⟨b, hb, -, rfl, h1, rfl, h2⟩; exact ⟨h1, rfl, hb, h2⟩
      · rintro ⟨h1, rfl, hb, h2⟩; exact ⟨false, hb, (), rfl, h1, rfl, h2⟩
  simp only [expert, bind_ok, castFloat?_ok h, stopIf_ok, castBoolOr_ok h, pure_ok, any_lt_zero]
  constructor
  · rintro ⟨a, ha, -, ba, b, hb, -, bb, -, hab, d, hd, e, he, ⟨r', v', t'⟩, hrvt, heq⟩
    simp only [Expert.mk.injEq] at heq
    obtain ⟨rfl, rfl, rfl, rfl, rfl, rfl, rfl⟩ := heq
    refine ⟨⟨ha, ba, hb, bb, ?_, hd, he⟩, heff.1 hrvt⟩
    cases a <;> cases b <;> simp_all
  · rintro ⟨⟨ha, ba, hb, bb, hab, hd, he⟩, hx⟩
    refine ⟨sn, ha, (), ba, mg, hb, (), bb, (), ?_, dc, hd, bf, he, (r, v, t), heff.2 hx, rfl⟩
    simp only at hab
    rcases hab with rfl | rfl <;> simp

/-- A survey spelt in a way that only the check of the camera model accepts, with vignetting off. -/
example (py : Py) : ¬IsDes "Des" ∧ ¬IsRubin "Des" ∧ OtherVisitsOk [] ⟨none, none, true, true, .unset, .bool false, .unset⟩ ∧
    LimitOk py [] ⟨none, none, true, true, .unset, .bool false, .unset⟩ := by
  have ha : ∀ k, Absent [] k := fun k v h => by cases h
  exact ⟨by simp [IsDes], by simp [IsRubin], ⟨ha _, rfl, .inl ⟨ha _, rfl⟩, ha _⟩,
    ⟨ha _, (fun x h => by cases h), ha _, (fun x h => by cases h), .inl rfl, .inl ⟨ha _, rfl⟩, .inl ⟨ha _, rfl⟩⟩⟩

end Sorcha.Config.Props
