import Verif.Pointing.Model

/-! # Specification: visits and observations -/

namespace Sorcha.Pointing.Spec
variable {V W : Type}

/-- Visit `v'` is visit `v` as used by the simulation: start and midpoint half a visit apart, for Rubin counted from the start and with the visit
time, for DES from the midpoint and with the exposure time (seconds); nothing else changes. -/
def Prepared (survey : String) (v v' : Visit V) : Prop :=
  ((survey = "rubin_sim" ∨ survey = "RUBIN_SIM") ∧ v'.start = v.start ∧ (v'.mid - v'.start) * 86400 = v.visitTime / 2 ∨
   (survey = "DES" ∨ survey = "des") ∧ v'.mid = v.mid ∧ (v'.mid - v'.start) * 86400 = v.exposureTime / 2) ∧
  v'.id = v.id ∧ v'.filter = v.filter ∧ v'.visitTime = v.visitTime ∧ v'.exposureTime = v.exposureTime ∧ v'.c = v.c ∧ v'.k = v.k ∧ v'.rest = v.rest

/-- The tolerance of the time check, in days. -/
def Agree (start mjd : ℚ) : Prop := |start - mjd| ≤ 0.00000001 + 0.00001 * |mjd|

end Sorcha.Pointing.Spec
