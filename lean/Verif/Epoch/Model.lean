import Mathlib.Data.Rat.Floor

/-!
# Model of the conversion of times

The numbers are floating point numbers, taken as rational numbers. `rnd` is the rounding after each operation. SPICE's conversion of a text to its
time (`str2et`) is a parameter: a function of the Julian date in the text, which has six decimals, in millionths of a day.
-/

namespace Sorcha.Epoch

/-- `observationStartMJD_TAI + (visitTime / 2.0) / 86400.0`, modules/PPReadPointingDatabase.py:69-72: the midpoint of a Rubin visit. -/
def midpoint (rnd : ℚ → ℚ) (start visitTime : ℚ) : ℚ := rnd (start + rnd (rnd (visitTime / 2) / 86400))

/-- `jd = mjd_tai + 2400000.5 + 32.184 / (24 * 60 * 60)`, ephemeris/simulation_parsing.py:25. -/
def julian (rnd : ℚ → ℚ) (mjd : ℚ) : ℚ := rnd (rnd (mjd + 2400000.5) + rnd (rnd 32.184 / 86400))

/-- `"JD %lf TDT" % jd`, simulation_parsing.py:26: `%lf` prints six decimals, rounded to the nearest, and to even if there are two nearest. The
text is represented by the number of millionths in it. -/
def printed (jd : ℚ) : ℤ :=
  if jd * 1000000 - ⌊jd * 1000000⌋ < 1 / 2 then ⌊jd * 1000000⌋
  else if 1 / 2 < jd * 1000000 - ⌊jd * 1000000⌋ then ⌊jd * 1000000⌋ + 1
  else if ⌊jd * 1000000⌋ % 2 = 0 then ⌊jd * 1000000⌋ else ⌊jd * 1000000⌋ + 1

/-- `mjd_tai_to_epoch`, simulation_parsing.py:12-28: `spice.j2000() + spice.str2et(epoch_str) / (24 * 60 * 60)`; `spice.j2000()` is 2451545. The
column `fieldJD_TDB` of the visits, simulation_setup.py:226-228. -/
def epoch (rnd : ℚ → ℚ) (str2et : ℤ → ℚ) (mjd : ℚ) : ℚ :=
  rnd (2451545 + rnd (str2et (printed (julian rnd mjd)) / 86400))

end Sorcha.Epoch
