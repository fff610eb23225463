import Mathlib.Algebra.Order.Field.Rat
import Mathlib.Algebra.Order.Ring.Abs

/-!
# Model of reading the pointing database and matching it to the observations

modules/PPReadPointingDatabase.py and modules/PPMatchPointingToObservations.py. Times are exact rationals. Columns that are only carried along are
in `rest`.
-/

namespace Sorcha.Pointing

/-- A row of the answer to the user's query. `start`, `mid`: `observationStartMJD_TAI`, `observationMidpointMJD_TAI`, missing for the survey that
does not provide the column; `c`, `k` the fading columns of DES (`none`: NULL). -/
structure Visit (V : Type) where
  id : ℕ
  filter : String
  start : ℚ
  mid : ℚ
  visitTime : ℚ
  exposureTime : ℚ
  c : Option ℚ
  k : Option ℚ
  rest : V
deriving DecidableEq, Repr

/-- The ways the functions stop. -/
inductive Err
  | query            -- the query failed
  | noVisits         -- no visit in the observing filters
  | survey           -- unknown survey
  | fadingColumns    -- fading columns missing
  | fadingNull       -- fading values missing
  | times            -- times do not match
deriving DecidableEq, Repr

variable {V : Type}

/-- The times, PPReadPointingDatabase.py:71-82. -/
def setTimes (survey : String) (v : Visit V) : Option (Visit V) :=
  if survey ∈ ["rubin_sim", "RUBIN_SIM"] then some { v with mid := v.start + v.visitTime / 2 / 86400 }
  else if survey ∈ ["DES", "des"] then some { v with start := v.mid - v.exposureTime / 2 / 86400 }
  else none

/-- `PPReadPointingDatabase`, PPReadPointingDatabase.py:7-103. `answer` is the answer to the query, `none` if it failed; `hasFading`: the table has
the columns `c` and `k`. -/
def readPointing (answer : Option (List (Visit V))) (observing : List String) (survey : String) (fading hasFading : Bool) :
    Except Err (List (Visit V)) :=
  match answer with
  | none => .error .query
  | some df =>
    let dfo := df.filter (fun v => observing.contains v.filter)
    if dfo.isEmpty then .error .noVisits
    else match dfo.mapM (setTimes survey) with
      | none => .error .survey
      | some dfo =>
        if fading && ["DES", "des"].contains survey then
          if !hasFading then .error .fadingColumns
          else if dfo.any (fun v => v.c.isNone || v.k.isNone) then .error .fadingNull
          else .ok dfo
        else .ok dfo

/-- An observation: object, field, `fieldMJD_TAI` and the other columns. -/
structure Obs (W : Type) where
  obj : String
  field : ℕ
  mjd : ℚ
  rest : W
deriving DecidableEq, Repr

variable {W : Type}

/-- `np.isclose(a, b)` with its default tolerances, PPMatchPointingToObservations.py:62. -/
def isclose (a b : ℚ) : Bool := decide (|a - b| ≤ 1 / 10 ^ 8 + 1 / 10 ^ 5 * |b|)

/-- `pd.merge(..., on="FieldID", how="left")`, PPMatchPointingToObservations.py:49-55: a row for each visit with the field's number, in the order
of the observations; `none` is a row of missing values. -/
def mergeLeft (obs : List (Obs W)) (db : List (Visit V)) : List (Obs W × Option (Visit V)) :=
  obs.flatMap fun o => match db.filter (·.id = o.field) with
    | [] => [(o, none)]
    | vs => vs.map fun v => (o, some v)

/-- `PPMatchPointingToObservations`, PPMatchPointingToObservations.py:7-74; `dropna` (line 59) keeps the rows with a visit, as a visit always has a filter. -/
def matchPointing (obs : List (Obs W)) (db : List (Visit V)) : Except Err (List (Obs W × Visit V)) :=
  let res := (mergeLeft obs db).filterMap fun r => r.2.map fun v => (r.1, v)
  if res.all (fun r => isclose r.2.start r.1.mjd) then .ok res else .error .times

end Sorcha.Pointing
