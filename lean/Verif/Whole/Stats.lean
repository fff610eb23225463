import Verif.Output.Model
import Verif.Pipeline.Model

/-!
# The table of statistics of a round

`stats` of PPStats.py with its columns, as it is called by both loops.
-/

namespace Sorcha.Whole

open Sorcha.Output (Cell)

/-- What the statistics look at in a row: `ObjID`, `optFilter`, `trailedSourceMag`, `phase_deg` (`none`: missing), and with the linking filter `object_linked` and
`date_linked_MJD`. -/
structure Seen where
  objId : String
  filter : String
  mag : Fl
  phase : Option ℚ
  link : Option (Bool × Option ℤ)
deriving DecidableEq, Repr

/-- A row for `Output.stats`; infinite magnitudes are not described, they count as missing here. -/
def Seen.toObs (s : Seen) : Output.Obs where
  objId := s.objId
  optFilter := s.filter
  mag := match s.mag with | .fin q => some q | _ => none
  phase := s.phase
  linked := match s.link with | some (b, _) => b | none => false
  date := match s.link with | some (_, some n) => some (n : ℚ) | _ => none

/-- The columns of the table, PPStats.py:39-58: the two keys (`index=True`), then what is joined. -/
def statColumns (l : Config.Linking) : List String :=
  let joined := ["ObjID", "optFilter", "number_obs", "min_apparent_mag", "max_apparent_mag", "median_apparent_mag", "min_phase", "max_phase"]
  if l.ssp.isSome = true ∧ l.dropUnlinked = false then joined ++ ["object_linked", "date_linked_MJD"]
  else if l.ssp.isSome = true then joined ++ ["date_linked_MJD"]
  else joined

/-- A number, or missing. -/
def numCell : Option ℚ → Cell
  | none => .null
  | some q => .num (.fin q)

/-- The cells of a row of the table, PPStats.py:39-58; `number_obs` is an integer. -/
def statCell (s : Output.StatRow) (col : String) : Cell :=
  if col = "ObjID" then .text s.objId
  else if col = "optFilter" then .text s.optFilter
  else if col = "number_obs" then .text (toString s.number)
  else if col = "min_apparent_mag" then numCell s.minMag
  else if col = "max_apparent_mag" then numCell s.maxMag
  else if col = "median_apparent_mag" then numCell s.medianMag
  else if col = "min_phase" then numCell s.minPhase
  else if col = "max_phase" then numCell s.maxPhase
  else if col = "object_linked" then match s.linked with | none => .null | some b => .flag b
  else if col = "date_linked_MJD" then numCell s.date
  else .null

/-- `stats`, PPStats.py:4-66, for the rows of one round; `cats` are the filters of the pointing database, the categories of `optFilter`. The rows are those before the
rounding in `PPWriteOutput`, which works on a copy (PPOutput.py:169-198). -/
def statistics (cats : List String) (l : Config.Linking) (rows : List Seen) : Output.Frame :=
  ⟨statColumns l, (Output.stats cats (rows.map Seen.toObs)).map statCell⟩

/-- What the statistics see in a row of a Rubin run; the phase angle is one of the columns of the ephemerides. -/
def seen {W V : Type} (phase : Pipeline.Final W V → Option ℚ) (f : Pipeline.Final W V) : Seen := ⟨f.row.objId, f.row.optFilter, f.row.trailedSourceMag, phase f, f.link⟩

/-- The same for a DES run, which has no settings of the linking filter. -/
def desSeen {W V : Type} (phase : Pipeline.Row W V → Option ℚ) (r : Pipeline.Row W V) : Seen := ⟨r.objId, r.optFilter, r.trailedSourceMag, phase r, none⟩

end Sorcha.Whole
