import Verif.Photom.Model
import Mathlib.Data.List.Dedup
import Mathlib.Data.String.Basic

/-!
# Model of the apparent magnitude (colours, phase parameters, distances) and of the faint-object culling
-/

namespace Sorcha.Mags
open Sorcha.Photom

/-- An observation: the filter of its visit (`optFilter`) and its numeric columns. -/
structure Row where
  filt : String
  val : String → ℝ

/-- A table: numeric columns present, and rows. -/
structure Frame where
  cols : List String
  rows : List Row

inductive Err
  | keyError        -- uncaught KeyError
  | noColour        -- PPApplyColourOffsets.py:69-71
  | noPhase         -- PPApplyColourOffsets.py:88-144, exits for missing phase parameters
  | emptyApply      -- uncaught ValueError, PPApplyColourOffsets.py:98-146 on a table without rows
  | unknownPhase    -- PPApplyColourOffsets.py:150-154 / PPCalculateApparentMagnitudeInFilter.py:122-128
deriving DecidableEq, Repr

/-- `observations[c] = ...`. -/
def Frame.setCol (f : Frame) (c : String) (g : Row → ℝ) : Frame :=
  { cols := if c ∈ f.cols then f.cols else f.cols ++ [c]
    rows := f.rows.map fun r => { r with val := fun c' => if c' = c then g r else r.val c' } }

/-- One pass of the loop over the filters present, PPApplyColourOffsets.py:64-67. -/
def offsetStep (main : String) (f : Frame) (filt : String) : Except Err Frame :=
  if (filt ++ "-" ++ main) ∈ f.cols then
    .ok { f with rows := f.rows.map fun r =>
            if r.filt = filt then
              { r with val := fun c => if c = "H_" ++ main then r.val ("H_" ++ main) + r.val (filt ++ "-" ++ main) else r.val c }
            else r }
  else .error .noColour

/-- Parameters of the phase functions, PPApplyColourOffsets.py:77-154; `none` for an unknown function. -/
def phaseParams (function : String) : Option (List String) :=
  if function = "HG1G2" then some ["G1", "G2"]
  else if function = "HG" then some ["GS"]
  else if function = "HG12" then some ["G12"]
  else if function = "linear" then some ["S"]
  else if function = "none" then some []
  else none

/-- `observations[p] = observations.apply(lambda row: row[p + row["optFilter"]], axis=1)`: a row whose filter has no such
column is a KeyError. Without rows `apply` gives a table, which cannot be assigned to a column. -/
def selectParam (f : Frame) (p : String) : Except Err Frame :=
  if f.rows.isEmpty then .error .emptyApply
  else if f.rows.all (fun r => (p ++ r.filt) ∈ f.cols) then .ok (f.setCol p fun r => r.val (p ++ r.filt)) else .error .keyError

/-- The phase parameter columns, PPApplyColourOffsets.py:73-154 (the same for every function). -/
def selectPhase (function : String) (observing : List String) (main : String) (f : Frame) : Except Err Frame :=
  match phaseParams function with
  | none => .error .unknownPhase
  | some ps =>
    if (("H_" ++ main) :: ps).all (· ∈ f.cols) then .ok f
    else
      let special := ps.flatMap fun p => observing.map fun b => p ++ b
      if (("H_" ++ main) :: special).all (· ∈ f.cols) then do
        let g ← ps.foldlM selectParam f
        .ok { g with cols := g.cols.filter fun c => c ∉ special }
      else .error .noPhase

/-- `fnmatch` of a column with `"?-" + mainfilter`: one arbitrary character, then the rest literally. -/
def isColour (main c : String) : Bool :=
  match c.toList with
  | [] => false
  | _ :: rest => rest = '-' :: main.toList

/-- Saving H and creating the zero colour, PPApplyColourOffsets.py:55-59. -/
def prepare (main : String) (f : Frame) : Frame :=
  (f.setCol "H_original" fun r => r.val ("H_" ++ main)).setCol (main ++ "-" ++ main) fun _ => 0

/-- Dropping the colours and renaming, PPApplyColourOffsets.py:156-162. -/
def finish (main : String) (f : Frame) : Frame :=
  { cols := (f.cols.filter fun c => !isColour main c).map fun c =>
      if c = "H_" ++ main then "H_filter" else if c = "H_original" then "H_" ++ main else c
    rows := f.rows.map fun r =>
      { r with
        val := fun c =>
          if c = "H_filter" then r.val ("H_" ++ main) else if c = "H_" ++ main then r.val "H_original" else r.val c } }

/-- `PPApplyColourOffsets`, PPApplyColourOffsets.py:7-164. -/
def applyColourOffsets (function : String) (observing : List String) (main : String) (f : Frame) : Except Err Frame :=
  if ("H_" ++ main) ∈ f.cols then do
    let f1 ← ((f.rows.map (·.filt)).dedup).foldlM (offsetStep main) (prepare main f)
    let f2 ← selectPhase function observing main f1
    .ok (finish main f2)
  else .error .keyError

/-- Kilometres per astronomical unit, as used by astropy. -/
noncomputable def kmPerAu : ℝ := 149597870.7

/-- Heliocentric distance in km, PPCalculateApparentMagnitudeInFilter.py:77-91: a column if present, else from components. -/
noncomputable def sunDistance (cols : List String) (r : Row) : ℝ :=
  if "Obj_Sun_LTC_km" ∈ cols then r.val "Obj_Sun_LTC_km"
  else √(r.val "Obj_Sun_x_LTC_km" ^ 2 + r.val "Obj_Sun_y_LTC_km" ^ 2 + r.val "Obj_Sun_z_LTC_km" ^ 2)

/-- Optional models added by the user: the light-curve shift of an observation and the magnitude with activity, given
heliocentric distance, range and phase angle. -/
structure Addons where
  lightcurve : Option (Row → ℝ)
  activity : Option (Row → ℝ → ℝ → ℝ → ℝ → ℝ)

/-- The magnitude of one row, PPCalculateApparentMagnitudeInFilter.py:74-149. `sbpy function H params alpha` is the reduced
magnitude computed by the sbpy library for the four phase functions. -/
noncomputable def magnitude (sbpy : String → ℝ → List ℝ → ℝ → ℝ) (add : Addons) (function : String) (ps : List String)
    (cols : List String) (r : Row) : ℝ :=
  let delta := r.val "Range_LTC_km" / kmPerAu
  let rho := sunDistance cols r / kmPerAu
  let alpha := r.val "phase_deg"
  let H := r.val "H_filter"
  let reduced := if function = "none" then H else sbpy function H (ps.map r.val) alpha
  let m := 5 * log10 delta + 5 * log10 rho + reduced
  let m := match add.lightcurve with
    | none => m
    | some lc => m + lc r
  match add.activity with
  | none => m
  | some act => act r rho delta alpha m

/-- `PPCalculateApparentMagnitudeInFilter`, PPCalculateApparentMagnitudeInFilter.py:11-151. -/
noncomputable def apparentMagnitudeInFilter (sbpy : String → ℝ → List ℝ → ℝ → ℝ) (add : Addons) (function : String) (f : Frame) :
    Except Err Frame :=
  match phaseParams function with
  | none => .error .unknownPhase
  | some ps =>
    if ("H_filter" :: ps).all (· ∈ f.cols) then
      .ok (f.setCol "trailedSourceMagTrue" (magnitude sbpy add function ps f.cols))
    else .error .keyError

/-- `PPCalculateApparentMagnitude`, PPCalculateApparentMagnitude.py:6-95. -/
noncomputable def calculateApparentMagnitude (sbpy : String → ℝ → List ℝ → ℝ → ℝ) (add : Addons) (function : String)
    (observing : List String) (main : String) (f : Frame) : Except Err Frame :=
  if 1 < observing.length then do
    let g ← applyColourOffsets function observing main f
    apparentMagnitudeInFilter sbpy add function g
  else if ("H_" ++ main) ∈ f.cols then
    apparentMagnitudeInFilter sbpy add function (f.setCol "H_filter" fun r => r.val ("H_" ++ main))
  else .error .keyError

/-! ## Faint-object culling -/

/-- An object of the joined orbit and parameter table: identifier, perihelion distance (au), H in the main filter, colours. -/
structure Obj where
  id : String
  q : ℝ
  H : ℝ
  colour : String → ℝ

/-- A visit of the pointing table: filter and depth. -/
structure Visit where
  filt : String
  depth : ℝ

/-- `max_five_sigma[filt]`, PPFaintObjectCullingFilter.py:47-50: `none` is a KeyError. -/
noncomputable def maxDepth (visits : List Visit) (filt : String) : Option ℝ :=
  (visits.filterMap fun v => if v.filt = filt then some v.depth else none).max?

/-- Brightness that light curve and activity models may add: `maxBrightness`, an offset, and a function of the magnitude. -/
structure Boost where
  lightcurve : Option (Obj → ℝ)
  activity : Option (Obj → String → ℝ → ℝ → ℝ → ℝ)

/-- Brightest estimated magnitude in a filter, PPFaintObjectCullingFilter.py:66-92. -/
noncomputable def brightest (boost : Boost) (main : String) (o : Obj) (filt : String) : ℝ :=
  let H := if filt = main then o.H else o.H + o.colour filt
  let m := H + 5 * log10 o.q + 5 * log10 (o.q - 1)
  let m := match boost.lightcurve with
    | none => m
    | some lc => m + lc o
  match boost.activity with
  | none => m
  | some act => act o filt m o.q (o.q - 1)

/-- The columns of `drop_df`, PPFaintObjectCullingFilter.py:65-94: for every observing filter its largest depth. -/
noncomputable def depths (visits : List Visit) : List String → Except Err (List (String × ℝ))
  | [] => .ok []
  | b :: bs => match maxDepth visits b with
    | none => .error .keyError
    | some d => do
      let ds ← depths visits bs
      .ok ((b, d) :: ds)

/-- Whether an object's row is flagged, PPFaintObjectCullingFilter.py:55-56 and 94-97. -/
noncomputable def flagged (boost : Boost) (main : String) (ds : List (String × ℝ)) (o : Obj) : Bool :=
  decide (2 ≤ o.q) && ds.all fun bd => decide (bd.2 + 2 < brightest boost main o bd.1)

/-- `PPFaintObjectCullingFilter`, PPFaintObjectCullingFilter.py:10-100. The perihelion is a column of the table (its estimate
for other formats is in Cull/Model.lean). -/
noncomputable def cull (boost : Boost) (main : String) (observing : List String) (visits : List Visit) (objs : List Obj) :
    Except Err (List Obj) := do
  let ds ← depths visits observing
  let drop := (objs.filter (flagged boost main ds)).map (·.id)
  .ok (objs.filter fun o => o.id ∉ drop)

end Sorcha.Mags
