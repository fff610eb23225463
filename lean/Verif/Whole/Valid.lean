import Verif.Pipeline.Total
import Verif.Whole.Spec

/-!
# Specification: inputs a run can work with

Nothing here refers to the functions of `Whole/Model.lean`.
-/

namespace Sorcha.Whole.Spec

open Sorcha.Readers (Rec IdParse)
open Sorcha.History (Disk)

/-- The files and directories of a command are in place: the inputs that are named exist and are not in a place of the outputs, the directories are directories, and there
are no old outputs, unless `-f` is given. -/
structure InPlace (isDir : String → Bool) (d : Disk) (a : Cli.Args) : Prop where
  survey : a.s = "rubin_sim"
  outdir : isDir a.o = true
  inputs : ∀ p ∈ [a.p, a.ob, a.c, a.pd] ++ a.cp.toList ++ a.er.toList, d.get p ≠ none ∧ ¬ IsOutput a p
  named : a.cp ≠ some ""
  data : ∀ p, a.ar = some p → isDir p = true
  visits : a.vd = none
  fresh : a.f = true ∨ ∀ p, IsOutput a p → d.get p = none

/-- The checks of the columns accept the table at `p`, whichever of its rows are read together. -/
def Passes (good : List Str × List (List Str) → Bool) (format : String) (d : Disk) (p : String) : Prop :=
  ∀ t names rows, d.get p = some (.text t) → Csv.Spec.InputText format t names rows → ∀ rs, rs.Sublist rows → good (names, rs) = true

/-- Settings that the other checks do not settle: ephemerides and results not as HDF5, at least one object in a round, and limits for the saturation filter if it is on. -/
structure Plain (c : Config.Cfg) : Prop where
  eph : c.input.ephFormat ≠ "hdf5"
  format : c.output.format ≠ "hdf5"
  chunk : 1 ≤ c.input.chunk
  limits : c.saturation.on.on = true → c.saturation.limits ≠ none

/-- The columns of the results exist (the distance to the Sun is computed); a database has the columns of its indices. -/
structure Columned (c : Config.Cfg) (columns : List String) : Prop where
  there : ∀ x ∈ Output.Spec.wantedColumns (output c).columns (output c).keepUnlinked columns, x ∈ columns ∨ x = "Obj_Sun_LTC_km"
  indexed : c.output.format ≠ "csv" → ∀ x ∈ ["ObjID", "fieldMJD_TAI", "optFilter"], x ∈ Output.Spec.wantedColumns (output c).columns (output c).keepUnlinked columns

end Sorcha.Whole.Spec
