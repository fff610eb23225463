import Verif.Inputs.Spec
import Verif.Config.Spec
import Verif.Tables.Model

/-!
# Vocabulary of the statements about input tables

How a header line is made up, and what is in a column of a table.
-/

namespace Sorcha.Tables

/-- The column that names the objects. -/
def objId : List Char := "ObjID".toList

/-- The line is made up of these pieces, separated by single commas. -/
def Commas (l : List Char) (ps : List (List Char)) : Prop := ps ≠ [] ∧ (∀ p ∈ ps, ',' ∉ p) ∧ l = [','].intercalate ps

/-- The line is made up of these pieces for a file declared to be in this format. -/
def Cut : String → List Char → List (List Char) → Prop
  | sep, l, ps => ((sep = "csv" ∨ sep = "comma") ∧ Commas l ps) ∨ (sep = "whitespace" ∧ Inputs.Spec.Spaced l ps)

/-- Line number `h` is the first line that begins with "ObjID". -/
def FirstAt (ls : List (List Char)) (h : ℕ) (l : List Char) : Prop :=
  ls[h]? = some l ∧ objId <+: l ∧ ∀ k < h, ∀ l', ls[k]? = some l' → ¬ objId <+: l'

/-- The value in this row in a column of this name. -/
def At {V : Type} (names : List String) (row : List V) (n : String) (v : V) : Prop := ∃ i : ℕ, names[i]? = some n ∧ row[i]? = some v

/-- pandas keeps names that are not empty and do not repeat. -/
def KeepsNames (fix : List String → List String) : Prop := ∀ ns : List String, ns.Nodup → "" ∉ ns → fix ns = ns

/-- The three formats of a text file. -/
def Known (sep : String) : Prop := sep = "whitespace" ∨ sep = "csv" ∨ sep = "comma"

/-- A file with some lines of other text, not too many, and then a header line that begins with ObjID and is made up of these pieces, of which ObjID
is the first but not the only one. -/
def HasHeader (sep : String) (ls : List (List Char)) (ps : List (List Char)) : Prop :=
  ∃ (pre : List (List Char)) (l : List Char) (post : List (List Char)), ls = pre ++ (l ++ ['\n']) :: post ∧ pre.length ≤ 101 ∧
    (∀ k ∈ pre, ¬ objId <+: k) ∧ objId <+: l ∧ Cut sep l ps ∧ ps.head? = some objId ∧ 2 ≤ ps.length

/-- The pieces are these names, with white space around them. -/
def Named (ps : List (List Char)) (ns : List String) : Prop :=
  List.Forall₂ (Config.Spec.Stripped Config.Spec.Space) (ps.map String.ofList) ns ∧ ns.Nodup ∧ "" ∉ ns

/-- The documented columns of an ephemeris, in the documented order. -/
def documentedEphemeris : List String :=
  ["ObjID", "FieldID", "fieldMJD_TAI", "Range_LTC_km", "RangeRate_LTC_km_s", "RA_deg", "RARateCosDec_deg_day", "Dec_deg", "DecRate_deg_day",
    "Obj_Sun_x_LTC_km", "Obj_Sun_y_LTC_km", "Obj_Sun_z_LTC_km", "Obj_Sun_vx_LTC_km_s", "Obj_Sun_vy_LTC_km_s", "Obj_Sun_vz_LTC_km_s",
    "Obs_Sun_x_km", "Obs_Sun_y_km", "Obs_Sun_z_km", "Obs_Sun_vx_km_s", "Obs_Sun_vy_km_s", "Obs_Sun_vz_km_s", "phase_deg"]

/-- Columns an ephemeris may also have; they are ignored. -/
def ignoredEphemeris : List String := ["V", "V(H=0)", "fieldJD_TDB"]

end Sorcha.Tables
