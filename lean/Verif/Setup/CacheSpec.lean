import Verif.Setup.Cache

/-!
# Specification: the cache of ephemeris data
-/

namespace Sorcha.Setup.Spec

/-- The eleven files have different names, the compressed observatory codes are named as the codes with an extension for compressed files, and no other file
has such an extension. -/
structure Proper (a : Aux) : Prop where
  nodup : a.dataFileList.Nodup
  codes : unpackedName a.observatoryCodesCompressed = some a.observatoryCodes
  plain : ∀ f ∈ a.toDownload, f ≠ a.observatoryCodesCompressed → unpackedName f = none

/-- The files to be downloaded: all but the meta-kernel, which is made, and the observatory codes, which are unpacked. -/
def Downloaded (a : Aux) (f : String) : Prop := f ∈ a.dataFileList ∧ f ≠ a.metaKernel ∧ f ≠ a.observatoryCodes

/-- The text of a complete meta-kernel for a cache directory: its path and the six kernels, the least precise first. -/
def kernelFile (a : Aux) (dir : List Char) : List Char :=
  "\\begindata\n\nPATH_VALUES = ('".toList ++ Cli.splitPath 79 dir ++ "')\n\nPATH_SYMBOLS = ('A')\n\nKERNELS_TO_LOAD=(\n".toList ++
    [a.leapSeconds, a.earthHistorical, a.earthPredict, a.orientationConstants, a.planetEphemeris, a.earthHighPrecision].flatMap
      (fun k => "    '$A/".toList ++ k.toList ++ "',\n".toList) ++ ")\n\n\\begintext\n".toList

/-- The path of the cache is not empty and does not occur again in the path of a kernel. -/
def Plain (a : Aux) (dir : List Char) : Prop :=
  dir ≠ [] ∧ ∀ k ∈ [a.leapSeconds, a.earthHistorical, a.earthPredict, a.orientationConstants, a.planetEphemeris, a.earthHighPrecision],
    ∀ x y, '/' :: k.toList ≠ x ++ dir ++ y

/-- The file that was there or, if there was none, the downloaded one. -/
def kept (net : Net) (c : Cache) (f : String) : Option (List Char) :=
  match c f with
  | some x => some x
  | none => net f

/-- The observatory codes after the downloads: kept if the archive was there and they were too; else unpacked from the archive, if there is one. -/
def codesAfter (a : Aux) (unpack : List Char → List Char) (net : Net) (c : Cache) : Option (List Char) :=
  match c a.observatoryCodesCompressed, c a.observatoryCodes, net a.observatoryCodesCompressed with
  | some _, some y, _ => some y
  | some x, none, _ => some (unpack x)
  | none, _, some x => some (unpack x)
  | none, y, none => y

/-- `c'` is left after any number of bootstraps of any kind, each of which may have been ended at any moment, while the network only ever gives files for
which `served` holds. -/
inductive History (a : Aux) (unpack : List Char → List Char) (served : String → List Char → Prop) (c : Cache) : Cache → Prop
  | start : History a unpack served c c
  | next {c₁ c₂ : Cache} {e : End} (dir : List Char) (force : Bool) (nets : Nets) (h : History a unpack served c c₁) (hd : Plain a dir)
      (hn : ∀ f x, nets.remove f = some x ∨ nets.download f = some x ∨ nets.build f = some x → served f x)
      (hb : Bootstrap a nets unpack dir force c₁ e c₂) : History a unpack served c c₂

end Sorcha.Setup.Spec
