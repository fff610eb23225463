import Verif.Inputs.Model

/-!
# What valid input files are
-/

namespace Sorcha.Inputs.Spec

open Sorcha.Inputs

/-- The number lies in `[0, 1)`, or is NaN. -/
def EllipticOrNan (x : Fl) : Prop := x = .nan ∨ ∃ q, x = .fin q ∧ 0 ≤ q ∧ q < 1

/-- The number is not negative, or is NaN. -/
def NonNegOrNan (x : Fl) : Prop := x = .nan ∨ x = .pinf ∨ ∃ q, x = .fin q ∧ 0 ≤ q

/-- The format, its elements and the condition on a row. -/
inductive Known : String → List String → (OrbRow → Prop) → Prop
  | kep (f : String) (hf : f = "KEP" ∨ f = "BKEP") : Known f ["ObjID", "a", "e", "inc", "node", "argPeri", "ma", "epochMJD_TDB"]
      (fun r => EllipticOrNan (r.val "e") ∧ (r.val "e" ≠ .nan → NonNegOrNan (r.val "a")))
  | com (f : String) (hf : f = "COM" ∨ f = "BCOM") : Known f ["ObjID", "q", "e", "inc", "node", "argPeri", "t_p_MJD_TDB", "epochMJD_TDB"]
      (fun r => NonNegOrNan (r.val "q") ∧ NonNegOrNan (r.val "e"))
  | cart (f : String) (hf : f = "CART" ∨ f = "BCART") : Known f ["ObjID", "x", "y", "z", "xdot", "ydot", "zdot", "epochMJD_TDB"] (fun _ => True)

/-- A valid block with rows: one known format, nine columns among which its elements, and valid rows. -/
def ValidBlock (b : Block) : Prop :=
  ∃ f elements cond, Known f elements cond ∧ (∀ r ∈ b.rows, r.format = f) ∧ "FORMAT" ∈ b.columns ∧ b.columns.length = 9 ∧
    (∀ c ∈ elements, c ∈ b.columns) ∧ ∀ r ∈ b.rows, cond r

/-- "H_" occurs in the text. -/
def HasH (l : List Char) : Prop := ∃ a b, l = a ++ 'H' :: '_' :: b

/-- `x` follows "H_", and "H_" does not occur before that place. -/
def FirstAfterH (line : List Char) (x : Char) : Prop :=
  ∃ pre rest, line = pre ++ 'H' :: '_' :: x :: rest ∧ ¬ HasH (pre ++ ['H'])

/-- White space that separates words in Python, by code point. -/
def Blank (c : Char) : Prop :=
  c.toNat ∈ [0x9, 0xA, 0xB, 0xC, 0xD, 0x1C, 0x1D, 0x1E, 0x1F, 0x20, 0x85, 0xA0, 0x1680, 0x2000, 0x2001, 0x2002, 0x2003, 0x2004, 0x2005,
    0x2006, 0x2007, 0x2008, 0x2009, 0x200A, 0x2028, 0x2029, 0x202F, 0x205F, 0x3000]

/-- The text consists of these words, separated (and possibly surrounded) by white space. -/
inductive Spaced : List Char → List (List Char) → Prop
  | blank (l : List Char) (h : ∀ c ∈ l, Blank c) : Spaced l []
  | last (l w : List Char) (h : ∀ c ∈ l, Blank c) (hw : w ≠ []) (hb : ∀ c ∈ w, ¬ Blank c) : Spaced (l ++ w) [w]
  | word (l w : List Char) (b : Char) (r : List Char) (ws : List (List Char)) (h : ∀ c ∈ l, Blank c) (hw : w ≠ [])
      (hb : ∀ c ∈ w, ¬ Blank c) (hs : Blank b) (hr : Spaced r ws) : Spaced (l ++ w ++ b :: r) (w :: ws)

/-- The line is a header with these columns, in the given format, followed by its end of line. -/
inductive Header : List Char → String → List (List Char) → Prop
  | comma (sep : String) (hs : sep = "comma" ∨ sep = "csv") (cols : List (List Char)) (h : cols ≠ []) (hc : ∀ w ∈ cols, ',' ∉ w) :
      Header ([','].intercalate cols ++ ['\n']) sep cols
  | blank (l : List Char) (cols : List (List Char)) (h : Spaced l cols) : Header (l ++ ['\n']) "whitespace" cols

/-- The files that can be downloaded: key in the configuration file, documented name and documented address. -/
def documented : List (String × String × String) :=
  [("planet_ephemeris", "de440s.bsp", "https://naif.jpl.nasa.gov/pub/naif/generic_kernels/spk/planets/de440s.bsp"),
   ("earth_predict", "earth_2025_250826_2125_predict.bpc",
    "https://naif.jpl.nasa.gov/pub/naif/generic_kernels/pck/earth_2025_250826_2125_predict.bpc"),
   ("earth_historical", "earth_620120_250826.bpc", "https://naif.jpl.nasa.gov/pub/naif/generic_kernels/pck/earth_620120_250826.bpc"),
   ("earth_high_precision", "earth_latest_high_prec.bpc",
    "https://naif.jpl.nasa.gov/pub/naif/generic_kernels/pck/earth_latest_high_prec.bpc"),
   ("jpl_planets", "linux_p1550p2650.440", "https://ssd.jpl.nasa.gov/ftp/eph/planets/Linux/de440/linux_p1550p2650.440"),
   ("jpl_small_bodies", "sb441-n16.bsp", "https://ssd.jpl.nasa.gov/ftp/eph/small_bodies/asteroids_de441/sb441-n16.bsp"),
   ("leap_seconds", "naif0012.tls", "https://naif.jpl.nasa.gov/pub/naif/generic_kernels/lsk/naif0012.tls"),
   ("observatory_codes_compressed", "ObsCodes.json.gz", "https://minorplanetcenter.net/Extended_Files/obscodes_extended.json.gz"),
   ("orientation_constants", "pck00010.pck", "https://naif.jpl.nasa.gov/pub/naif/generic_kernels/pck/pck00010.tpc")]

/-- The value of the key in the configuration file, or else the default. -/
def setOr (s : List (String × String)) (key default value : String) : Prop :=
  (∃ pre post, s = pre ++ (key, value) :: post ∧ ∀ kv ∈ pre, kv.1 ≠ key) ∨ ((∀ kv ∈ s, kv.1 ≠ key) ∧ value = default)

end Sorcha.Inputs.Spec
