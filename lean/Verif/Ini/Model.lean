import Verif.Config.Model
import Verif.Inputs.Model

/-!
# Model of the reading of the configuration file

`sorchaConfigs.__init__` gives the file to `configparser.ConfigParser()` of Python's standard library with its default options
(sorchaConfigs.py:1215-1229) and takes the sections from it (:1246-1296). The reader (`RawConfigParser._read`,
`_join_multiline_values`, `BasicInterpolation`, as of Python 3.11) is modelled here line by line, so that what is proved about sections in
`Config` can be said about the text of the file.

A line is the list of its characters without the end of line. `str.lower`, which is applied to the keys, is a parameter. Exceptions end the
reading; where the standard library notes an error and goes on to the end of the file (`ParsingError`) the model stops at once, so that
only the kind of the exception can differ if there are several.
-/

namespace Sorcha.Ini

open Sorcha.Config (isSpace stripChars)

/-- A line of the file. -/
abbrev Line := List Char

/-- The exceptions of configparser. -/
inductive Err
  | noHeader        -- MissingSectionHeaderError
  | sectionTwice    -- DuplicateSectionError
  | keyTwice        -- DuplicateOptionError
  | parsing         -- ParsingError
  | percent         -- InterpolationSyntaxError
  | unknownRef      -- InterpolationMissingOptionError
  | tooDeep         -- InterpolationDepthError
deriving DecidableEq, Repr

/-- A key with the lines of its value. -/
abbrev Opt := String × List Line

/-- The state of `RawConfigParser._read`: the sections read so far with their keys, the current section and key, and the indentation of the last line
that was not a continuation. The section `DEFAULT` (`self._defaults`) is kept in the same list. -/
structure St where
  secs : List (String × List Opt)
  cur : Option String
  opt : Option String
  indent : Nat
deriving DecidableEq, Repr

/-- The state before the first line. -/
def St.init : St := ⟨[("DEFAULT", [])], none, none, 0⟩

/-- Change the keys of one section. -/
def modify (secs : List (String × List Opt)) (name : String) (f : List Opt → List Opt) : List (String × List Opt) :=
  secs.map fun s => if s.1 = name then (s.1, f s.2) else s

/-- `cursect[optname].append(value)`. -/
def appendTo (secs : List (String × List Opt)) (name key : String) (v : Line) : List (String × List Opt) :=
  modify secs name fun os => os.map fun o => if o.1 = key then (o.1, o.2 ++ [v]) else o

/-- The section and key to which a continuation line would belong: `cursect is not None and optname`. -/
def St.target (st : St) : Option (String × String) :=
  match st.cur, st.opt with
  | some n, some k => if k = "" then none else some (n, k)
  | _, _ => none

/-- `SECTCRE`, `\[(?P<header>.+)\]` at the start of the stripped line: the header goes up to the last closing bracket. -/
def header (v : Line) : Option Line :=
  match v with
  | '[' :: r => if (r.reverse.dropWhile (· ≠ ']')).tail = [] then none else some (r.reverse.dropWhile (· ≠ ']')).tail.reverse
  | _ => none

/-- The characters between key and value. -/
def isDelim (c : Char) : Bool := c = '=' || c = ':'

/-- `OPTCRE`, `(?P<option>.*?)\s*(?P<vi>=|:)\s*(?P<value>.*)$`, followed by `optname.rstrip()` and `optval.strip()`: the key is what comes before
the first delimiter. -/
def option (v : Line) : Option (Line × Line) :=
  match v.dropWhile (fun c => !isDelim c) with
  | [] => none
  | _ :: r => some (((v.takeWhile (fun c => !isDelim c)).reverse.dropWhile isSpace).reverse, stripChars isSpace r)

/-- The section has the key already: `(sectname, optname) in elements_added`. -/
def hasKey (secs : List (String × List Opt)) (name key : String) : Bool :=
  secs.any fun s => s.1 = name && s.2.any (·.1 = key)

/-- A line that is neither empty, a comment nor a continuation. -/
def heading (lower : String → String) (st : St) (v : Line) : Except Err St :=
  match header v with
  | some h =>
    if String.ofList h = "DEFAULT" then .ok { st with cur := some "DEFAULT", opt := none }
    else if (st.secs.map Prod.fst).contains (String.ofList h) then .error .sectionTwice
    else .ok { st with secs := st.secs ++ [(String.ofList h, [])], cur := some (String.ofList h), opt := none }
  | none =>
    match st.cur with
    | none => .error .noHeader
    | some n =>
      match option v with
      | none => .error .parsing
      | some (k, x) =>
        if k = [] then .error .parsing
        else if hasKey st.secs n (lower (String.ofList k)) then .error .keyTwice
        else .ok { st with secs := modify st.secs n (· ++ [(lower (String.ofList k), [x])]), opt := some (lower (String.ofList k)) }

/-- One line, `RawConfigParser._read`: empty lines are added to the value that is being read, comments are skipped, a line that is indented more
than the last heading continues the value. -/
def step (lower : String → String) (st : St) (line : Line) : Except Err St :=
  match stripChars isSpace line with
  | [] =>
    match st.target with
    | some (n, k) => .ok { st with secs := appendTo st.secs n k [] }
    | none => .ok st
  | c :: v =>
    if c = '#' || c = ';' then .ok st
    else
      match st.target, decide (st.indent < (line.takeWhile isSpace).length) with
      | some (n, k), true => .ok { st with secs := appendTo st.secs n k (c :: v) }
      | _, _ => heading lower { st with indent := (line.takeWhile isSpace).length } (c :: v)

/-- All the lines. -/
def parse (lower : String → String) : St → List Line → Except Err St
  | st, [] => .ok st
  | st, l :: ls =>
    match step lower st l with
    | .error e => .error e
    | .ok st' => parse lower st' ls

/-- `_join_multiline_values`: `"\n".join(val).rstrip()`. -/
def join (ls : List Line) : Line := (((['\n'].intercalate ls).reverse).dropWhile isSpace).reverse

/-- `BasicInterpolation._interpolate_some`, one value: `%%` is a per cent sign, `%(key)s` the value of another key, anything else after a per cent
sign an error. `skip` characters are passed over; `sub` interpolates the value of another key. -/
def interpGo (lower : String → String) (look : String → Option Line) (sub : Line → Except Err Line) : Nat → Line → Except Err Line
  | _, [] => .ok []
  | k + 1, _ :: r => interpGo lower look sub k r
  | 0, c :: r =>
    if c ≠ '%' then (interpGo lower look sub 0 r).map (c :: ·)
    else
      match r with
      | '%' :: _ => (interpGo lower look sub 1 r).map ('%' :: ·)
      | '(' :: t =>
        match t.takeWhile (· ≠ ')'), t.dropWhile (· ≠ ')') with
        | [], _ => .error .percent
        | k, ')' :: 's' :: _ =>
          match look (lower (String.ofList k)) with
          | none => .error .unknownRef
          | some v => do
            let x ← (if v.contains '%' then sub v else .ok v)
            let y ← interpGo lower look sub (k.length + 3) r
            .ok (x ++ y)
        | _, _ => .error .percent
      | _ => .error .percent

/-- The same with nesting: at most `n` levels (`MAX_INTERPOLATION_DEPTH` is 10). -/
def interp (lower : String → String) (look : String → Option Line) : Nat → Line → Except Err Line
  | 0, _ => .error .tooDeep
  | n + 1, v => interpGo lower look (interp lower look n) 0 v

/-- `dict(config_object[section])`, sorchaConfigs.py:1286: the keys of the section, then those of `DEFAULT` that it does not have. -/
def rawDict (secs : List (String × List Opt)) (name : String) : List (String × Line) :=
  let own := ((secs.find? (·.1 = name)).map (·.2)).getD []
  let dflt := ((secs.find? (·.1 = "DEFAULT")).map (·.2)).getD []
  (own ++ dflt.filter fun d => !own.any (·.1 = d.1)).map fun o => (o.1, join o.2)

/-- Interpolate the values one after the other. -/
def dictGo (lower : String → String) (raw : List (String × Line)) : List (String × Line) → Except Err Config.Sect
  | [] => .ok []
  | (k, v) :: os => do
    let x ← interp lower (fun key => (raw.find? (·.1 = key)).map (·.2)) 10 v
    let xs ← dictGo lower raw os
    .ok ((k, String.ofList x) :: xs)

/-- The section as a dictionary. -/
def dict (lower : String → String) (secs : List (String × List Opt)) (name : String) : Except Err Config.Sect :=
  dictGo lower (rawDict secs name) (rawDict secs name)

/-- The names of `section_list`, sorchaConfigs.py:1246-1260. -/
def sectionList : List String :=
  ["INPUT", "SIMULATION", "FILTERS", "SATURATION", "PHASECURVES", "FOV", "FADINGFUNCTION", "LINKINGFILTER", "OUTPUT", "LIGHTCURVE", "ACTIVITY",
    "EXPERT", "AUXILIARY"]

/-- The dictionaries of those sections of the list that are in the file (`has_section`). -/
def dicts (lower : String → String) (secs : List (String × List Opt)) : List String → Except Err Config.File
  | [] => .ok []
  | n :: ns =>
    if (secs.map Prod.fst).contains n then do
      let d ← dict lower secs n
      let ds ← dicts lower secs ns
      .ok ((n, d) :: ds)
    else dicts lower secs ns

/-- The sections the program sees of a file with these lines. -/
def load (lower : String → String) (lines : List Line) : Except Err Config.File :=
  match parse lower St.init lines with
  | .error e => .error e
  | .ok st => dicts lower st.secs sectionList

/-- The fields of `auxiliaryConfigs`, sorchaConfigs.py:962-1036. -/
def fieldsAuxiliary : List String :=
  ["planet_ephemeris", "planet_ephemeris_url", "earth_predict", "earth_predict_url", "earth_historical", "earth_historical_url",
    "earth_high_precision", "earth_high_precision_url", "jpl_planets", "jpl_planets_url", "jpl_small_bodies", "jpl_small_bodies_url",
    "leap_seconds", "leap_seconds_url", "meta_kernel", "observatory_codes", "observatory_codes_compressed",
    "observatory_codes_compressed_url", "orientation_constants", "orientation_constants_url", "data_file_list", "urls",
    "data_files_to_download", "ordered_kernel_files", "registry"]

/-- Why a configuration file is not accepted. -/
inductive Stop
  | ini (e : Err)
  | config (e : Config.Err)
  | aux (e : Inputs.Err)
deriving Repr

/-- `sorchaConfigs(config_file_location, survey_name)`, sorchaConfigs.py:1215-1296: from the text of the file to the settings. All sections are
read before any is validated; the program does this section by section, so that only the kind of the error can differ if there are several. -/
def configure (py : Config.Py) (lcMethods caMethods : List String) (survey : String) (lines : List Line) :
    Except Stop (Config.Cfg × Inputs.Aux) :=
  match load py.lower lines with
  | .error e => .error (.ini e)
  | .ok f =>
    match Config.readConfig py lcMethods caMethods survey f with
    | .error e => .error (.config e)
    | .ok c =>
      match Config.construct fieldsAuxiliary [] ((Config.sect f "AUXILIARY").getD []) with
      | .error e => .error (.config e)
      | .ok _ =>
        match Inputs.auxiliary ((Config.sect f "AUXILIARY").getD []) with
        | .error e => .error (.aux e)
        | .ok a => .ok (c, a)

end Sorcha.Ini
