import Verif.Cli.Model
import Mathlib.Data.List.Basic

/-!
# Model of the command line

`sorcha VERB ...` finds and starts `sorcha-VERB` (sorcha_cmdline/main.py); `sorcha-run` reads its arguments (sorcha_cmdline/run.py:9-136) before the checks that
`Verif.Cli` models. Both use `argparse`, modelled here as in Python 3.11.10 (Lib/argparse.py, cited as argparse) for parsers whose options take one value, none, or
print the help text.

Texts are lists of characters. Digits are the ASCII ones.
-/

namespace Sorcha.Argv

abbrev Str := List Char

/-- What an option does: stores the text that follows, stores a constant, or prints the help and leaves. -/
inductive Act (D : Type)
  | value (dest : D)
  | flag (dest : D)
  | help
deriving DecidableEq, Repr

variable {D : Type}

/-- The number of arguments that an option takes is one. -/
def Act.takes : Act D → Bool
  | .value _ => true
  | _ => false

/-- `_option_string_actions`, in the order of definition. -/
abbrev Table (D : Type) := List (Str × Act D)

/-- Ways of leaving: status 0 after the help text, status 2 after an error message. -/
inductive Exit
  | help
  | usage
deriving DecidableEq, Repr

/-- What an argument is before it is used (argparse:1935-1959): an `A`, the `--`, an option that is not known, or a known one (whether its first two characters are
`-` and a letter; the text after `=`, or glued on: whether there was a `=`, and the text). -/
inductive Kind (D : Type)
  | arg
  | dashes
  | unknown
  | option (act : Act D) (short : Bool) (explicit : Option (Bool × Str))
deriving DecidableEq, Repr

/-- `s.partition("=")[0]`. -/
def beforeEq (s : Str) : Str := s.takeWhile (· ≠ '=')

/-- `s.partition("=")[2]`. -/
def afterEq (s : Str) : Str := (s.dropWhile (· ≠ '=')).tail

/-- The explicit argument of `s`, if there is a `=`. -/
def explicitEq (s : Str) : Option (Bool × Str) := if '=' ∈ s then some (true, afterEq s) else none

/-- The option string is a `-` and a character other than `-` (`option_string[1] not in chars`). -/
def isShort : Str → Bool
  | _ :: c :: _ => c ≠ '-'
  | _ => true

/-- `_get_option_tuples` (argparse:2300-2340) for a text of at least two characters that starts with `-`. -/
def tuples (T : Table D) (s : Str) : List (Kind D) :=
  match s with
  | _ :: '-' :: _ => (T.filter fun e => (beforeEq s).isPrefixOf e.1).map fun e => .option e.2 (isShort e.1) (explicitEq s)
  | _ :: c :: rest => T.filterMap fun e =>
      if e.1 = ['-', c] then some (.option e.2 (isShort e.1) (some (false, rest)))
      else if s.isPrefixOf e.1 then some (.option e.2 (isShort e.1) none) else none
  | _ => []

def isDigit (c : Char) : Bool := '0' ≤ c ∧ c ≤ '9'

/-- `_negative_number_matcher`: `^-\d+$|^-\d*\.\d+$`, where `$` is also before a line break at the end. -/
def negative (s : Str) : Bool :=
  let t := if s.getLast? = some '\n' then s.dropLast else s
  match t with
  | '-' :: r =>
    let frac := r.dropWhile isDigit
    match frac with
    | [] => !r.isEmpty
    | '.' :: ds => !ds.isEmpty && ds.all isDigit
    | _ => false
  | _ => false

/-- `_parse_optional` (argparse:2243-2298). -/
def classify (T : Table D) (s : Str) : Except Exit (Kind D) :=
  match s with
  | [] => .ok .arg
  | c :: _ =>
    if c ≠ '-' then .ok .arg
    else match T.lookup s with
      | some a => .ok (.option a (isShort s) none)
      | none =>
        if s.length = 1 then .ok .arg
        else match (if '=' ∈ s then T.lookup (beforeEq s) else none) with
          | some a => .ok (.option a (isShort (beforeEq s)) (some (true, afterEq s)))
          | none =>
            match tuples T s with
            | [] => if negative s then .ok .arg else if ' ' ∈ s then .ok .arg else .ok .unknown
            | [k] => .ok k
            | _ => .error .usage

/-- The first pass over the arguments (argparse:1935-1959): after `--` everything is an argument. -/
def kinds (T : Table D) : List Str → Except Exit (List (Str × Kind D))
  | [] => .ok []
  | s :: rest =>
    if s = ['-', '-'] then .ok ((s, .dashes) :: rest.map fun r => (r, .arg))
    else match classify T s with
      | .error e => .error e
      | .ok k => match kinds T rest with
        | .error e => .error e
        | .ok ks => .ok ((s, k) :: ks)

/-- What comes of one argument: the actions in order, an option that still waits for the next argument or is done without, whether something was not recognised. -/
structure Taken (D : Type) where
  acts : List (Act D × Str)
  last : Option (Act D)
  extra : Bool

/-- The loop of `consume_optional` over an explicit argument (argparse:1996-2062): a flag with one dash lets the rest be read as further letters. -/
def explicitArg (T : Table D) : Act D → Bool → Bool → Str → Except Exit (Taken D)
  | a, short, sep, x =>
    if a.takes then .ok ⟨[(a, x)], none, false⟩
    else match x with
      | [] => .error .usage
      | c :: cs =>
        if !short then .error .usage
        else if sep || c = '-' then .error .usage
        else match T.lookup ['-', c] with
          | none => .ok ⟨[(a, [])], none, true⟩
          | some a' =>
            match cs with
            | [] => .ok ⟨[(a, [])], some a', false⟩
            | '=' :: v => (explicitArg T a' true true v).map fun t => { t with acts := (a, []) :: t.acts }
            | c' :: v => (explicitArg T a' true false (c' :: v)).map fun t => { t with acts := (a, []) :: t.acts }

/-- What the parser has done so far: the settings made, in order, and whether there are arguments that it does not recognise. -/
structure St (D : Type) where
  given : List (D × Str)
  extras : Bool

/-- `take_action` for the actions of one argument: help leaves at once. -/
def perform : List (Act D × Str) → St D → Except Exit (St D)
  | [], st => .ok st
  | (.help, _) :: _, _ => .error .help
  | (.value d, v) :: as, st => perform as { st with given := st.given ++ [(d, v)] }
  | (.flag d, _) :: as, st => perform as { st with given := st.given ++ [(d, [])] }

/-- The letters of one argument, if there is more than the option. -/
def first (T : Table D) (a : Act D) (short : Bool) : Option (Bool × Str) → Except Exit (Taken D)
  | none => .ok ⟨[], some a, false⟩
  | some (sep, x) => explicitArg T a short sep x

/-- `consume_optional` (argparse:1986-2069) on one argument, with the next one: the actions, whether the next one is used up, whether something is not recognised. -/
def consume (T : Table D) (a : Act D) (short : Bool) (explicit : Option (Bool × Str)) (next : Option (Str × Kind D)) :
    Except Exit (List (Act D × Str) × Bool × Bool) :=
  match first T a short explicit with
  | .error e => .error e
  | .ok t =>
    match t.last with
    | none => .ok (t.acts, false, t.extra)
    | some a' =>
      if a'.takes then
        match next with
        | some (v, .arg) => .ok (t.acts ++ [(a', v)], true, t.extra)
        | _ => .error .usage
      else .ok (t.acts ++ [(a', [])], false, t.extra)

/-- The loop over the arguments of a parser without positional arguments (argparse:2094-2135). -/
def go (T : Table D) : List (Str × Kind D) → St D → Except Exit (St D)
  | [], st => .ok st
  | (_, .option a short e) :: rest, st =>
    match consume T a short e rest.head? with
    | .error x => .error x
    | .ok (acts, next, extra) =>
      match perform acts { st with extras := st.extras || extra } with
      | .error x => .error x
      | .ok st =>
        if next then
          match rest with
          | [] => .error .usage
          | _ :: rest' => go T rest' st
        else go T rest st
  | (_, _) :: rest, st => go T rest { st with extras := true }

/-! ## `sorcha run` -/

/-- Where `sorcha run` stores what it is given (`dest`). -/
inductive Dest
  | c | o | ob | p | pd | er | ew | ar | cp | f | s | t | l | st | vd
deriving DecidableEq, Repr

/-- The options of `sorcha run`, run.py:16-132; the parser adds the help option. -/
def runTable : Table Dest := [
  ("-h".toList, .help), ("--help".toList, .help),
  ("-c".toList, .value .c), ("--config".toList, .value .c),
  ("-o".toList, .value .o), ("--outfile".toList, .value .o),
  ("--ob".toList, .value .ob), ("--orbits".toList, .value .ob),
  ("-p".toList, .value .p), ("--physical-parameters".toList, .value .p),
  ("--pd".toList, .value .pd), ("--pointing-db".toList, .value .pd),
  ("--er".toList, .value .er), ("--ephem-read".toList, .value .er),
  ("--ew".toList, .value .ew), ("--ephem-write".toList, .value .ew),
  ("--ar".toList, .value .ar), ("--ar-data-path".toList, .value .ar),
  ("--cp".toList, .value .cp), ("--complex-physical-parameters".toList, .value .cp),
  ("-f".toList, .flag .f), ("--force".toList, .flag .f),
  ("-s".toList, .value .s), ("--survey".toList, .value .s),
  ("-t".toList, .value .t), ("--stem".toList, .value .t),
  ("-l".toList, .flag .l), ("--log-level".toList, .flag .l),
  ("--st".toList, .value .st), ("--stats".toList, .value .st),
  ("--vd".toList, .value .vd), ("--visits-db".toList, .value .vd)]

/-- The namespace: an attribute is `None`, a text or a truth value. -/
inductive Val
  | none
  | text (s : Str)
  | bool (b : Bool)
deriving DecidableEq, Repr

/-- The defaults, run.py:58-132. -/
def defaults : Dest → Val
  | .f => .bool false
  | .s => .text "rubin_sim".toList
  | .t => .text "SSPPOutput".toList
  | .l => .bool true
  | _ => .none

/-- `setattr(namespace, dest, ...)`: `store_true` for `-f`, `store_false` for `-l` (run.py:96-103, 110-117). -/
def setattr (ns : Dest → Val) (g : Dest × Str) : Dest → Val :=
  fun d => if d = g.1 then (match g.1 with
    | .f => .bool true
    | .l => .bool false
    | _ => .text g.2) else ns d

/-- The options with `required=True`, run.py:17-56. -/
def required : List Dest := [.c, .o, .ob, .p, .pd]

/-- A text attribute. -/
def Val.str : Val → String
  | .text s => String.ofList s
  | _ => ""

def Val.str? : Val → Option String
  | .text s => some (String.ofList s)
  | _ => Option.none

/-- The namespace as the rest of the program uses it, and `args.l`. -/
def toArgs (ns : Dest → Val) : Cli.Args × Bool :=
  (⟨(ns .p).str, (ns .ob).str, (ns .c).str, (ns .o).str, (ns .pd).str, (ns .cp).str?, (ns .er).str?, (ns .ew).str?, (ns .vd).str?, (ns .st).str?, (ns .ar).str?,
    ns .f = .bool true, (ns .s).str, (ns .t).str⟩, ns .l = .bool true)

/-- `parser.parse_args()` of `sorcha run`, run.py:134. -/
def parseRun (argv : List Str) : Except Exit (Cli.Args × Bool) :=
  match kinds runTable argv with
  | .error e => .error e
  | .ok ks =>
    match go runTable ks ⟨[], false⟩ with
    | .error e => .error e
    | .ok st =>
      if !required.all fun d => d ∈ st.given.map Prod.fst then .error .usage
      else if st.extras then .error .usage
      else .ok (toArgs (st.given.foldl setattr defaults))

/-! ## `sorcha` -/

/-- A file or directory in a directory of `PATH`: its name, whether it may be executed (`os.access(..., os.X_OK)`), whether it is a directory. -/
structure Entry where
  name : Str
  exec : Bool
  dir : Bool
deriving DecidableEq, Repr

/-- `PATH`: the names of the directories, none of them empty, and what they hold; `none` is no directory. -/
abbrev Path := List (Str × Option (List Entry))

/-- `find_sorcha_verbs`, main.py:12-20, without the sorting. -/
def verbs (path : Path) : List Str :=
  path.flatMap fun d => match d.2 with
    | none => []
    | some es => (es.filter fun e => "sorcha-".toList.isPrefixOf e.name && e.exec).map fun e => e.name.drop 7

/-- `shutil.which`, main.py:74, and the search of `subprocess.run`, main.py:80: the first directory with a file of that name that may be executed. -/
def which (path : Path) (name : Str) : Option Str :=
  (path.find? fun d => match d.2 with
    | none => false
    | some es => es.any fun e => e.name = name && e.exec && !e.dir).map Prod.fst

/-- The option of `sorcha` besides help, main.py:50-55. -/
inductive MainDest
  | version
deriving DecidableEq, Repr

def mainTable : Table MainDest := [("-h".toList, .help), ("--help".toList, .help), ("--version".toList, .flag .version)]

/-- How `sorcha` ends: with a status of its own, or with the command in directory `dir` run with the arguments. -/
inductive Done
  | status (n : ℕ)
  | run (dir utility : Str) (args : List Str)
deriving DecidableEq, Repr

/-- The positional arguments (main.py:57-58; argparse:2076-2092): the verb takes at most one argument and the `--` before and after it (`(-*A?-*)`), of which the
first is removed (argparse:2476-2481); everything else is left for the verb's command. In the first pass there is at most one `--`. -/
def positionals : List (Str × Kind MainDest) → Option Str × List Str
  | (_, .dashes) :: (v, .arg) :: rest => (some v, rest.map Prod.fst)
  | (_, .dashes) :: rest => (none, rest.map Prod.fst)
  | (v, .arg) :: (_, .dashes) :: rest => (some v, rest.map Prod.fst)
  | (v, .arg) :: rest => (some v, rest.map Prod.fst)
  | rest => (none, rest.map Prod.fst)

/-- After the arguments have been read, main.py:62-86. -/
def launch (path : Path) (st : St MainDest) (verb : Option Str) (args : List Str) : Done :=
  match (if verb.all fun v => v ∈ verbs path then Except.ok () else Except.error ()) with
  | .error _ => .status 2
  | .ok _ =>
    if st.extras then .status 2
    else if st.given ≠ [] then .status 0
    else match verb with
      | none => .status 1
      | some v =>
        if v = [] then .status 1
        else match which path ("sorcha-".toList ++ v) with
          | none => .status 1
          | some d => .run d ("sorcha-".toList ++ v) args

/-- The loop over the arguments: options up to the first positional argument, which takes everything that is left. -/
def mainGo (path : Path) : List (Str × Kind MainDest) → St MainDest → Done
  | (_, .option a short e) :: rest, st =>
    match consume mainTable a short e rest.head? with
    | .error .help => .status 0
    | .error .usage => .status 2
    | .ok (acts, _, extra) =>
      match perform acts { st with extras := st.extras || extra } with
      | .error .help => .status 0
      | .error .usage => .status 2
      | .ok st => mainGo path rest st
  | (_, .unknown) :: rest, st => mainGo path rest { st with extras := true }
  | ks, st => launch path st (positionals ks).1 (positionals ks).2

/-- `sorcha`, main.py:23-86. -/
def main (path : Path) (argv : List Str) : Done :=
  if verbs path = [] then .status 1
  else match kinds mainTable argv with
    | .error .help => .status 0
    | .error .usage => .status 2
    | .ok ks => mainGo path ks ⟨[], false⟩

/-- The status with which `sorcha` ends (main.py:79-86), where `child` gives the return code of a command, negative if it was ended by a signal: the code of the
command, as the operating system passes it on. -/
def status (child : Str → Str → List Str → ℤ) : Done → ℕ
  | .status n => n
  | .run d u args => (child d u args % 256).toNat

end Sorcha.Argv
