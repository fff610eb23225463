import Verif.Seed.Md5
import Verif.DesRun.Model

/-!
# Model of the seed of a run

`sorcha run` takes the base seed of the generators from the variable `SORCHA_SEED` (sorcha_cmdline/run.py:186-188) or from the operating system
(utilities/sorchaArguments.py:89-90), writes it to the log and makes one seed per module of it (utilities/sorchaModuleRNG.py). Here that is put in front of the
rounds of a run (`Pipeline.rounds`, `DesRun.rounds`).

Texts of the environment are ASCII. What numpy's generators yield for a seed is a parameter; the digest is `md5` of `Md5.lean`.
-/

namespace Sorcha.Seed

/-! ## `int` of a text -/

/-- Blanks that `int` strips from an ASCII text. -/
def isBlank (c : Char) : Bool := c = ' ' || c = '\t' || c = '\n' || c = '\r' || c.toNat = 11 || c.toNat = 12

/-- The value of a digit. -/
def digit? (c : Char) : Option ℕ := if '0' ≤ c ∧ c ≤ '9' then some (c.toNat - 48) else none

/-- The digits of a number, with single underscores between digits allowed. `wait`: a digit must come next. The number so far and how many digits it has. -/
def digitsFrom : Bool → ℕ × ℕ → List Char → Option (ℕ × ℕ)
  | wait, acc, [] => if wait then none else some acc
  | wait, acc, c :: cs =>
    if c = '_' then (if wait then none else digitsFrom true acc cs)
    else match digit? c with
      | none => none
      | some d => digitsFrom false (10 * acc.1 + d, acc.2 + 1) cs

/-- A number without sign: at most 4300 digits (`sys.get_int_max_str_digits()`). -/
def unsigned (cs : List Char) : Option ℕ :=
  match digitsFrom true (0, 0) cs with
  | none => none
  | some (n, k) => if k ≤ 4300 then some n else none

/-- Remove blanks at both ends. -/
def trim (cs : List Char) : List Char := (((cs.dropWhile isBlank).reverse).dropWhile isBlank).reverse

/-- `int(text)` for an ASCII text; `none` is `ValueError`. -/
def int? (cs : List Char) : Option ℤ :=
  match trim cs with
  | '-' :: r => (unsigned r).map fun n : ℕ => -(n : ℤ)
  | '+' :: r => (unsigned r).map fun n : ℕ => (n : ℤ)
  | r => (unsigned r).map fun n : ℕ => (n : ℤ)

/-! ## `str` of an integer -/

/-- The digits of a natural number. -/
def decimal (n : ℕ) : List Char :=
  if n < 10 then [Char.ofNat (48 + n)] else decimal (n / 10) ++ [Char.ofNat (48 + n % 10)]
decreasing_by omega

/-- `str(n)`. -/
def str (n : ℤ) : List Char := if n < 0 then '-' :: decimal n.natAbs else decimal n.natAbs

/-! ## The base seed -/

/-- `int.from_bytes(bytes, "big")`, sorchaArguments.py:89. -/
def fromBytes (bs : List (Fin 256)) : ℤ := bs.foldl (fun (n : ℤ) (b : Fin 256) => 256 * n + (b.val : ℤ)) 0

/-- The base seed: the value of `SORCHA_SEED` (run.py:186-187; a text that is no number raises `ValueError`, which nothing catches), otherwise four bytes of the
operating system (sorchaArguments.py:89). -/
def baseSeed (env : Option (List Char)) (urandom : List (Fin 256)) : Option ℤ :=
  match env with
  | some t => int? t
  | none => some (fromBytes urandom)

/-- What the collection of generators writes to the log when it is made, sorchaModuleRNG.py:20-22. -/
def seedLine (base : ℤ) : List Char := "the base rng seed is ".toList ++ str base

/-- What it writes when a module gets its generator, sorchaModuleRNG.py:48-49. -/
def moduleLine (base : ℤ) (name : String) : List Char :=
  "the rng seed for the ".toList ++ name.toList ++ " module is ".toList ++ str (Rng.moduleSeed md5 base name)

/-! ## A run with a seed -/

/-- Name under which `PPRandomizeMeasurements` asks for its generator (PPRandomizeMeasurements.py:227, 296). -/
def randomizeName : String := "sorcha.modules.PPRandomizeMeasurements"

variable {G W V : Type}

/-- What the rounds of a Rubin run use, for a base seed: `E` but for the noise, the digest and the weights. `noise` gives the randomised values for the seed of the
module (then as in `Pipeline.Env`). The weights come from numba's own generator (PPMiniDifi.py:226), which no seed of sorcha's reaches. -/
def envOf (E : Pipeline.Env G W V) (noise : ℕ → ℕ → ℕ → ℕ → Pipeline.Row W V → Fl × Fl × ℚ × ℚ) (weights : ℕ → String → ℕ → ℚ) (base : ℤ) :
    Pipeline.Env G W V :=
  { E with noise := noise (Rng.moduleSeed md5 base randomizeName), md5 := md5, weights := weights }

/-- The state a run starts with: no module has a generator. -/
def start (base : ℤ) : Pipeline.State G := ⟨Rng.init base, 0, 0⟩

/-- A Rubin run on these observations, with its seed; `none`: it stops at `SORCHA_SEED`. -/
def rubin (E : Pipeline.Env G W V) (noise : ℕ → ℕ → ℕ → ℕ → Pipeline.Row W V → Fl × Fl × ℚ × ℚ) (weights : ℕ → String → ℕ → ℚ) (c : Config.Cfg)
    (env : Option (List Char)) (urandom : List (Fin 256)) (obs : List (List (Pointing.Obs W))) : Option (Except Pipeline.Err (List (List (Pipeline.Final W V)))) :=
  (baseSeed env urandom).map fun base => Pipeline.rounds (envOf E noise weights base) c (start base) obs

/-- A DES run on these observations, with its seed. -/
noncomputable def des (E : DesRun.Env G W V) (noise : ℕ → ℕ → ℕ → ℕ → Pipeline.Row W V → Fl × Fl × ℚ × ℚ) (weights : ℕ → String → ℕ → ℚ) (c : Config.Cfg)
    (env : Option (List Char)) (urandom : List (Fin 256)) (obs : List (List (Pointing.Obs W))) : Option (Except DesRun.Err (List (List (Pipeline.Row W V)))) :=
  (baseSeed env urandom).map fun base => DesRun.rounds { E with base := envOf E.base noise weights base } c (start base) obs

end Sorcha.Seed
