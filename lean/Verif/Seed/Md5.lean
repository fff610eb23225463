import Mathlib.Data.Nat.Notation
import Mathlib.Data.List.Defs

/-!
# Model of `hashlib.md5`

The seed of a module's generator is made from the MD5 digest of the module's name (utilities/sorchaModuleRNG.py:42-43). The digest is modelled as RFC 1321
defines it, so that the seeds of sorcha's own modules can be computed. Words are natural numbers below `2 ^ 32`.
-/

namespace Sorcha.Seed

/-- The bytes of a character in UTF-8 (`module_name.encode()`, sorchaModuleRNG.py:42). -/
def utf8 (c : Char) : List ℕ :=
  let n := c.toNat
  if n < 0x80 then [n]
  else if n < 0x800 then [0xC0 + n / 64, 0x80 + n % 64]
  else if n < 0x10000 then [0xE0 + n / 4096, 0x80 + n / 64 % 64, 0x80 + n % 64]
  else [0xF0 + n / 262144, 0x80 + n / 4096 % 64, 0x80 + n / 64 % 64, 0x80 + n % 64]

/-- A number as `k` bytes, lowest first. -/
def littleBytes : ℕ → ℕ → List ℕ
  | 0, _ => []
  | k + 1, n => n % 256 :: littleBytes k (n / 256)

/-- The number of bytes given lowest first. -/
def ofLittle : List ℕ → ℕ
  | [] => 0
  | b :: bs => b + 256 * ofLittle bs

/-- Padding (RFC 1321, 3.1 and 3.2): a byte 128, zeros up to 56 modulo 64, the length in bits in eight bytes. -/
def pad (bs : List ℕ) : List ℕ :=
  bs ++ 128 :: List.replicate ((119 - bs.length % 64) % 64) 0 ++ littleBytes 8 (8 * bs.length)

/-- Cut a list into pieces of `n`; `fuel` bounds the number of pieces. -/
def pieces {α : Type} (n : ℕ) : ℕ → List α → List (List α)
  | 0, _ => []
  | fuel + 1, l => if l.isEmpty then [] else l.take n :: pieces n fuel (l.drop n)

/-- The constants of the 64 steps (RFC 1321, 3.4): the integer parts of `2 ^ 32 * |sin (i + 1)|`. -/
def sines : List ℕ :=
  [0xd76aa478, 0xe8c7b756, 0x242070db, 0xc1bdceee, 0xf57c0faf, 0x4787c62a, 0xa8304613, 0xfd469501,
   0x698098d8, 0x8b44f7af, 0xffff5bb1, 0x895cd7be, 0x6b901122, 0xfd987193, 0xa679438e, 0x49b40821,
   0xf61e2562, 0xc040b340, 0x265e5a51, 0xe9b6c7aa, 0xd62f105d, 0x02441453, 0xd8a1e681, 0xe7d3fbc8,
   0x21e1cde6, 0xc33707d6, 0xf4d50d87, 0x455a14ed, 0xa9e3e905, 0xfcefa3f8, 0x676f02d9, 0x8d2a4c8a,
   0xfffa3942, 0x8771f681, 0x6d9d6122, 0xfde5380c, 0xa4beea44, 0x4bdecfa9, 0xf6bb4b60, 0xbebfbc70,
   0x289b7ec6, 0xeaa127fa, 0xd4ef3085, 0x04881d05, 0xd9d4d039, 0xe6db99e5, 0x1fa27cf8, 0xc4ac5665,
   0xf4292244, 0x432aff97, 0xab9423a7, 0xfc93a039, 0x655b59c3, 0x8f0ccc92, 0xffeff47d, 0x85845dd1,
   0x6fa87e4f, 0xfe2ce6e0, 0xa3014314, 0x4e0811a1, 0xf7537e82, 0xbd3af235, 0x2ad7d2bb, 0xeb86d391]

/-- The rotations of the 64 steps (RFC 1321, 3.4). -/
def shifts : List ℕ :=
  [7, 12, 17, 22, 7, 12, 17, 22, 7, 12, 17, 22, 7, 12, 17, 22,
   5, 9, 14, 20, 5, 9, 14, 20, 5, 9, 14, 20, 5, 9, 14, 20,
   4, 11, 16, 23, 4, 11, 16, 23, 4, 11, 16, 23, 4, 11, 16, 23,
   6, 10, 15, 21, 6, 10, 15, 21, 6, 10, 15, 21, 6, 10, 15, 21]

/-- Rotate a word to the left. -/
def rotate (x n : ℕ) : ℕ := (x <<< n ||| x >>> (32 - n)) % 2 ^ 32

/-- The complement of a word. -/
def comp (x : ℕ) : ℕ := 2 ^ 32 - 1 - x

/-- The four words of the state. -/
structure Words where
  a : ℕ
  b : ℕ
  c : ℕ
  d : ℕ
deriving DecidableEq, Repr

/-- Step `i` of the compression (RFC 1321, 3.4): the auxiliary function of the round and the word of the block it uses. -/
def md5Step (block : List ℕ) (s : Words) (i : ℕ) : Words :=
  let f := if i < 16 then (s.b &&& s.c) ||| (comp s.b &&& s.d)
    else if i < 32 then (s.b &&& s.d) ||| (s.c &&& comp s.d)
    else if i < 48 then (s.b ^^^ s.c) ^^^ s.d
    else s.c ^^^ (s.b ||| comp s.d)
  let k := if i < 16 then i else if i < 32 then (5 * i + 1) % 16 else if i < 48 then (3 * i + 5) % 16 else (7 * i) % 16
  let x := (s.a + f + block.getD k 0 + sines.getD i 0) % 2 ^ 32
  ⟨s.d, (s.b + rotate x (shifts.getD i 0)) % 2 ^ 32, s.b, s.c⟩

/-- The compression of one block of 64 bytes. -/
def compress (s : Words) (bytes : List ℕ) : Words :=
  let block := (pieces 4 16 bytes).map ofLittle
  let t := (List.range 64).foldl (md5Step block) s
  ⟨(s.a + t.a) % 2 ^ 32, (s.b + t.b) % 2 ^ 32, (s.c + t.c) % 2 ^ 32, (s.d + t.d) % 2 ^ 32⟩

/-- The bytes of the digest. -/
def digest (bs : List ℕ) : List ℕ :=
  let p := pad bs
  let s := (pieces 64 p.length p).foldl compress ⟨0x67452301, 0xefcdab89, 0x98badcfe, 0x10325476⟩
  littleBytes 4 s.a ++ littleBytes 4 s.b ++ littleBytes 4 s.c ++ littleBytes 4 s.d

/-- `int(hashlib.md5(module_name.encode()).hexdigest(), base=16)`, sorchaModuleRNG.py:42-43: the bytes of the digest, highest first. -/
def md5 (name : String) : ℕ := ofLittle (digest (name.toList.flatMap utf8)).reverse

-- The test suite of RFC 1321, A.5 (the last text has two blocks), and a name with characters outside ASCII.
example : md5 "" = 0xd41d8cd98f00b204e9800998ecf8427e := by decide +kernel
example : md5 "abc" = 0x900150983cd24fb0d6963f7d28e17f72 := by decide +kernel
example : md5 "12345678901234567890123456789012345678901234567890123456789012345678901234567890" = 0x57edf4a22be3c955ac49da2e2107b67a := by decide +kernel
example : md5 "Čapek€𝄞" = 0x67b89977da6d6faf246b01ef18a3f59e := by decide +kernel

end Sorcha.Seed
