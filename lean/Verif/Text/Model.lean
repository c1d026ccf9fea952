import Verif.Vuint.Model

/-! Text form of `Vuint`: `toString`, `set(const std::string&)`, `operator>>` (zm.h:84-107, 407-513, 728-738).

Strings are lists of characters.  The C and C++ library routines `strtol`, `strtoul`, the formatted output of unsigned
integers and the formatted input of characters are modelled by their standard meaning in the "C" locale. -/

namespace Verif.Text

open Verif

/-- `isspace` in the "C" locale -/
def isSpace (c : Char) : Bool := c == ' ' || (9 ≤ c.toNat && c.toNat ≤ 13)

/-- digit value of a character, 99 if it is none -/
def dig (c : Char) : ℕ :=
  if 48 ≤ c.toNat ∧ c.toNat ≤ 57 then c.toNat - 48
  else if 97 ≤ c.toNat ∧ c.toNat ≤ 122 then c.toNat - 87
  else if 65 ≤ c.toNat ∧ c.toNat ≤ 90 then c.toNat - 55
  else 99

def isDig (base : ℕ) (c : Char) : Bool := dig c < base

/-- the number denoted by a string of digits -/
def numVal (base : ℕ) (s : List Char) : ℕ := s.foldl (fun a c => base * a + dig c) 0

/-- optional sign of `strtol` -/
def sign : List Char → Bool × List Char
  | '-' :: r => (true, r)
  | '+' :: r => (false, r)
  | r => (false, r)

/-- optional prefix 0x of `strtoul(.., 16)`, taken only when a hexadecimal digit follows -/
def prefix16 : List Char → List Char
  | '0' :: c :: d :: r => if (c = 'x' ∨ c = 'X') ∧ isDig 16 d then d :: r else '0' :: c :: d :: r
  | s => s

/-- `strtol(s, &endp, 10)`, `strtoul(s, &endp, 16)` for texts of at most 9 characters (no overflow): the value and the
text at `endp`.  The C string ends at the first NUL. -/
def strto (base : ℕ) (s : List Char) : ℤ × List Char :=
  let s0 := s.takeWhile (· ≠ '\x00')
  let sg := sign (s0.dropWhile isSpace)
  let s3 := if base = 16 then prefix16 sg.2 else sg.2
  let ds := s3.takeWhile (isDig base)
  if ds.isEmpty then (0, s0)
  else (if sg.1 then -(numVal base ds : ℤ) else numVal base ds, s3.dropWhile (isDig base))

/-- the loops of zm.h:476-484 (base 16, w = 8) and zm.h:491-499 (base 10, w = 9): chunks from the end of the text,
each converted to `uint32_t`; fuel is the length of the text -/
def chunks (base w : ℕ) : ℕ → List Char → Res (List ℕ)
  | 0, t => if t.isEmpty then .ok [] else .diverge
  | fuel + 1, t =>
    if t.isEmpty then .ok []
    else
      let k := t.length - min t.length w
      let r := strto base (t.drop k)
      if r.2 ≠ [] then .throw
      else do
        let xs ← chunks base w fuel (t.take k)
        pure ((r.1 % 2 ^ 32).toNat :: xs)

/-- the loop of zm.h:501-504 -/
def decLoop : List ℕ → List ℕ → Res (List ℕ)
  | acc, [] => .ok acc
  | acc, v :: vs => do
    let m ← Vuint.mul acc (Vuint.ofUnit 1000000000)
    let a ← Vuint.add32 m v
    decLoop a vs

/-- the prefix of zm.h:455-466: base and text behind the prefix -/
def setPrefix (s : List Char) (base : ℕ) : Res (ℕ × List Char) :=
  match s with
  | '0' :: c :: r =>
    if c = 'x' then (if base ≠ 0 ∧ base ≠ 16 then .exit else .ok (16, r)) else .exit
  | _ => .ok (base, [])

/-- `VuintT::set(const std::string&, int base = 0)` (zm.h:452-509).  From 2^31 characters on the cast of the length to
`int` is negative or wraps; this is not followed and counted as `ub`.  `&x[0]` of an empty vector is `ub`. -/
def set (s : List Char) (base : ℕ := 0) : Res (List ℕ) := do
  let r ← setPrefix s base
  let base := if r.1 = 0 then 10 else r.1
  let t := if r.2.isEmpty then s else r.2
  if 2 ^ 31 ≤ t.length then .ub
  else if base = 16 then do
    let xs ← chunks 16 8 t.length t
    if xs.isEmpty then .ub else Vuint.setUnits32 xs
  else do
    let xs ← chunks 10 9 t.length t
    decLoop (Vuint.ofUnit 0) xs.reverse

/-- formatted output of an unsigned integer, base 10 or 16 (lower case) -/
def fmt (base n : ℕ) : List Char := Nat.toDigits base n

/-- `setfill('0')`, `setw(w)` -/
def pad (w : ℕ) (s : List Char) : List Char := List.replicate (w - s.length) '0' ++ s

/-- the loop of zm.h:418-421: remainders modulo 10^9, least significant first -/
def decChunks : ℕ → List ℕ → Res (List ℕ)
  | 0, _ => .diverge
  | fuel + 1, x =>
    if Vuint.compare x [0] > 0 then do
      let r ← Vuint.divUnit x 1000000000
      let t ← decChunks fuel r.1
      pure (r.2 % 2 ^ 32 :: t)
    else .ok []

/-- `toString(10)` (zm.h:411-430); the fuel 64·size+1 bounds the number of divisions -/
def toDec (x : List ℕ) : Res (List Char) := do
  let t ← decChunks (64 * x.length + 1) x
  match t.reverse with
  | [] => pure ['0']
  | top :: rest => pure (fmt 10 top ++ (rest.map fun r => pad 9 (fmt 10 r)).flatten)

/-- `toString(16)` (zm.h:431-440) -/
def toHex (x : List ℕ) : List Char :=
  match x.reverse with
  | [] => ['0', 'x']
  | top :: rest => ['0', 'x'] ++ fmt 16 top ++ (rest.map fun w => pad 16 (fmt 16 w)).flatten

/-- `toString(base)` (zm.h:407-445) -/
def toString (x : List ℕ) (base : ℕ) : Res (List Char) :=
  if base = 10 then toDec x else if base = 16 then .ok (toHex x) else .exit

/-! ### streams -/

/-- an input stream: the characters not yet read and the fail flag; formatted input skips white space -/
structure Stream where
  rest : List Char
  fail : Bool
  deriving DecidableEq, Repr

/-- `is >> c` for a char with `skipws`; the variable is left alone on failure -/
def Stream.getChar (s : Stream) : Option Char × Stream :=
  if s.fail then (none, s)
  else match s.rest.dropWhile isSpace with
    | [] => (none, ⟨[], true⟩)
    | c :: r => (some c, ⟨r, false⟩)

/-- the test of `getDigits` (zm.h:90-94) at position pos, str the text read so far -/
def digitOk (allowNegative : Bool) (str : List Char) (c : Char) : Bool :=
  ('0' ≤ c && c ≤ '9') || (str == ['0'] && c == 'x') || ('a' ≤ c && c ≤ 'f') || ('A' ≤ c && c ≤ 'F') ||
    (allowNegative && str.isEmpty && c == '-')

/-- the loop of `getDigits` (zm.h:89-103) after the leading white space, without skipping -/
def digitLoop (allowNegative : Bool) : List Char → List Char → List Char × Stream
  | [], str => (str, ⟨[], true⟩)
  | c :: r, str => if digitOk allowNegative str c then digitLoop allowNegative r (str ++ [c]) else (str, ⟨c :: r, false⟩)

/-- `getDigits` (zm.h:84-107): a character that does not belong to the number is put back, the end of the text sets
the fail flag -/
def getDigits (s : Stream) (allowNegative : Bool := false) : List Char × Stream :=
  if s.fail then ([], s) else digitLoop allowNegative (s.rest.dropWhile isSpace) []

/-- `operator>>(std::istream&, VuintT&)` (zm.h:732-738) -/
def read (s : Stream) : Res (List ℕ × Stream) := do
  let r := getDigits s
  let x ← set r.1
  pure (x, r.2)

end Verif.Text
