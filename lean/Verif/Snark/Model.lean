import Verif.Snark.Word

/-! `mie::Fp` and `mie::Fp::Dbl` on buffers, SNARK build. -/

namespace Verif.Snark

open scoped Verif.Fp
open Verif.Fp (W4 W8 setDirect)

/-- `Fp::add` -/
@[irreducible] def add (x y : ℕ) : ℕ := (wAdd (W4.of x) (W4.of y)).val

/-- `Fp::sub` -/
@[irreducible] def sub (x y : ℕ) : ℕ := (wSub (W4.of x) (W4.of y)).val

/-- `Fp::neg` -/
@[irreducible] def neg (x : ℕ) : ℕ := (wNeg (W4.of x)).val

/-- `Fp::mul` -/
@[irreducible] def mul (x y : ℕ) : ℕ := (wMul (W4.of x) (W4.of y)).val

/-- `Fp::divBy2`, zm2.h:216 -/
@[irreducible] def divBy2 (x : ℕ) : ℕ := (wDivBy2 (W4.of x)).val

/-- `Fp::divBy4`, zm2.h:223 -/
@[irreducible] def divBy4 (x : ℕ) : ℕ := (wDivBy4 (W4.of x)).val

/-- `Fp::fast_modp`, zm2.h:231 -/
@[irreducible] def fastModp (x : ℕ) : ℕ := (wFastModp (W4.of x)).val

/-- `Fp::_2z_add_3x`, zm2.h:108 -/
@[irreducible] def add2z3x (z x : ℕ) : ℕ := (w2zAdd3x (W4.of z) (W4.of x)).val

/-- `Fp::square`, zm2.h:280: `mul(out, x, x)` -/
def square (x : ℕ) : ℕ := mul x x

/-- `Dbl::add` -/
@[irreducible] def dblAdd (x y : ℕ) : ℕ := (dAdd (W8.of x) (W8.of y)).val

/-- `Dbl::sub` -/
@[irreducible] def dblSub (x y : ℕ) : ℕ := (dSub (W8.of x) (W8.of y)).val

/-- `Dbl::neg` -/
@[irreducible] def dblNeg (x : ℕ) : ℕ := (dNeg (W8.of x)).val

/-- `in_FpDbl_subOpt1`, zm2.cpp:1802 -/
@[irreducible] def dblSubOpt1 (x y : ℕ) : ℕ := (dSubOpt1 (W8.of x) (W8.of y)).val

/-- `Dbl::mod` -/
@[irreducible] def dblMod (x : ℕ) : ℕ := (wMod (W8.of x)).val

/-- `montgomeryR_ = (Vuint(1) << 256) % p`, zm2.cpp:3628 (the computation of the constants is in `Init/Model.lean`). -/
def montR : ℕ := W256 % p

/-- `montgomeryR2_`, zm2.cpp:3629-3634: R * R mod p. -/
def montR2 : ℕ := montR * montR % p

/-- the words of the modulus as a `Vuint` -/
def pV : List ℕ := [p % B64, p / B64 % B64, p / (B64 * B64) % B64, p / (B64 * B64 * B64)]

/-- the words of `montgomeryR_` as a `Vuint` -/
def montRV : List ℕ :=
  [montR % B64, montR / B64 % B64, montR / (B64 * B64) % B64, montR / (B64 * B64 * B64)]

/-- `p_add1_div4_ = (p + 1) / 4`, zm2.cpp:3624, as a `Vuint` -/
def pAdd1Div4V : List ℕ :=
  let n := (p + 1) / 4
  [n % B64, n / B64 % B64, n / (B64 * B64) % B64, n / (B64 * B64 * B64)]

/-- `Fp::set(const Vuint&)`, zm2.h:70-77 (the `assert(x < p)` is compiled out). -/
def set (x : List ℕ) : Res ℕ := do
  let y ← Vuint.mul x montRV
  match ← Vuint.div y pV with
  | some qr => pure (setDirect qr.2)
  | none => .ub

/-- `Fp::set(int)`, zm2.h:47-66; `-x` for INT_MIN is signed overflow. -/
def setInt (x : ℤ) : Res ℕ :=
  if x = 0 then .ok 0
  else if x = 1 then .ok montR
  else if 0 < x then .ok (mul x.toNat montR2)
  else if x = -2 ^ 31 then .ub
  else .ok (neg (mul (-x).toNat montR2))

/-- `fromMont`, zm2.h:139: multiply by the raw 1. -/
def fromMont (x : ℕ) : ℕ := mul x 1

/-- `toMont`, zm2.h:143 -/
def toMont (x : ℕ) : ℕ := mul x montR2

/-- `Fp::get`, zm2.h:158-164. -/
def get (x : ℕ) : Res (List ℕ) :=
  let t := W4.of (fromMont x)
  Vuint.setUnits [t.w0, t.w1, t.w2, t.w3]

/-- `getLow`, zm2.h:148, and `isOdd`. -/
def getLow (x : ℕ) : ℕ := (W4.of (fromMont x)).w0

def isOdd (x : ℕ) : Bool := decide (getLow x &&& 1 ≠ 0)

/-- `t += t` repeated, zm2.cpp:3702-3708. -/
def dblIter : ℕ → ℕ → ℕ
  | 0, t => t
  | n + 1, t => dblIter n (add t t)

/-- `invTbl_[k]`, zm2.cpp:3702-3708: entry 511 - i is `Fp(2)` doubled i times; `Fp(2)` is
`mul(2, montgomeryR2_)`. -/
def invTbl (k : ℕ) : ℕ := dblIter (511 - k) (mul 2 montR2)

/-- `Fp::inv`; an index outside the 512-entry table would be undefined behaviour. -/
@[irreducible] def inv (x : ℕ) : Res ℕ := do
  let rk ← wPreInv (W4.of x)
  if rk.2 < 512 then pure (mul rk.1.val (invTbl rk.2)) else .ub

end Verif.Snark
