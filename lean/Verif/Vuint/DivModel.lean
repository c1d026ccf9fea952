import Verif.Vuint.Model

/-!
Model of multi-word division (zm.h:661-727, 849-892, 926-955), including the IEEE double estimate of
the quotient digit.
-/

namespace Verif

/-- A positive normal IEEE-754 double: `m * 2^e` with `2^52 ≤ m < 2^53`.  Simplification: the
exponent is unbounded.  Every double formed by the division code lies between `2^-66` and `2^130`,
so no overflow or subnormal rounding can occur in the C++ code. -/
structure Dbl where
  m : ℕ
  e : ℤ
  deriving DecidableEq, Repr

namespace Dbl

/-- numerator and denominator of `(a / b) / 2^e` -/
def scale (a b : ℕ) (e : ℤ) : ℕ × ℕ :=
  if 0 ≤ e then (a, b * 2 ^ e.toNat) else (a * 2 ^ (-e).toNat, b)

/-- IEEE round-to-nearest, ties-to-even, of the positive rational `a / b` to 53 bits. -/
def rn (a b : ℕ) : Dbl :=
  let e₀ : ℤ := (Nat.log2 a : ℤ) - Nat.log2 b - 52
  let s₀ := scale a b e₀
  let e := if s₀.1 / s₀.2 < 2 ^ 52 then e₀ - 1 else e₀
  let s := scale a b e
  let q := s.1 / s.2
  let r := s.1 % s.2
  let m := if 2 * r > s.2 ∨ (2 * r = s.2 ∧ q % 2 = 1) then q + 1 else q
  if m = 2 ^ 53 then ⟨2 ^ 52, e + 1⟩ else ⟨m, e⟩

/-- conversion `(double)H` of a positive integer -/
def ofNat (n : ℕ) : Dbl := rn n 1

/-- the 64-bit pattern of a positive double (`di.i`) -/
def toBits (d : Dbl) : ℕ := (d.e + 1075).toNat * 2 ^ 52 + (d.m - 2 ^ 52)

/-- the double with a given bit pattern (`di.f`), for normal positive patterns -/
def ofBits (i : ℕ) : Dbl := ⟨2 ^ 52 + i % 2 ^ 52, (i / 2 ^ 52 : ℤ) - 1075⟩

/-- floating point addition -/
def add (x y : Dbl) : Dbl :=
  let e := min x.e y.e
  let n := x.m * 2 ^ (x.e - e).toNat + y.m * 2 ^ (y.e - e).toNat
  if 0 ≤ e then rn (n * 2 ^ e.toNat) 1 else rn n (2 ^ (-e).toNat)

/-- floating point multiplication -/
def mul (x y : Dbl) : Dbl :=
  let e := x.e + y.e
  if 0 ≤ e then rn (x.m * y.m * 2 ^ e.toNat) 1 else rn (x.m * y.m) (2 ^ (-e).toNat)

/-- floating point division -/
def div (x y : Dbl) : Dbl :=
  let e := x.e - y.e
  if 0 ≤ e then rn (x.m * 2 ^ e.toNat) y.m else rn x.m (y.m * 2 ^ (-e).toNat)

/-- conversion `(uint64_t)d` by truncation; out of range is undefined behaviour -/
def toU64 (d : Dbl) : Res ℕ :=
  let n := if 0 ≤ d.e then d.m * 2 ^ d.e.toNat else d.m / 2 ^ (-d.e).toNat
  if n < B64 then .ok n else .ub

end Dbl

namespace Vuint

/-- `VuintT::GetApp` (zm.h:858-892, 64-bit unit branch).  `H & ~((1 << (len-53)) - 1)` is written
as clearing the low `len - 53` bits by division. -/
def getApp (x : List ℕ) (up : Bool) : Dbl :=
  let H := x.getD (x.length - 1) 0
  let di := Dbl.ofNat H
  let len := di.toBits / 2 ^ 52 - 1023 + 1
  let t :=
    if len < 53 then
      Dbl.ofBits (di.toBits ||| (x.getD (x.length - 2) 0 / 2 ^ (len + 11)))
    else
      Dbl.ofNat (H / 2 ^ (len - 53) * 2 ^ (len - 53))
  if up then t.add (Dbl.ofBits ((len + 1022 - 52 + 1) * 2 ^ 52)) else t

/-- inner loop of the raw `div` (zm.h:950-952): `while (xn >= yn && x[xn-1] == 0) xn--`, on the words
most significant first.  `k` is `xn - yn + 1`, the number of words that may still be dropped. -/
def dropTop : ℕ → List ℕ → List ℕ
  | k + 1, 0 :: xs => dropTop k xs
  | _, xs => xs

/-- one round of the main loop of the raw `div` (zm.h:936-952).  `x` holds the `xn` low words of the
remainder buffer (the words above are zero), `q` the quotient words. A borrow out of the subtraction
violates `assert(!b)` (zm.h:945-947). -/
def divRound (yt : Dbl) (y q x : List ℕ) : Res (List ℕ × List ℕ) := do
  let xn := x.length
  let yn := y.length
  let xt := getApp x false
  let small : Bool := cmp (x.drop (xn - yn)) y < 0
  let xt := if small then xt.mul (Dbl.mul (Dbl.ofNat (2 ^ 63)) (Dbl.ofNat 2)) else xt
  let len := if small then yn + 1 else yn
  if xn < len then .ub else
  let qt ← (xt.div yt).toU64
  let qt := if qt = 0 then 1 else qt
  let t := mul1 y qt
  let k := xn - len
  let r := subN (x.drop k) (t.take len)
  if r.2 ≠ 0 then .ub else
  let x' := x.take k ++ r.1
  let x' := (dropTop (xn - yn + 1) x'.reverse).reverse
  pure (q.set k ((q.getD k 0 + qt) % B64), x')

/-- main loop of the raw `div` (zm.h:935-953).  The fuel is only a device to write a `while` loop as
a total function: running out of it is the distinct outcome `diverge`. -/
def divLoop (yt : Dbl) (y : List ℕ) : ℕ → List ℕ → List ℕ → Res (List ℕ × List ℕ)
  | 0, _, _ => .diverge
  | fuel + 1, q, x =>
    if cmp x y ≥ 0 then do
      let s ← divRound yt y q x
      divLoop yt y fuel s.1 s.2
    else
      .ok (q, x)

/-- raw `div` (zm.h:926-955): quotient words and remainder words (`xn` words again). `t.alloc(yn+1)`
needs one word more than the divisor. -/
def divRaw (x y : List ℕ) : Res (List ℕ × List ℕ) :=
  if ¬ (x.length ≥ y.length ∧ y.length ≥ 2) then .ub
  else do
    alloc (y.length + 1)
    let q := List.replicate (x.length - y.length + 1) 0
    let s ← divLoop (getApp y true) y (val x + 1) q x
    pure (s.1, s.2 ++ List.replicate (x.length - s.2.length) 0)

/-- `VuintT::div` (zm.h:661-727) with `q != 0`.  `none` is the return value `false`. -/
def div (x y : List ℕ) : Res (Option (List ℕ × List ℕ)) :=
  if y.length = 1 then
    if y.getD 0 0 = 0 then .ok none
    else do
      let s ← divUnit x (y.getD 0 0)
      pure (some (s.1, ofUnit s.2))
  else
    let c := cmp x y
    if c < 0 then .ok (some (ofUnit 0, x))
    else if c = 0 then .ok (some (ofUnit 1, ofUnit 0))
    else do
      alloc (x.length - y.length + 1)
      let s ← divRaw x y
      pure (some (trim s.1, trim s.2))

end Vuint
end Verif
