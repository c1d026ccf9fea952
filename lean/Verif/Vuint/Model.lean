import Verif.Base

/-!
Model of the word-vector primitives of `src/zm.cpp` (C versions) and of `mie::VuintT`
(include/zm.h 318-956) for the 64-bit build.

A vector argument `(const Unit *x, size_t n)` is the list of its `n` words, least significant first.
-/

namespace Verif

/-- Capacity of `FixedBuffer<Unit, 64*9>` (zm.h:18-21, 262-266). -/
def cap : ℕ := 9

/-- `in_addN` (zm.cpp:16-32), loop body from carry `c`; both vectors have the same length `n`. -/
def addNLoop : List ℕ → List ℕ → ℕ → List ℕ × ℕ
  | x :: xs, y :: ys, c =>
    let xc := (x + c) % B64
    if xc < c then
      let r := addNLoop xs ys c
      (y :: r.1, r.2)
    else
      let xc' := (xc + y) % B64
      let r := addNLoop xs ys (if y > xc' then 1 else 0)
      (xc' :: r.1, r.2)
  | _, _, c => ([], c)

/-- `in_addN` (zm.cpp:16-32): words of the sum and the carry flag. -/
def addN (x y : List ℕ) : List ℕ × ℕ := addNLoop x y 0

/-- loop of `in_add` (zm.cpp:43-51). -/
def add1Loop : List ℕ → ℕ → List ℕ × ℕ
  | x :: xs, c =>
    let xc := (x + c) % B64
    if xc < c then
      let r := add1Loop xs c
      (0 :: r.1, r.2)
    else
      let r := add1Loop xs 0
      (xc :: r.1, r.2)
  | [], c => ([], c)

/-- `in_add` (zm.cpp:37-52): vector plus one word.  `n > 0` is asserted; the empty vector is not
reached. -/
def add1 (x : List ℕ) (y : ℕ) : List ℕ × ℕ :=
  match x with
  | [] => ([], y)
  | x0 :: xs =>
    let xc := (x0 + y) % B64
    let r := add1Loop xs (if y > xc then 1 else 0)
    (xc :: r.1, r.2)

/-- `in_subN` (zm.cpp:57-72). `x - y` on words is written `(x + B64 - y) % B64`. -/
def subNLoop : List ℕ → List ℕ → ℕ → List ℕ × ℕ
  | x :: xs, y :: ys, c =>
    let yc := (y + c) % B64
    if yc < c then
      let r := subNLoop xs ys c
      (x :: r.1, r.2)
    else
      let r := subNLoop xs ys (if x < yc then 1 else 0)
      ((x + B64 - yc) % B64 :: r.1, r.2)
  | _, _, c => ([], c)

/-- `in_subN` (zm.cpp:57-72): words of the difference and the borrow flag. -/
def subN (x y : List ℕ) : List ℕ × ℕ := subNLoop x y 0

/-- loop of `in_sub` (zm.cpp:82-89). -/
def sub1Loop : List ℕ → ℕ → List ℕ × ℕ
  | x :: xs, c =>
    if x < c then
      let r := sub1Loop xs c
      ((B64 - 1) :: r.1, r.2)
    else
      let r := sub1Loop xs 0
      ((x + B64 - c) % B64 :: r.1, r.2)
  | [], c => ([], c)

/-- `in_sub` (zm.cpp:77-91). -/
def sub1 (x : List ℕ) (y : ℕ) : List ℕ × ℕ :=
  match x with
  | [] => ([], y)
  | x0 :: xs =>
    let r := sub1Loop xs (if x0 < y then 1 else 0)
    ((x0 + B64 - y) % B64 :: r.1, r.2)

/-- loop of `in_mul` (zm.cpp:128-136) with running high word `H`; `mulUnit` (zm.cpp:97-118) is the
128-bit product split in two words. -/
def mul1Loop : List ℕ → ℕ → ℕ → List ℕ
  | x :: xs, y, H =>
    let t := H
    let H' := x * y / B64
    let L := x * y % B64
    let o := (t + L) % B64
    o :: mul1Loop xs y (if o < t then (H' + 1) % B64 else H')
  | [], _, H => [H]

/-- `in_mul` (zm.cpp:124-137): `n + 1` words of `x * y`. -/
def mul1 (x : List ℕ) (y : ℕ) : List ℕ := mul1Loop x y 0

/-- `in_div` (zm.cpp:169-176) processed from the top word; `divUnit` (zm.cpp:144-162) is
`[r:x] / y`, `[r:x] % y` truncated to a word. Returns quotient words and remainder.
`y = 0` is division by zero in the code; callers exclude it. -/
def div1 : List ℕ → ℕ → List ℕ × ℕ
  | x :: xs, y =>
    let r := div1 xs y
    (((r.2 * B64 + x) / y) % B64 :: r.1, (r.2 * B64 + x) % y)
  | [], _ => ([], 0)

/-- `in_mod` (zm.cpp:178-185). -/
def mod1 : List ℕ → ℕ → ℕ
  | x :: xs, y => (mod1 xs y * B64 + x) % y
  | [], _ => 0

/-- loop of `PrimitiveFunction::compare` from the top word (zm.h:187-190), equal lengths. -/
def cmpEq : List ℕ → List ℕ → ℤ
  | x :: xs, y :: ys =>
    let r := cmpEq xs ys
    if r ≠ 0 then r else if x ≠ y then (if x > y then 1 else -1) else 0
  | _, _ => 0

/-- `PrimitiveFunction::compare` (zm.h:183-191). -/
def cmp (x y : List ℕ) : ℤ :=
  if x.length ≠ y.length then (if x.length > y.length then 1 else -1) else cmpEq x y

namespace Vuint

/-- `VuintT::trim` (zm.h:894-903): drop leading zero words, keep at least one. -/
def trimRev : List ℕ → List ℕ
  | [] => []
  | [w] => [w]
  | w :: w' :: ws => if w ≠ 0 then w :: w' :: ws else trimRev (w' :: ws)

def trim (x : List ℕ) : List ℕ := (trimRev x.reverse).reverse

/-- `FixedBuffer::alloc` (zm.h:284-288, 300-306): exits when more than `cap` words are asked for. -/
def alloc (n : ℕ) : Res Unit := if n > cap then .exit else .ok ()

/-- `VuintT::set(T)` (zm.h:341-345). -/
def ofUnit (x : ℕ) : List ℕ := [x]

/-- `VuintT::set(const uint64_t*, size_t)` (zm.h:369-391). -/
def setUnits (x : List ℕ) : Res (List ℕ) :=
  if x.length = 0 then .ok [0]
  else do
    alloc x.length
    pure (trim x)

/-- pairs of 32-bit words to 64-bit words (zm.h:358-364). -/
def pair32 : List ℕ → List ℕ
  | l :: h :: ws => (h * 2 ^ 32 + l) :: pair32 ws
  | [l] => [l]
  | [] => []

/-- `VuintT::set(const uint32_t*, size_t)` (zm.h:346-368). -/
def setUnits32 (x : List ℕ) : Res (List ℕ) :=
  if x.length = 0 then .ok [0]
  else do
    alloc ((x.length + 1) / 2)
    pure (trim (pair32 x))

/-- `VuintT::add_in` (zm.h:547-562). -/
def addIn (x y : List ℕ) : Res (List ℕ × ℕ) :=
  let (px, py) := if y.length > x.length then (y, x) else (x, y)
  do
    alloc px.length
    let lo := addN (px.take py.length) py
    if px.length > py.length then
      let hi := add1 (px.drop py.length) lo.2
      pure (lo.1 ++ hi.1, hi.2)
    else
      pure lo

/-- `VuintT::add(out, x, y)` (zm.h:564-573). -/
def add (x y : List ℕ) : Res (List ℕ) := do
  let r ← addIn x y
  if r.2 ≠ 0 then
    alloc (r.1.length + 1)
    pure (r.1 ++ [1])
  else
    pure (trim r.1)

/-- `VuintT::add(out, x, uint32_t)` (zm.h:574-583). -/
def add32 (x : List ℕ) (y : ℕ) : Res (List ℕ) := do
  alloc x.length
  let r := add1 x y
  if r.2 ≠ 0 then
    alloc (x.length + 1)
    pure (r.1 ++ [1])
  else
    pure r.1

/-- `VuintT::sub_in` (zm.h:584-595); `assert(xn >= yn)`. -/
def subIn (x y : List ℕ) : Res (List ℕ × ℕ) :=
  if x.length < y.length then .ub
  else do
    alloc x.length
    let lo := subN (x.take y.length) y
    if x.length > y.length then
      let hi := sub1 (x.drop y.length) lo.2
      pure (lo.1 ++ hi.1, hi.2)
    else
      pure lo

/-- `VuintT::sub` (zm.h:597-604). -/
def sub (x y : List ℕ) : Res (List ℕ) := do
  let r ← subIn x y
  if r.2 ≠ 0 then .exit else pure (trim r.1)

/-- `VuintT::mul1` (zm.h:606-612). -/
def mulUnit (x : List ℕ) (y : ℕ) : Res (List ℕ) := do
  alloc (x.length + 1)
  pure (trim (mul1 x y))

/-- loop of the raw `mul` (zm.h:920-923): add `x * y[i]` into `out` at word offset `i`.
`addN` is called with `xn + 1` words and its carry is ignored. -/
def mulLoop (x : List ℕ) : List ℕ → ℕ → List ℕ → List ℕ
  | [], _, out => out
  | y :: ys, i, out =>
    let t2 := mul1 x y
    let s := addN ((out.drop i).take (x.length + 1)) t2
    mulLoop x ys (i + 1) (out.take i ++ s.1 ++ out.drop (i + (x.length + 1)))

/-- raw `VuintT::mul(T*, ...)` (zm.h:904-924); `xn > 0 && yn > 0` asserted. -/
def mulRaw (x y : List ℕ) : List ℕ :=
  let (x, y) := if y.length > x.length then (y, x) else (x, y)
  match y with
  | [] => []
  | y0 :: ys => mulLoop x ys 1 (mul1 x y0 ++ List.replicate (y.length - 1) 0)

/-- `VuintT::mul` (zm.h:613-636). -/
def mul (x y : List ℕ) : Res (List ℕ) := do
  alloc (x.length + y.length)
  pure (trim (mulRaw x y))

/-- `VuintT::div1` (zm.h:642-654) with a quotient object; `y = 0` is a hardware division fault. -/
def divUnit (x : List ℕ) (y : ℕ) : Res (List ℕ × ℕ) :=
  if y = 0 then .ub
  else do
    alloc x.length
    let r := div1 x y
    pure (trim r.1, r.2)

/-- `VuintT::isZero` (zm.h:521-524). -/
def isZero (x : List ℕ) : Bool := x.length == 1 && x.head? == some 0

/-- `VuintT::compare` (zm.h:515-518). -/
def compare (x y : List ℕ) : ℤ := cmp x y

/-- `VuintT::shlUnit` (zm.h:743-752). -/
def shlUnit (x : List ℕ) (n : ℕ) : Res (List ℕ) := do
  alloc (x.length + n)
  pure (trim (List.replicate n 0 ++ x))

/-- loop of `shlBit` (zm.h:766-770): `out[i] = (t << n) | (prev >> rn)`. -/
def shlBitLoop (n : ℕ) : List ℕ → ℕ → List ℕ × ℕ
  | t :: ts, prev =>
    let r := shlBitLoop n ts t
    ((((t * 2 ^ n) % B64) ||| (prev / 2 ^ (64 - n))) :: r.1, r.2)
  | [], prev => ([], prev / 2 ^ (64 - n))

/-- `VuintT::shlBit` (zm.h:757-776); `0 < n < 64` asserted. -/
def shlBit (x : List ℕ) (n : ℕ) : Res (List ℕ) :=
  if ¬ (0 < n ∧ n < 64) then .ub
  else do
    alloc x.length
    let r := shlBitLoop n x 0
    if r.2 ≠ 0 then
      alloc (x.length + 1)
      pure (r.1 ++ [r.2])
    else
      pure r.1

/-- `VuintT::shrUnit` (zm.h:780-793). -/
def shrUnit (x : List ℕ) (n : ℕ) : Res (List ℕ) :=
  if x.length ≤ n then .ok [0]
  else do
    alloc x.length
    pure (x.drop n)

/-- loop of `shrBit` (zm.h:806-810) from the top: `out[i] = (t >> n) | (prev << rn)`. The list is
most significant word first. -/
def shrBitLoop (n : ℕ) : List ℕ → ℕ → List ℕ
  | t :: ts, prev => ((t / 2 ^ n) ||| ((prev * 2 ^ (64 - n)) % B64)) :: shrBitLoop n ts t
  | [], _ => []

/-- `VuintT::shrBit` (zm.h:798-812). -/
def shrBit (x : List ℕ) (n : ℕ) : Res (List ℕ) :=
  if ¬ (0 < n ∧ n < 64) then .ub
  else do
    alloc x.length
    pure (trim (shrBitLoop n x.reverse 0).reverse)

/-- `VuintT::shl` (zm.h:813-830). -/
def shl (x : List ℕ) (n : ℕ) : Res (List ℕ) :=
  if n = 0 then .ok x
  else do
    let q := n / 64
    let r := n % 64
    let p ← if q ≠ 0 then shlUnit x q else pure x
    if r ≠ 0 then shlBit p r else pure p

/-- `VuintT::shr` (zm.h:831-848). -/
def shr (x : List ℕ) (n : ℕ) : Res (List ℕ) :=
  if n = 0 then .ok x
  else do
    let q := n / 64
    let r := n % 64
    let p ← if q ≠ 0 then shrUnit x q else pure x
    if r ≠ 0 then shrBit p r else pure p

end Vuint
end Verif
