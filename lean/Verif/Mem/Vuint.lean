import Verif.Mem.Prim
import Verif.Vuint.DivModel

/-! `mie::VuintT` on flat memory: objects are places in one memory, so an output object may be the same object as an operand.

An object at a (`FixedBuffer<Unit, 576>`, zm.h:262-310) has its nine words `v_` at a .. a+8 and `size_` at a+9.  Local
variables of the routines lie on a stack from `sp` on.  `operator[]` (zm.h:307-308) checks its index against the capacity;
all indices the routines below form are smaller than a size allocated before, so the check is left out.  Routines that only read
(`compare`, `GetApp`) are applied to the words read. -/

namespace Verif
namespace Mem
open Vuint

/-- `FixedBuffer::size` (zm.h:294) -/
def size (m : ℕ → ℕ) (a : ℕ) : ℕ := m (a + 9)

/-- the value of the object at a -/
def obj (m : ℕ → ℕ) (a : ℕ) : List ℕ := rd m a (size m a)

/-- `FixedBuffer::alloc` (zm.h:286-290, 300-306) -/
def alloc (m : ℕ → ℕ) (a n : ℕ) : Res (ℕ → ℕ) := if n > 9 then .exit else .ok (Function.update m (a + 9) n)

/-- `FixedBuffer::operator=` (zm.h:279-284) -/
def copy (m : ℕ → ℕ) (o x : ℕ) : ℕ → ℕ :=
  let n := size m x
  let m := Function.update m (o + 9) n
  wr m o (rd m x n)

/-- `VuintT::set(T)` (zm.h:341-345) -/
def set1 (m : ℕ → ℕ) (o w : ℕ) : ℕ → ℕ := Function.update (Function.update m (o + 9) 1) o w

/-- `std::fill(p, p + n, 0)` -/
def fill (m : ℕ → ℕ) (a n : ℕ) : ℕ → ℕ := wr m a (List.replicate n 0)

/-- the loop of `trim` (zm.h:899-901): index of the top non-zero word, from i down -/
def top (m : ℕ → ℕ) (a : ℕ) : ℕ → ℕ
  | 0 => 0
  | i + 1 => if m (a + (i + 1)) ≠ 0 then i + 1 else top m a i

/-- `VuintT::trim` (zm.h:894-903) -/
def trim (m : ℕ → ℕ) (a : ℕ) : Res (ℕ → ℕ) :=
  let i := top m a (size m a - 1)
  alloc m a (if i ≠ 0 then i + 1 else 1)

/-- `VuintT::add_in` after the swap (zm.h:554-561) and the rest of `VuintT::add` (zm.h:567-572): px is not shorter than py -/
def addOrd (m : ℕ → ℕ) (o px py : ℕ) : Res (ℕ → ℕ) :=
  let max := size m px
  let min := size m py
  do
    let m ← alloc m o max
    let s := addN min m 0 o px py
    let s := if max > min then add1 (max - min - 1) s.1 (o + min) (px + min) s.2 else s
    if s.2 ≠ 0 then
      let m ← alloc s.1 o (size s.1 o + 1)
      .ok (Function.update m (o + (size m o - 1)) 1)
    else
      trim s.1 o

/-- `VuintT::add` (zm.h:547-573) -/
def add (m : ℕ → ℕ) (o x y : ℕ) : Res (ℕ → ℕ) :=
  if size m y > size m x then addOrd m o y x else addOrd m o x y

/-- `VuintT::add` with a `uint32_t` (zm.h:574-583) -/
def add32 (m : ℕ → ℕ) (o x y : ℕ) : Res (ℕ → ℕ) :=
  let n := size m x
  do
    let m ← alloc m o n
    let s := add1 (n - 1) m o x y
    if s.2 ≠ 0 then
      let m ← alloc s.1 o (n + 1)
      .ok (Function.update m (o + n) 1)
    else
      .ok s.1

/-- `VuintT::sub` with `sub_in` (zm.h:584-604); `assert(xn >= yn)` -/
def sub (m : ℕ → ℕ) (o x y : ℕ) : Res (ℕ → ℕ) :=
  let xn := size m x
  let yn := size m y
  if xn < yn then .ub
  else do
    let m ← alloc m o xn
    let s := subN yn m 0 o x y
    let s := if xn > yn then sub1 (xn - yn - 1) s.1 (o + yn) (x + yn) s.2 else s
    if s.2 ≠ 0 then .exit else trim s.1 o

/-- `VuintT::mul1` (zm.h:606-612) -/
def mulUnit (m : ℕ → ℕ) (o x y : ℕ) : Res (ℕ → ℕ) :=
  let xn := size m x
  do
    let m ← alloc m o (xn + 1)
    trim (mul1 xn m 0 o x y) o

/-- body of the loop of the raw `mul` (zm.h:920-923); t2 is the address of the scratch words -/
def mulStep (out x xn y t2 : ℕ) (m : ℕ → ℕ) (i : ℕ) : ℕ → ℕ :=
  let m := mul1 xn m 0 t2 x (m (y + i))
  (addN (xn + 1) m 0 (out + i) (out + i) t2).1

/-- raw `mul` (zm.h:904-924) -/
def mulRaw (m : ℕ → ℕ) (out x xn y yn t2 : ℕ) : ℕ → ℕ :=
  let x' := if yn > xn then y else x
  let y' := if yn > xn then x else y
  let xn' := if yn > xn then yn else xn
  let yn' := if yn > xn then xn else yn
  let m := fill m (out + (xn' + 1)) (yn' - 1)
  let m := mul1 xn' m 0 out x' (m y')
  (List.range (yn' - 1)).foldl (fun m i => mulStep out x' xn' y' t2 m (i + 1)) m

/-- `VuintT::mul` (zm.h:613-636): xt at sp, yt at sp + 10, scratch words of the raw routine at sp + 20 -/
def mul (sp : ℕ) (m : ℕ → ℕ) (o x y : ℕ) : Res (ℕ → ℕ) :=
  let xn := size m x
  let yn := size m y
  let m := set1 (set1 m sp 0) (sp + 10) 0
  let px := if o = x then sp else x
  let m := if o = x then copy m sp x else m
  let py := if o = y then (if x = y then px else sp + 10) else y
  let m := if o = y then (if x = y then m else copy m (sp + 10) y) else m
  do
    let m ← alloc m o (xn + yn)
    trim (mulRaw m o px xn py yn (sp + 20)) o

/-- `VuintT::div1` (zm.h:642-654); a missing quotient is `none` -/
def divUnit (m : ℕ → ℕ) (q : Option ℕ) (x y : ℕ) : Res ((ℕ → ℕ) × ℕ) :=
  let xn := size m x
  if y = 0 then .ub
  else
    match q with
    | some q => do
      let m ← alloc m q xn
      let s := div1 xn m 0 q x y
      let m ← trim s.1 q
      .ok (m, s.2)
    | none => .ok (m, mod1 xn m x y)

/-- inner loop of the raw `div` (zm.h:950-952): `while (xn >= yn && x[xn-1] == 0) xn--`; k more words may be dropped -/
def dropLen (m : ℕ → ℕ) (x : ℕ) : ℕ → ℕ → ℕ
  | k + 1, xn + 1 => if m (x + xn) = 0 then dropLen m x k xn else xn + 1
  | _, xn => xn

/-- `if (q) q[i] += v` (zm.h:948) -/
def addAt (m : ℕ → ℕ) : Option ℕ → ℕ → ℕ → (ℕ → ℕ)
  | some q, i, v => Function.update m (q + i) ((m (q + i) + v) % B64)
  | none, _, _ => m

/-- `if (q) std::fill(q, q + n, 0)` (zm.h:929-931) -/
def fillO (m : ℕ → ℕ) : Option ℕ → ℕ → (ℕ → ℕ)
  | some q, n => fill m q n
  | none, _ => m

/-- `if (q) q->set(w)` (zm.h:680, 683) -/
def setO (m : ℕ → ℕ) : Option ℕ → ℕ → (ℕ → ℕ)
  | some q, w => set1 m q w
  | none, _ => m

/-- one round of the raw `div` (zm.h:936-952); t is the address of the buffer t -/
def divRound (yt : Dbl) (m : ℕ → ℕ) (q : Option ℕ) (x xn y yn t : ℕ) : Res ((ℕ → ℕ) × ℕ) := do
  let xt := getApp (rd m x xn) false
  let small : Bool := cmp (rd m (x + (xn - yn)) yn) (rd m y yn) < 0
  let xt := if small then xt.mul (Dbl.mul (Dbl.ofNat (2 ^ 63)) (Dbl.ofNat 2)) else xt
  let len := if small then yn + 1 else yn
  if xn < len then .ub else
  let qt ← (xt.div yt).toU64
  let qt := if qt = 0 then 1 else qt
  let m := mul1 yn m 0 t y qt
  let s := subN len m 0 (x + (xn - len)) (x + (xn - len)) t
  if s.2 ≠ 0 then .ub else
  let m := addAt s.1 q (xn - len) qt
  .ok (m, dropLen m x (xn - yn + 1) xn)

/-- main loop of the raw `div` (zm.h:935-953) -/
def divLoop (yt : Dbl) (q : Option ℕ) (x y yn t : ℕ) : ℕ → (ℕ → ℕ) → ℕ → Res (ℕ → ℕ)
  | 0, _, _ => .diverge
  | fuel + 1, m, xn =>
    if cmp (rd m x xn) (rd m y yn) ≥ 0 then do
      let s ← divRound yt m q x xn y yn t
      divLoop yt q x y yn t fuel s.1 s.2
    else
      .ok m

/-- raw `div` (zm.h:926-955); q, the buffer x (in: dividend, out: remainder) and y by address -/
def divRaw (m : ℕ → ℕ) (q : Option ℕ) (x xn y yn t : ℕ) : Res (ℕ → ℕ) :=
  if ¬ (xn ≥ yn ∧ yn ≥ 2) then .ub
  else
    let m := fillO m q (xn - yn + 1)
    do
      let m ← alloc m t (yn + 1)
      divLoop (getApp (rd m y yn) true) q x y yn t (val (rd m x xn) + 1) m xn

/-- `alloc` of the quotient, if there is one (zm.h:692, 696) -/
def allocO (m : ℕ → ℕ) : Option ℕ → ℕ → Res (ℕ → ℕ)
  | some q, n => alloc m q n
  | none, _ => .ok m

/-- end of `div` for one result (zm.h:711-716, 718-723; `moveFrom`, zm.h:295-299, is assignment): s the local object -/
def fin (direct : Prop) [Decidable direct] (m : ℕ → ℕ) (s o : ℕ) : Res (ℕ → ℕ) :=
  if direct then trim m o else do
    let m ← trim m s
    .ok (copy m o s)

/-- the same under `if (q)` (zm.h:710-717) -/
def finO (direct : Prop) [Decidable direct] (m : ℕ → ℕ) (s : ℕ) : Option ℕ → Res (ℕ → ℕ)
  | some q => fin direct m s q
  | none => .ok m

/-- `VuintT::div` (zm.h:661-727): qt at sp, rt at sp + 10, the buffer of the raw routine at sp + 20; the Boolean is the return
value.  q = r violates the assert. -/
def div (sp : ℕ) (m : ℕ → ℕ) (q : Option ℕ) (r x y : ℕ) : Res ((ℕ → ℕ) × Bool) :=
  let xn := size m x
  let yn := size m y
  if q = some r then .ub
  else if yn = 1 then
    if m y = 0 then .ok (m, false)
    else do
      let s ← divUnit m q x (m y)
      .ok (set1 s.1 r s.2, true)
  else
    let c := cmp (rd m x xn) (rd m y yn)
    if c < 0 then
      let m := if r ≠ x then copy m r x else m
      .ok (setO m q 0, true)
    else if c = 0 then
      .ok (set1 (setO m q 1) r 0, true)
    else do
      let m := set1 m sp 0
      let directQ := q ≠ some x ∧ q ≠ some y
      let pqt := q.map fun q => if directQ then q else sp
      let m ← allocO m pqt (xn - yn + 1)
      let m := set1 m (sp + 10) 0
      let directR := r ≠ x ∧ r ≠ y
      let prt := if directR then r else sp + 10
      let m := copy m prt x
      let m ← divRaw m pqt prt xn y yn (sp + 20)
      let m ← finO directQ m sp q
      let m ← fin directR m (sp + 10) r
      .ok (m, true)

/-- `VuintT::shlUnit` (zm.h:743-752) -/
def shlUnit (m : ℕ → ℕ) (o x n : ℕ) : Res (ℕ → ℕ) :=
  let xn := size m x
  do
    let m ← alloc m o (xn + n)
    let m := (List.range xn).reverse.foldl (fun m i => Function.update m (o + (i + n)) (m (x + i))) m
    trim (fill m o n) o

/-- `VuintT::shlBit` (zm.h:757-776); the loop carries memory and `prev` -/
def shlBit (m : ℕ → ℕ) (o x n : ℕ) : Res (ℕ → ℕ) :=
  if ¬ (0 < n ∧ n < 64) then .ub
  else
    let xn := size m x
    do
      let m ← alloc m o xn
      let s := (List.range xn).foldl (fun (s : (ℕ → ℕ) × ℕ) i =>
        (Function.update s.1 (o + i) (((s.1 (x + i) * 2 ^ n) % B64) ||| (s.2 / 2 ^ (64 - n))), s.1 (x + i))) (m, 0)
      let prev := s.2 / 2 ^ (64 - n)
      if prev ≠ 0 then
        let m ← alloc s.1 o (xn + 1)
        .ok (Function.update m (o + xn) prev)
      else
        .ok s.1

/-- `VuintT::shrUnit` (zm.h:780-793) -/
def shrUnit (m : ℕ → ℕ) (o x n : ℕ) : Res (ℕ → ℕ) :=
  let xn := size m x
  if xn ≤ n then .ok (set1 m o 0)
  else do
    let m ← alloc m o xn
    let m := (List.range (xn - n)).foldl (fun m i => Function.update m (o + i) (m (x + (i + n)))) m
    alloc m o (xn - n)

/-- `VuintT::shrBit` (zm.h:798-812) -/
def shrBit (m : ℕ → ℕ) (o x n : ℕ) : Res (ℕ → ℕ) :=
  if ¬ (0 < n ∧ n < 64) then .ub
  else
    let xn := size m x
    do
      let m ← alloc m o xn
      let s := (List.range xn).reverse.foldl (fun (s : (ℕ → ℕ) × ℕ) i =>
        (Function.update s.1 (o + i) ((s.1 (x + i) / 2 ^ n) ||| ((s.2 * 2 ^ (64 - n)) % B64)), s.1 (x + i))) (m, 0)
      trim s.1 o

/-- `VuintT::shl` (zm.h:813-830) -/
def shl (m : ℕ → ℕ) (o x n : ℕ) : Res (ℕ → ℕ) :=
  if n = 0 then .ok (copy m o x)
  else do
    let q := n / 64
    let r := n % 64
    let p := if q ≠ 0 then o else x
    let m ← if q ≠ 0 then shlUnit m o x q else .ok m
    if r ≠ 0 then shlBit m o p r else .ok m

/-- `VuintT::shr` (zm.h:831-848) -/
def shr (m : ℕ → ℕ) (o x n : ℕ) : Res (ℕ → ℕ) :=
  if n = 0 then .ok (copy m o x)
  else do
    let q := n / 64
    let r := n % 64
    let p := if q ≠ 0 then o else x
    let m ← if q ≠ 0 then shrUnit m o x q else .ok m
    if r ≠ 0 then shrBit m o p r else .ok m

end Mem
end Verif
