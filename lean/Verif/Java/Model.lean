import Verif.Ec.Mem
import Verif.Pairing.Model
import Verif.Power
import Mathlib.Data.Nat.Digits.Defs

/-!
Model of the classes of java/bn254_if.hpp: Mpz, Fp, Fp2, Fp12, Ec1, Ec2 as stores of objects, one constructor of
a call type per method, and the GMP instantiations of `mie::power` and `ecop::ScalarMult` they use.

GMP itself is not modelled: an `mpz_class` is an integer, and the code's direct accesses to `_mp_size` and `_mp_d`
see the sign-and-magnitude representation computed from it.  The text methods (`set(string)`, `toString`) are the
subject of C53-C55 and are left out here, apart from the normalisation of a point by `toString`.
-/

namespace Verif.Java
open FF

/-! ### Accesses to GMP integers -/

/-- `_mp_d`: the limbs of |z|, least significant first, without leading zeros -/
def limbs (z : ℤ) : List ℕ := Nat.digits B64 z.natAbs
/-- `_mp_size`, an `int`: number of limbs with the sign of z -/
def mpSize (z : ℤ) : ℤ := z.sign * (limbs z).length
/-- GMP terminates the process when `_mp_size` would not fit in an `int`. -/
def Fits (z : ℤ) : Prop := (limbs z).length ≤ 2147483647

/-- `M_blockSize`, bn.h:25-28: `_mp_size` converted from `int` to `size_t` -/
def blockSize (z : ℤ) : ℕ := (mpSize z % 2 ^ 64).toNat
/-- `M_block`, bn.h:29-32: an access outside the |_mp_size| limbs is undefined -/
def block (z : ℤ) (i : ℕ) : Res ℕ :=
  if h : i < (limbs z).length then .ok (limbs z)[i] else .ub

section
variable {T : Type} [Mul T] [One T]

/-- The loop over the blocks in `power`, zm.h:1394-1409: `fuel` passes from block `i` on, n blocks in all. -/
def powMpzLoop (y : ℤ) (n : ℕ) : ℕ → ℕ → T → T → Res T
  | 0, _, out, _ => .ok out
  | fuel + 1, i, out, t => do
    let v ← block y i
    let m := if i = n - 1 then powTop v 64 else 64
    let ot := powInner v m 0 out t
    powMpzLoop y n fuel (i + 1) ot.1 ot.2

/-- `power(x, y)` with y an `mpz_class`, zm.h:1387-1411, `IntTag<mpz_class>` bn.h:40-50 -/
def powMpz (x : T) (y : ℤ) : Res T := powMpzLoop y (blockSize y) (blockSize y) 0 1 x
end

section
variable {K : Type} [Add K] [Sub K] [Mul K] [Neg K] [Inv K] [Zero K] [One K] [FF K]
open Ec

/-- `(int)` of a `size_t` -/
def toInt32 (n : ℕ) : ℤ := (((n : ℤ) + 2 ^ 31) % 2 ^ 32) - 2 ^ 31
/-- an `int` used as a `size_t` argument -/
def toSize (i : ℤ) : ℕ := (i % 2 ^ 64).toNat

/-- bn.h:2638-2646: `for (int i = mSize - 2; i >= 0; --i)`; the argument is i + 1 -/
def smWordsMpz (z : ℤ) (o i : ℕ) : ℕ → Mem K → Res (Mem K)
  | 0, m => .ok m
  | n + 1, m => do
    let v ← block z n
    smWordsMpz z o i n (smLoopAt 64 o i 64 v m)

/-- `ScalarMult(out, in, m)` with an `mpz_class`, bn.h:2590-2647; `t` is the address of `inCopy`. -/
def scalarMultMpz (m : Mem K) (t o i : ℕ) (z : ℤ) : Res (Mem K) :=
  if z = 0 then .ok (clearAt m o)
  else
    let mi := if o = i then (copyAt m t i, t) else (m, i)
    let mSize := toInt32 (blockSize z)
    do
    let v ← block z (toSize (mSize - 1))
    let vj := smSkip 64 64 v 0
    let m := copyAt mi.1 o mi.2
    smWordsMpz z o mi.2 (mSize - 1).toNat (smLoopAt 64 o mi.2 (64 - (vj.2 + 1)) (vj.1 * 2 % 2 ^ 64) m)

/-- `EcT::normalize` on the `mutable` coordinates, bn.h:2827-2838, statement by statement -/
def normalizeAt (m : Mem K) (o : ℕ) : Mem K :=
  if isInf (m o) || eqb (m o).z 1 then m
  else
    let r := (m o).z
    let r := r⁻¹
    let m := m.setZ o (sq r)
    let m := m.setX o ((m o).x * (m o).z)
    let r := r * (m o).z
    let m := m.setY o ((m o).y * r)
    m.setZ o 1

/-- `EcT::operator==`, bn.h:2896-2906: both operands are normalised in place first -/
def equalsAt (m : Mem K) (a b : ℕ) : Mem K × Bool :=
  let m := normalizeAt m a
  let m := normalizeAt m b
  (m, if isInf (m a) then (if isInf (m b) then true else false)
    else if isInf (m b) then false
    else eqb (m a).x (m b).x && eqb (m a).y (m b).y)
end

/-! ### Calls -/

/-- What a call hands back to the caller. -/
inductive Out where
  | unit
  | bool (b : Bool)
  | int (i : ℤ)
  /-- the C++ exception, translated to a Java exception -/
  | thrown
  deriving DecidableEq

/-- Methods of Mpz, java/bn254_if.hpp:33-53.  The first argument is the object called. -/
inductive MpzCall where
  /-- the constructors and `set`, with the integer they store -/
  | set (a : ℕ) (z : ℤ)
  | add (a b : ℕ)
  | sub (a b : ℕ)
  | mul (a b : ℕ)
  | mod (a b : ℕ)
  | equals (a b : ℕ)
  | compareTo (a b : ℕ)

/-- Methods of Fp (java/bn254_if.hpp:61-84), Fp2 (91-120) and Fp12 (126-148) that are the same in the three classes -/
inductive FCall where
  /-- the copy constructor -/
  | copy (a b : ℕ)
  | add (a b : ℕ)
  | sub (a b : ℕ)
  | mul (a b : ℕ)
  /-- `power(const Mpz&)` -/
  | power (a k : ℕ)
  | equals (a b : ℕ)

/-- Methods of Ec1 (java/bn254_if.hpp:155-195) and Ec2 (202-242) -/
inductive EcCall where
  | copy (a b : ℕ)
  /-- `set(x, y)` with field objects -/
  | set2 (a x y : ℕ)
  | set3 (a x y z : ℕ)
  | clear (a : ℕ)
  | dbl (a : ℕ)
  | neg (a : ℕ)
  | add (a b : ℕ)
  | sub (a b : ℕ)
  | mul (a k : ℕ)
  | equals (a b : ℕ)
  | isZero (a : ℕ)
  | isValid (a : ℕ)
  /-- the effect of `toString` on the coordinates, bn.h:2915-2923 -/
  | toString (a : ℕ)

/-- A call from Java. -/
inductive Call where
  | mpz (c : MpzCall)
  | fp (c : FCall)
  /-- `Fp(int)`, `Fp::set(int)` -/
  | fpInt (a : ℕ) (i : ℤ)
  | fp2 (c : FCall)
  /-- `Fp2(a, b)` from two Fp objects -/
  | fp2Pair (a x y : ℕ)
  | fp12 (c : FCall)
  /-- `Fp12(int)` -/
  | fp12Int (a : ℕ) (i : ℤ)
  /-- `Fp12::pairing(ec2, ec1)`, java/bn254_if.hpp:245-248 -/
  | pairing (a q p : ℕ)
  | ec1 (c : EcCall)
  | ec2 (c : EcCall)

/-- Function update. -/
def upd {α : Type} (f : ℕ → α) (a : ℕ) (v : α) : ℕ → α := fun k => if k = a then v else f k

/-- `self_ += rhs.self_` etc. on integers; `mpz_tdiv_r` by 0 terminates the process, as does a result that is too
large. -/
noncomputable def mpzPut (m : ℕ → ℤ) (a : ℕ) (z : ℤ) : Res ((ℕ → ℤ) × Out) :=
  open Classical in if Fits z then .ok (upd m a z, .unit) else .exit

/-- a method of Mpz (`mpz_cmp` promises only the sign of its result; the model returns the sign) -/
noncomputable def mpzStep (m : ℕ → ℤ) : MpzCall → Res ((ℕ → ℤ) × Out)
  | .set a z => mpzPut m a z
  | .add a b => mpzPut m a (m a + m b)
  | .sub a b => mpzPut m a (m a - m b)
  | .mul a b => mpzPut m a (m a * m b)
  | .mod a b => if m b = 0 then .exit else mpzPut m a ((m a).tmod (m b))
  | .equals a b => .ok (m, .bool (decide (m a = m b)))
  | .compareTo a b => .ok (m, .int (if m a < m b then -1 else if m a = m b then 0 else 1))

section
variable {K : Type} [Add K] [Sub K] [Mul K] [One K]

/-- a method of Fp, Fp2 or Fp12; `eq` is `operator==`.  The operators are called with the object itself as output
and first operand; the routines behind them read both operands completely before they write or work
componentwise (C21, C28, C29), so the value level suffices. -/
def fStep (eq : K → K → Bool) (z : ℕ → ℤ) (m : ℕ → K) : FCall → Res ((ℕ → K) × Out)
  | .copy a b => .ok (upd m a (m b), .unit)
  | .add a b => .ok (upd m a (m a + m b), .unit)
  | .sub a b => .ok (upd m a (m a - m b), .unit)
  | .mul a b => .ok (upd m a (m a * m b), .unit)
  | .power a k => do
    let v ← powMpz (m a) (z k)
    pure (upd m a v, .unit)
  | .equals a b => .ok (m, .bool (eq (m a) (m b)))
end

/-- Address of the point object k; address 0 holds the local of `sub` and `ScalarMult`. -/
def ob (k : ℕ) : ℕ := k + 1

section
variable {K : Type} [Add K] [Sub K] [Mul K] [Neg K] [Inv K] [Zero K] [One K] [FF K]
open Ec

/-- Where an argument of `set` lives: in a separate field object, or in a coordinate of a point object, as
handed out by `getX()`, `getY()`, `getZ()` (java/bn254_if.hpp:193-195, 240-242). -/
inductive Src (K : Type) where
  | obj (v : K)
  | x (k : ℕ)
  | y (k : ℕ)
  | z (k : ℕ)

/-- the value read through the reference -/
def Src.read (m : Mem K) : Src K → K
  | .obj v => v
  | .x k => (m k).x
  | .y k => (m k).y
  | .z k => (m k).z

/-- the check at the end of `set`: the exception leaves the object as it is -/
def checked (valid : J K → Bool) (m : Mem K) (o : ℕ) : Mem K × Out :=
  (m, if !valid (m o) then .thrown else .unit)

/-- `set(x, y)`, bn.h:2842-2850, with references that may point into the object -/
def set2At (valid : J K → Bool) (m : Mem K) (o : ℕ) (x y : Src K) : Mem K × Out :=
  let m := m.setX o (x.read m)
  let m := m.setY o (y.read m)
  let m := m.setZ o 1
  checked valid m o
/-- `set(x, y, z)`, bn.h:2851-2859 -/
def set3At (valid : J K → Bool) (m : Mem K) (o : ℕ) (x y z : Src K) : Mem K × Out :=
  let m := m.setX o (x.read m)
  let m := m.setY o (y.read m)
  let m := m.setZ o (z.read m)
  checked valid m o

/-- a method of Ec1 or Ec2; `f` are the field objects, `z` the integers -/
def ecStep (valid : J K → Bool) (z : ℕ → ℤ) (f : ℕ → K) (m : Mem K) : EcCall → Res (Mem K × Out)
  | .copy a b => .ok (copyAt m (ob a) (ob b), .unit)
  | .set2 a x y => .ok (set2At valid m (ob a) (.obj (f x)) (.obj (f y)))
  | .set3 a x y w => .ok (set3At valid m (ob a) (.obj (f x)) (.obj (f y)) (.obj (f w)))
  | .clear a => .ok (clearAt m (ob a), .unit)
  | .dbl a => .ok (dblAt m (ob a) (ob a), .unit)
  | .neg a => .ok (negAt m (ob a) (ob a), .unit)
  | .add a b => .ok (addAt m (ob a) (ob a) (ob b), .unit)
  | .sub a b => .ok (subAt m 0 (ob a) (ob a) (ob b), .unit)
  | .mul a k => do
    let m' ← scalarMultMpz m 0 (ob a) (ob a) (z k)
    pure (m', .unit)
  | .equals a b => .ok ((equalsAt m (ob a) (ob b)).1, .bool (equalsAt m (ob a) (ob b)).2)
  | .isZero a => .ok (m, .bool (isInf (m (ob a))))
  | .isValid a => .ok (m, .bool (valid (m (ob a))))
  | .toString a => .ok (if isInf (m (ob a)) then m else normalizeAt m (ob a), .unit)
end

/-- All objects. -/
structure State where
  mpz : ℕ → ℤ
  fp : ℕ → Fe
  fp2 : ℕ → F2
  fp12 : ℕ → F12
  ec1 : Ec.Mem Fe
  ec2 : Ec.Mem F2

/-- `Fp(int)`; the bound holds for every `int` but INT_MIN by C22. -/
def feInt (i : ℤ) : Res Fe :=
  match Fp.setInt i with
  | .ok n => if h : n < Fp.p then .ok ⟨n, h⟩ else .ub
  | .exit => .exit
  | .throw => .throw
  | .ub => .ub
  | .diverge => .diverge

/-- One call. -/
noncomputable def step (s : State) : Call → Res (State × Out)
  | .mpz c => do
    let r ← mpzStep s.mpz c
    pure ({ s with mpz := r.1 }, r.2)
  | .fp c => do
    let r ← fStep eqb s.mpz s.fp c
    pure ({ s with fp := r.1 }, r.2)
  | .fpInt a i => do
    let v ← feInt i
    pure ({ s with fp := upd s.fp a v }, .unit)
  | .fp2 c => do
    let r ← fStep eqb s.mpz s.fp2 c
    pure ({ s with fp2 := r.1 }, r.2)
  | .fp2Pair a x y => .ok ({ s with fp2 := upd s.fp2 a ⟨s.fp x, s.fp y⟩ }, .unit)
  | .fp12 c => do
    let r ← fStep F12.eq s.mpz s.fp12 c
    pure ({ s with fp12 := r.1 }, r.2)
  | .fp12Int a i => do
    let v ← feInt i
    pure ({ s with fp12 := upd s.fp12 a ⟨⟨⟨v, 0⟩, 0, 0⟩, 0⟩ }, .unit)
  | .pairing a q p =>
    -- bn.h:2966-2975: both arguments are normalised in place
    .ok ({ s with fp12 := upd s.fp12 a (Pairing.optAte (s.ec2 (ob q)) (s.ec1 (ob p))),
                  ec2 := normalizeAt s.ec2 (ob q), ec1 := normalizeAt s.ec1 (ob p) }, .unit)
  | .ec1 c => do
    let r ← ecStep Ec.isValid1 s.mpz s.fp s.ec1 c
    pure ({ s with ec1 := r.1 }, r.2)
  | .ec2 c => do
    let r ← ecStep Ec.isValid2 s.mpz s.fp2 s.ec2 c
    pure ({ s with ec2 := r.1 }, r.2)

/-- A sequence of calls, with what they hand back. -/
noncomputable def run : State → List Call → Res (State × List Out)
  | s, [] => .ok (s, [])
  | s, c :: cs => do
    let r ← step s c
    let r' ← run r.1 cs
    pure (r'.1, r.2 :: r'.2)

end Verif.Java
