import Verif.Tower.Frob

/-!
Model of `bn::ecop` and `bn::EcT` (bn.h:2347-2987), generic over the coordinate field (`FF` in the code);
instantiated below at `Fe` (G1) and `F2` (G2).

Two forms are given for every routine that writes through an output pointer.  The pure form returns the
triple left in the output array.  The `At` form runs the statements in source order on a memory of
triples, with output and input addresses that may coincide; C42 relates the two.
-/

namespace Verif

/-- Functions of the coordinate field other than the operators: `FF::square`, `FF::isZero`,
`FF::operator==`. -/
class FF (K : Type) where
  sq : K → K
  isZero : K → Bool
  eqb : K → K → Bool

/-- `Fp::square` zm2.h:280, `Fp::isZero` zm2.h:127, `operator==` zm.h:115 -/
instance : FF Fe where
  sq x := ⟨Fp.square x.n, Fp.mul_lt x.lt x.lt⟩
  isZero x := Fp.isZero x.n
  eqb x y := Fp.eq x.n y.n

/-- `Fp2T::square`, `isZero` bn.h:364, `operator==` bn.h:537 -/
instance : FF F2 where
  sq := F2.square
  isZero := F2.isZero
  eqb := F2.eq

/-- A triple of coordinates `FF p[3]`. -/
@[ext] structure J (K : Type) where
  x : K
  y : K
  z : K
  deriving DecidableEq

namespace Param

/-- `Param::b` as converted to `Fp` (`Fp(int)`, zm2.h:47-66), bn.h:69 and 224: b = 2 -/
def b : Fe := ⟨Fp.mul 2 Fp.montR2, Fp.mul_lt (by decide +kernel) (by decide +kernel)⟩

theorem b_setInt : Fp.setInt 2 = .ok b.n := by decide +kernel

/-- `b_invxi`, bn.h:230-233 -/
def b_invxi : F2 := F2.xi⁻¹ * ⟨b, 0⟩

/-- `(p * p - 1) / 6`, bn.h:254, as a `Vuint` -/
def p2Sub1Div6V : List ℕ :=
  words4 ((Fp.p * Fp.p - 1) / 6 % 2 ^ 256) ++ words4 ((Fp.p * Fp.p - 1) / 6 / 2 ^ 256)

/-- bn.h:254 as executed -/
def initExpZ : Res (List ℕ) := do
  let q ← Vuint.mul Fp.pV Fp.pV
  let s ← Vuint.sub q [1]
  let qr ← Vuint.divUnit s 6
  pure qr.1

theorem initExpZ_eq : initExpZ = .ok p2Sub1Div6V := by decide +kernel

/-- `Z`, bn.h:254-256: `Fp::square(Z, -temp.a_)` -/
def Z : Fe := FF.sq (-(power F2.xi p2Sub1Div6V).a)

end Param

namespace Ec
open FF

section
variable {K : Type} [Add K] [Sub K] [Mul K] [Neg K] [Inv K] [Zero K] [One K] [FF K]

/-! ### Curve membership, bn.h:2357-2445 -/

/-- `isOnECJac3`, bn.h:2361-2373 and `isOnTwistECJac3`, bn.h:2409-2420 (same statements; the constant is
multiplied from the other side). -/
def isOnJac3 (mulB : K → K) (P : J K) : Bool :=
  if eqb P.z 0 then true
  else
    let z6 := sq P.z
    let z6 := z6 * P.z
    let z6 := sq z6
    let z6 := mulB z6
    eqb (P.y * P.y) (P.x * P.x * P.x + z6)

/-- `isOnECHom2`, bn.h:2380-2385 and `isOnTwistECHom2`, bn.h:2427-2432 -/
def isOnHom2 (b : K) (x y : K) : Bool := eqb (y * y) (x * x * x + b)

/-! ### Pure forms -/

/-- `NormalizeJac`, bn.h:2451-2469 -/
def normalizeJac (P : J K) : J K :=
  if eqb P.z 0 then ⟨0, 0, 0⟩
  else if eqb P.z 1 then P
  else
    let A := P.z⁻¹
    let AA := sq A
    let t0 := AA * A
    ⟨P.x * AA, P.y * t0, 1⟩

/-- `NormalizeHom`, bn.h:2475-2490 -/
def normalizeHom (P : J K) : J K :=
  if eqb P.z 0 then ⟨0, 0, 0⟩
  else if eqb P.z 1 then P
  else
    let A := P.z⁻¹
    ⟨P.x * A, P.y * A, 1⟩

/-- `ECDouble`, bn.h:2497-2519 -/
def dbl (P : J K) : J K :=
  let A := sq P.x
  let B := sq P.y
  let C := sq B
  let t0 := P.x + B
  let t1 := sq t0
  let t2 := t1 - A
  let t3 := t2 - C
  let D := t3 + t3
  let E := A + A
  let E := E + A
  let F := sq E
  let t4 := D + D
  let X3 := F - t4
  let t5 := D - X3
  let t6 := C + C
  let t6 := t6 + t6
  let t6 := t6 + t6
  let t7 := E * t5
  let t8 := P.y * P.z
  ⟨X3, t7 - t6, t8 + t8⟩

/-- `ECAdd`, bn.h:2526-2577.  `old` is the previous content of the output array: when the sum is
infinity the code clears only `out[2]`. -/
def add (old a b : J K) : J K :=
  if isZero a.z then b
  else if isZero b.z then a
  else
    let Z1Z1 := sq a.z
    let Z2Z2 := sq b.z
    let U1 := a.x * Z2Z2
    let U2 := b.x * Z1Z1
    let t0 := b.z * Z2Z2
    let S1 := a.y * t0
    let t1 := a.z * Z1Z1
    let S2 := b.y * t1
    let H := U2 - U1
    let t3 := S2 - S1
    if isZero H then
      if isZero t3 then dbl a else ⟨old.x, old.y, 0⟩
    else
      let t2 := H + H
      let I := sq t2
      let J := H * I
      let r := t3 + t3
      let V := U1 * I
      let t4 := sq r
      let t5 := V + V
      let t6 := t4 - J
      let X3 := t6 - t5
      let t7 := V - X3
      let t8 := S1 * J
      let t9 := t8 + t8
      let t10 := r * t7
      let t11 := a.z + b.z
      let t12 := sq t11
      let t13 := t12 - Z1Z1
      let t14 := t13 - Z2Z2
      ⟨X3, t10 - t9, t14 * H⟩

/-- `EcT::neg`, bn.h:2881-2886 -/
def neg (P : J K) : J K := ⟨P.x, -P.y, P.z⟩

/-- `EcT::sub`, bn.h:2875-2880 -/
def sub (old P Q : J K) : J K := add old P (neg Q)

/-- `EcT::clear`, bn.h:2860-2865 -/
def clear : J K := ⟨0, 0, 0⟩

/-- bn.h:2617-2620: `while ((v != 0) && (!(v & mask))) { v <<= 1; ++j; }` for W-bit words, at most
`fuel` passes; returns (v, j). -/
def smSkip (W : ℕ) : ℕ → ℕ → ℕ → ℕ × ℕ
  | 0, v, j => (v, j)
  | fuel + 1, v, j =>
    if v ≠ 0 ∧ v.testBit (W - 1) = false then smSkip W fuel (v * 2 % 2 ^ W) (j + 1) else (v, j)

/-- bn.h:2628-2633 and 2640-2645: `n` passes of `ECDouble(out, out); if (v & mask) ECAdd(out, out, in);
v <<= 1`. -/
def smLoop (W : ℕ) (inp : J K) : ℕ → ℕ → J K → J K
  | 0, _, out => out
  | n + 1, v, out =>
    let out := dbl out
    let out := if v.testBit (W - 1) then add out out inp else out
    smLoop W inp n (v * 2 % 2 ^ W) out

/-- bn.h:2638-2646: the remaining words, most significant first. -/
def smWords (W : ℕ) (inp : J K) : List ℕ → J K → J K
  | [], out => out
  | v :: vs, out => smWords W inp vs (smLoop W inp W v out)

/-- `ScalarMult` after the test `m == 0`, bn.h:2601-2646; `ms` are the blocks of the scalar, most
significant first. -/
def smMain (W : ℕ) (inp : J K) : List ℕ → J K
  | [] => inp
  | v :: vs =>
    let vj := smSkip W W v 0
    smWords W inp vs (smLoop W inp (W - (vj.2 + 1)) (vj.1 * 2 % 2 ^ W) inp)

/-- `ScalarMult` with a `Vuint` scalar (64-bit words, least significant first). -/
def scalarMult (inp : J K) (m : List ℕ) : J K :=
  if Vuint.compare m [0] = 0 then clear else smMain 64 inp m.reverse

/-- `ScalarMult` with an `int` scalar: one block, shifted as a 32-bit two's complement word (shifting a
negative `int` to the left is what compilers implement, but undefined before C++20). -/
def scalarMultInt (inp : J K) (m : ℤ) : J K :=
  if m = 0 then clear else smMain 32 inp [(m % 2 ^ 32).toNat]

/-- `ScalarMult` with a `size_t` scalar. -/
def scalarMultSize (inp : J K) (m : ℕ) : J K :=
  if m = 0 then clear else smMain 64 inp [m]

/-- `EcT::isZero`, bn.h:2911-2914 -/
def isInf (P : J K) : Bool := isZero P.z

/-- `EcT::normalize`, bn.h:2827-2838 -/
def normalize (P : J K) : J K :=
  if isInf P || eqb P.z 1 then P
  else
    let r := P.z⁻¹
    let z := sq r
    let x := P.x * z
    let r := r * z
    let y := P.y * r
    ⟨x, y, 1⟩

/-- `EcT::operator==`, bn.h:2896-2906 -/
def eq (P Q : J K) : Bool :=
  let P := normalize P
  let Q := normalize Q
  if isInf P then
    if isInf Q then true else false
  else if isInf Q then false
  else eqb P.x Q.x && eqb P.y Q.y

/-! ### Memory forms -/

/-- A memory of coordinate triples. -/
abbrev Mem (K : Type) := ℕ → J K

/-- `out[0] = v` -/
def Mem.setX (m : Mem K) (o : ℕ) (v : K) : Mem K := fun i => if i = o then { m i with x := v } else m i
/-- `out[1] = v` -/
def Mem.setY (m : Mem K) (o : ℕ) (v : K) : Mem K := fun i => if i = o then { m i with y := v } else m i
/-- `out[2] = v` -/
def Mem.setZ (m : Mem K) (o : ℕ) (v : K) : Mem K := fun i => if i = o then { m i with z := v } else m i

/-- `copy`, bn.h:2350-2355 -/
def copyAt (m : Mem K) (o i : ℕ) : Mem K :=
  let m := m.setX o (m i).x
  let m := m.setY o (m i).y
  m.setZ o (m i).z

/-- `clear` of the three coordinates -/
def clearAt (m : Mem K) (o : ℕ) : Mem K :=
  let m := m.setX o 0
  let m := m.setY o 0
  m.setZ o 0

/-- `NormalizeJac(out, in)`, bn.h:2451-2469 -/
def normalizeJacAt (m : Mem K) (o i : ℕ) : Mem K :=
  if eqb (m i).z 0 then clearAt m o
  else if eqb (m i).z 1 then copyAt m o i
  else
    let A := (m i).z
    let A := A⁻¹
    let AA := sq A
    let m := m.setX o ((m i).x * AA)
    let t0 := AA * A
    let m := m.setY o ((m i).y * t0)
    m.setZ o 1

/-- `ECDouble(out, in)`, bn.h:2497-2519 -/
def dblAt (m : Mem K) (o i : ℕ) : Mem K :=
  let A := sq (m i).x
  let B := sq (m i).y
  let C := sq B
  let t0 := (m i).x + B
  let t1 := sq t0
  let t2 := t1 - A
  let t3 := t2 - C
  let D := t3 + t3
  let E := A + A
  let E := E + A
  let F := sq E
  let t4 := D + D
  let m := m.setX o (F - t4)
  let t5 := D - (m o).x
  let t6 := C
  let t6 := t6 + t6
  let t6 := t6 + t6
  let t6 := t6 + t6
  let t7 := E * t5
  let t8 := (m i).y * (m i).z
  let m := m.setY o (t7 - t6)
  m.setZ o (t8 + t8)

/-- `ECAdd(out, a, b)`, bn.h:2526-2577 -/
def addAt (m : Mem K) (o a b : ℕ) : Mem K :=
  if isZero (m a).z then copyAt m o b
  else if isZero (m b).z then copyAt m o a
  else
    let Z1Z1 := sq (m a).z
    let Z2Z2 := sq (m b).z
    let U1 := (m a).x * Z2Z2
    let U2 := (m b).x * Z1Z1
    let t0 := (m b).z * Z2Z2
    let S1 := (m a).y * t0
    let t1 := (m a).z * Z1Z1
    let S2 := (m b).y * t1
    let H := U2 - U1
    let t3 := S2 - S1
    if isZero H then
      if isZero t3 then dblAt m o a else m.setZ o 0
    else
      let t2 := H + H
      let I := sq t2
      let J := H * I
      let r := t3 + t3
      let V := U1 * I
      let t4 := sq r
      let t5 := V + V
      let t6 := t4 - J
      let m := m.setX o (t6 - t5)
      let t7 := V - (m o).x
      let t8 := S1 * J
      let t9 := t8 + t8
      let t10 := r * t7
      let m := m.setY o (t10 - t9)
      let t11 := (m a).z + (m b).z
      let t12 := sq t11
      let t13 := t12 - Z1Z1
      let t14 := t13 - Z2Z2
      m.setZ o (t14 * H)

/-- `EcT::neg(R, P)`, bn.h:2881-2886 -/
def negAt (m : Mem K) (o i : ℕ) : Mem K :=
  let m := m.setX o (m i).x
  let m := m.setY o (-(m i).y)
  m.setZ o (m i).z

/-- `EcT::sub(R, P, Q)`, bn.h:2875-2880; `t` is the address of the local `negQ`. -/
def subAt (m : Mem K) (t o a b : ℕ) : Mem K := addAt (negAt m t b) o a t

/-- bn.h:2628-2633, 2640-2645 -/
def smLoopAt (W o i : ℕ) : ℕ → ℕ → Mem K → Mem K
  | 0, _, m => m
  | n + 1, v, m =>
    let m := dblAt m o o
    let m := if v.testBit (W - 1) then addAt m o o i else m
    smLoopAt W o i n (v * 2 % 2 ^ W) m

/-- bn.h:2638-2646 -/
def smWordsAt (W o i : ℕ) : List ℕ → Mem K → Mem K
  | [], m => m
  | v :: vs, m => smWordsAt W o i vs (smLoopAt W o i W v m)

/-- `ScalarMult(out, in, m)` with a `Vuint`, bn.h:2590-2647; `t` is the address of the local `inCopy`,
used as `in` when `out == in`. -/
def scalarMultAt (m : Mem K) (t o i : ℕ) (s : List ℕ) : Mem K :=
  if Vuint.compare s [0] = 0 then clearAt m o
  else
    let mi := if o = i then (copyAt m t i, t) else (m, i)
    match s.reverse with
    | [] => copyAt mi.1 o mi.2
    | v :: vs =>
      let vj := smSkip 64 64 v 0
      let m := copyAt mi.1 o mi.2
      smWordsAt 64 o mi.2 vs (smLoopAt 64 o mi.2 (64 - (vj.2 + 1)) (vj.1 * 2 % 2 ^ 64) m)

end

/-! ### Instances -/

/-- `EcT<Fp>::isValid`, bn.h:2984: `isOnECJac3`, `Z6p_2 *= Param::b` -/
def isValid1 (P : J Fe) : Bool := isOnJac3 (fun z => z * Param.b) P
/-- `EcT<Fp2>::isValid`, bn.h:2978: `isOnTwistECJac3`, `Param::b_invxi * Z6p` -/
def isValid2 (P : J F2) : Bool := isOnJac3 (fun z => Param.b_invxi * z) P

/-- `EcT::set(x, y, verify)` bn.h:2842-2850, `isValid` passed in; `none` is the thrown exception. -/
def set2 {K : Type} [One K] (valid : J K → Bool) (x y : K) (verify : Bool) : Option (J K) :=
  let P : J K := ⟨x, y, 1⟩
  if verify && !valid P then none else some P
/-- `EcT::set(x, y, z, verify)`, bn.h:2851-2859 -/
def set3 {K : Type} (valid : J K → Bool) (x y z : K) (verify : Bool) : Option (J K) :=
  let P : J K := ⟨x, y, z⟩
  if verify && !valid P then none else some P

/-- `EcT::set(x, y, verify)` as an effect on the object: the coordinates are assigned first (bn.h:2844-2846),
the check comes last; second component: the exception was thrown.  The previous contents `_old` play no role. -/
def set2Obj {K : Type} [One K] (valid : J K → Bool) (_old : J K) (x y : K) (verify : Bool) : J K × Bool :=
  let P : J K := ⟨x, y, 1⟩
  (P, verify && !valid P)

/-- `isOnECHom3`, bn.h:2392-2403 -/
def isOnECHom3 (P : J Fe) : Bool :=
  if eqb P.z 0 then true
  else
    let ZZZ := FF.sq P.z
    let ZZZ := ZZZ * P.z
    let ZZZ := ZZZ * Param.b
    eqb (P.y * P.y * P.z) (P.x * P.x * P.x + ZZZ)
/-- `isOnTwistECHom3`, bn.h:2439-2445 -/
def isOnTwistECHom3 (P : J F2) : Bool :=
  if eqb P.z 0 then true
  else eqb (P.y * P.y * P.z) (P.x * P.x * P.x + Param.b_invxi * P.z * P.z * P.z)

/-! ### Twist Frobenius maps, bn.h:2649-2708 (not BN_SUPPORT_SNARK) -/

/-- `FrobEndOnTwist_1`, bn.h:2650-2676 -/
def frobTwist1 (x y : F2) : F2 × F2 :=
  let q0 : F2 := ⟨x.a, -x.b⟩
  let q0 := q0.mulFp1 Param.W2p.b
  let q1 : F2 := ⟨y.a, -y.b⟩
  let q1 := q1 * Param.W3p
  (q0, q1)
/-- `FrobEndOnTwist_2`, bn.h:2679-2691 -/
def frobTwist2 (x y : F2) : F2 × F2 := (x.mulFp0 Param.Z, -y)
/-- `FrobEndOnTwist_8`, bn.h:2694-2708 -/
def frobTwist8 (x y : F2) : F2 × F2 := (x.mulFp0 Param.Z, y)

end Ec
end Verif
