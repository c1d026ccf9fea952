import Verif.Fp.Model

/-!
Raw-buffer model of the tower routines that work with unreduced values: the generated code of
src/zm2.cpp (`PairingCode`) and the templates of include/bn.h that use `Dbl`.  An `R2` is the pair of
256-bit (or, for `Dbl`, 512-bit) buffers of an `Fp2T` (`Fp2T::Dbl`); every step is the `Fp`/`Dbl` routine
of Fp/Model.lean that the source calls, in the source's order.
-/

namespace Verif

/-- `Fp2T { Fp a_, b_; }` bn.h:352, `Fp2T::Dbl { FpDbl a_, b_; }` bn.h:588. -/
structure R2 where
  a : ℕ
  b : ℕ
  deriving DecidableEq, Repr

/-- `Fp6T { Fp2 a_, b_, c_; }` bn.h:842, `Fp6T::Dbl` bn.h:1158. -/
structure R6 where
  a : R2
  b : R2
  c : R2
  deriving DecidableEq, Repr

/-- `Fp12T { Fp6 a_, b_; }` bn.h:1371, `Fp12T::Dbl` bn.h:1855. -/
structure R12 where
  a : R6
  b : R6
  deriving DecidableEq, Repr

namespace Fp2

/-- `Fp2::add`, bn.h:377; generated code zm2.cpp:926-930 (componentwise). -/
def add (x y : R2) : R2 := ⟨Fp.add x.a y.a, Fp.add x.b y.b⟩
/-- `Fp2::sub`, bn.h:394; zm2.cpp:931-935. -/
def sub (x y : R2) : R2 := ⟨Fp.sub x.a y.a, Fp.sub x.b y.b⟩
/-- `Fp2::addNC`, bn.h:382; zm2.cpp:958-962. -/
def addNC (x y : R2) : R2 := ⟨Fp.addNC x.a y.a, Fp.addNC x.b y.b⟩
/-- `Fp2::neg`, bn.h:399. -/
def neg (x : R2) : R2 := ⟨Fp.neg x.a, Fp.neg x.b⟩
/-- `Fp2::mul_xi`, zm2.cpp:1510-1535 (bn.h:470). -/
def mulXi (x : R2) : R2 := ⟨Fp.sub x.a x.b, Fp.add x.a x.b⟩
/-- `Fp2::divBy2`, bn.h:428; zm2.cpp:1095-1105. -/
def divBy2 (x : R2) : R2 := ⟨Fp.divBy2 x.a, Fp.divBy2 x.b⟩
/-- `Fp2::divBy4`, bn.h:434. -/
def divBy4 (x : R2) : R2 := ⟨Fp.divBy4 x.a, Fp.divBy4 x.b⟩
/-- `Fp2::mul_Fp_0`, bn.h:549; zm2.cpp:1288-1301. -/
def mulFp0 (x : R2) (y : ℕ) : R2 := ⟨Fp.mul x.a y, Fp.mul x.b y⟩

/-- `Fp2::mul`, generated code zm2.cpp:1816-1862. -/
def mul (x y : R2) : R2 :=
  let s := Fp.addNC x.a x.b
  let t := Fp.addNC y.a y.b
  let d0 := Fp.dblMul s t
  let d1 := Fp.dblMul x.a y.a
  let d2 := Fp.dblMul x.b y.b
  let d0 := Fp.dblSubNC d0 d1
  let d0 := Fp.dblSubNC d0 d2
  let d1 := Fp.dblSub d1 d2
  ⟨Fp.dblMod d1, Fp.dblMod d0⟩

/-- `Fp2::square`, generated code zm2.cpp:1717-1778 (non-SNARK): the factor a - b is formed as a + p - b. -/
def square (x : R2) : R2 :=
  let t := Fp.addNC x.b x.b
  let d0 := Fp.dblMul t x.a
  let t := Fp.addNC x.a (Fp.pTbl 1).val
  let t := Fp.subNC t x.b
  let za := Fp.addNC x.a x.b
  let d1 := Fp.dblMul t za
  ⟨Fp.dblMod d1, Fp.dblMod d0⟩

/-- `Fp2Dbl::add`, bn.h:683; zm2.cpp:854. -/
def dAdd (x y : R2) : R2 := ⟨Fp.dblAdd x.a y.a, Fp.dblAdd x.b y.b⟩
/-- `Fp2Dbl::sub`, bn.h:701; zm2.cpp:870. -/
def dSub (x y : R2) : R2 := ⟨Fp.dblSub x.a y.a, Fp.dblSub x.b y.b⟩
/-- `Fp2Dbl::addNC`, bn.h:689. -/
def dAddNC (x y : R2) : R2 := ⟨Fp.dblAddNC x.a y.a, Fp.dblAddNC x.b y.b⟩
/-- `Fp2Dbl::mul_xi`, zm2.cpp:2063-2087 (bn.h:716): z.a = x.a - x.b, z.b = x.b + x.a. -/
def dMulXi (x : R2) : R2 := ⟨Fp.dblSub x.a x.b, Fp.dblAdd x.b x.a⟩
/-- `Fp2Dbl::mulOpt1`, generated `sub_Fp2Dbl_mulOpt(1)` zm2.cpp:2003-2047. -/
def mulOpt1 (x y : R2) : R2 :=
  let s := Fp.addNC x.a x.b
  let t := Fp.addNC y.a y.b
  let d0 := Fp.dblMul x.b y.b
  let za := Fp.dblMul x.a y.a
  let zb := Fp.dblMul s t
  let zb := Fp.dblSubNC zb za
  let zb := Fp.dblSubNC zb d0
  ⟨Fp.dblSubOpt1 za d0, zb⟩
/-- `Fp2Dbl::mulOpt2`, generated `sub_Fp2Dbl_mulOpt(2)` zm2.cpp:2003-2047. -/
def mulOpt2 (x y : R2) : R2 :=
  let s := Fp.addNC x.a x.b
  let t := Fp.addNC y.a y.b
  let d0 := Fp.dblMul x.b y.b
  let za := Fp.dblMul x.a y.a
  let zb := Fp.dblMul s t
  let zb := Fp.dblSubNC zb za
  let zb := Fp.dblSubNC zb d0
  ⟨Fp.dblSub za d0, zb⟩
/-- `Fp2Dbl::square`, zm2.cpp:2965-3009 (bn.h:755). -/
def dSquare (x : R2) : R2 :=
  let t0 := Fp.addNC x.b x.b
  let zb := Fp.dblMul t0 x.a
  let t1 := Fp.addNC x.a (Fp.pTbl 1).val
  let t1 := Fp.subNC t1 x.b
  let t0 := Fp.addNC x.a x.b
  ⟨Fp.dblMul t0 t1, zb⟩
/-- `Fp2Dbl::mod`, bn.h:766. -/
def dMod (x : R2) : R2 := ⟨Fp.dblMod x.a, Fp.dblMod x.b⟩

end Fp2

namespace Fp6

/-- `Fp6::add`, bn.h:881. -/
def add (x y : R6) : R6 := ⟨Fp2.add x.a y.a, Fp2.add x.b y.b, Fp2.add x.c y.c⟩
/-- `Fp6::sub`, bn.h:887. -/
def sub (x y : R6) : R6 := ⟨Fp2.sub x.a y.a, Fp2.sub x.b y.b, Fp2.sub x.c y.c⟩

/-- `Fp6Dbl::mul`, generated code zm2.cpp:2103-2246 (bn.h:1268-1326). -/
def dMul (x y : R6) : R6 :=
  let T0 := Fp2.mulOpt1 x.a y.a
  let T1 := Fp2.mulOpt1 x.b y.b
  let T2 := Fp2.mulOpt1 x.c y.c
  let t0 := Fp2.addNC x.b x.c
  let t1 := Fp2.addNC y.b y.c
  let zc := Fp2.mulOpt2 t0 t1
  let zb := Fp2.dAddNC T1 T2
  let zc : R2 := ⟨Fp.dblSub zc.a zb.a, Fp.dblSubNC zc.b zb.b⟩
  let zb := Fp2.dMulXi zc
  let za := Fp2.dAdd zb T0
  let t0 := Fp2.addNC x.a x.b
  let t1 := Fp2.addNC y.a y.b
  let zc := Fp2.mulOpt2 t0 t1
  let zb := Fp2.dAddNC T0 T1
  let zc : R2 := ⟨Fp.dblSub zc.a zb.a, Fp.dblSubNC zc.b zb.b⟩
  let zb : R2 := ⟨Fp.dblSubOpt1 T2.a T2.b, Fp.dblAdd T2.a T2.b⟩
  let zb := Fp2.dAdd zb zc
  let t0 := Fp2.addNC x.a x.c
  let t1 := Fp2.addNC y.a y.c
  let zc := Fp2.mulOpt2 t0 t1
  let T2 := Fp2.dAddNC T2 T0
  let zca := Fp.dblSub zc.a T2.a
  let zca := Fp.dblAdd zca T1.a
  let zcb := Fp.dblSubNC zc.b T2.b
  let zcb := Fp.dblAddNC zcb T1.b
  ⟨za, zb, ⟨zca, zcb⟩⟩

/-- `Fp6Dbl::add`, bn.h:1223. -/
def dAdd (x y : R6) : R6 := ⟨Fp2.dAdd x.a y.a, Fp2.dAdd x.b y.b, Fp2.dAdd x.c y.c⟩
/-- `Fp6Dbl::sub`, bn.h:1244. -/
def dSub (x y : R6) : R6 := ⟨Fp2.dSub x.a y.a, Fp2.dSub x.b y.b, Fp2.dSub x.c y.c⟩
/-- `Fp6Dbl::mod`, bn.h:1327. -/
def dMod (x : R6) : R6 := ⟨Fp2.dMod x.a, Fp2.dMod x.b, Fp2.dMod x.c⟩
/-- `Fp6::mul`, zm2.cpp:2275-2303 (bn.h:902). -/
def mul (x y : R6) : R6 := dMod (dMul x y)

/-- `mul_gamma_add<Fp6, Fp2>`, bn.h:333-338, `sub_Fp2_mul_gamma_add` zm2.cpp:2559. -/
def mulGammaAdd (x y : R6) : R6 :=
  ⟨Fp2.add (Fp2.mulXi x.c) y.a, Fp2.add x.a y.b, Fp2.add x.b y.c⟩
/-- `mul_gamma_add<Fp6Dbl, Fp2Dbl>`, bn.h:333-338. -/
def dMulGammaAdd (x y : R6) : R6 :=
  ⟨Fp2.dAdd (Fp2.dMulXi x.c) y.a, Fp2.dAdd x.a y.b, Fp2.dAdd x.b y.c⟩

end Fp6

namespace Fp12

/-- `Fp12::mul`, generated code zm2.cpp:2613-2695 (bn.h:1450-1469). -/
def mul (x y : R12) : R12 :=
  let T0 := Fp6.dMul x.a y.a
  let T1 := Fp6.dMul x.b y.b
  let t0 := Fp6.add x.a x.b
  let t1 := Fp6.add y.a y.b
  let za := Fp6.dMul t0 t1
  let T2 := Fp6.dAdd T0 T1
  let zb := Fp6.dSub za T2
  let za := Fp6.dMulGammaAdd T1 T0
  ⟨Fp6.dMod za, Fp6.dMod zb⟩

/-- `Fp12::square(z)`, generated code zm2.cpp:2570-2611 (bn.h:1476-1491). -/
def square (z : R12) : R12 :=
  let t0 := Fp6.add z.a z.b
  let t1 := Fp6.mulGammaAdd z.b z.a
  let zb := Fp6.mul z.b z.a
  let za := Fp6.mul t0 t1
  let t1 := Fp6.mulGammaAdd zb zb
  ⟨Fp6.sub za t1, Fp6.add zb zb⟩

/-- `Fp12::Dbl::mul_Fp2_024(z, x)`: z *= (x.a, 0, x.c) + (0, x.b, 0) w; generated code
zm2.cpp:2697-2960 (bn.h:1964-2035). -/
def mul024 (z : R12) (x : R6) : R12 :=
  let D0 := Fp2.mulOpt2 z.a.a x.a
  let D2 := Fp2.mulOpt2 z.a.c x.c
  let D4 := Fp2.mulOpt2 z.b.b x.b
  let t2 := Fp2.add z.a.a z.b.b
  let t1 := Fp2.add z.a.a z.a.c
  let s0 := Fp2.add z.a.b z.b.a
  let s0 := Fp2.add s0 z.b.c
  let S1 := Fp2.mulOpt2 z.a.b x.c
  let T3 := Fp2.dAdd S1 D4
  let T4 := Fp2.dMulXi T3
  let T4 := Fp2.dAdd T4 D0
  let z0 := Fp2.dMod T4
  let T3 := Fp2.mulOpt2 z.b.c x.b
  let S1 := Fp2.dAdd S1 T3
  let T3 := Fp2.dAdd T3 D2
  let T4 := Fp2.dMulXi T3
  let T3 := Fp2.mulOpt2 z.a.b x.a
  let S1 := Fp2.dAdd S1 T3
  let T4 := Fp2.dAdd T4 T3
  let z1 := Fp2.dMod T4
  let t0 := Fp2.add x.a x.c
  let T3 := Fp2.mulOpt2 t1 t0
  let T3 := Fp2.dSub T3 D0
  let T3 := Fp2.dSub T3 D2
  let T4 := Fp2.mulOpt2 z.b.a x.b
  let S1 := Fp2.dAdd S1 T4
  let T3 := Fp2.dAdd T3 T4
  let t0 := Fp2.add z.a.c z.b.b
  let z2 := Fp2.dMod T3
  let t1 := Fp2.add x.c x.b
  let T3 := Fp2.mulOpt2 t0 t1
  let T3 := Fp2.dSub T3 D2
  let T3 := Fp2.dSub T3 D4
  let T4 := Fp2.dMulXi T3
  let T3 := Fp2.mulOpt2 z.b.a x.a
  let S1 := Fp2.dAdd S1 T3
  let T4 := Fp2.dAdd T4 T3
  let z3 := Fp2.dMod T4
  let T3 := Fp2.mulOpt2 z.b.c x.c
  let S1 := Fp2.dAdd S1 T3
  let T4 := Fp2.dMulXi T3
  let t0 := Fp2.add x.a x.b
  let T3 := Fp2.mulOpt2 t2 t0
  let T3 := Fp2.dSub T3 D0
  let T3 := Fp2.dSub T3 D4
  let T4 := Fp2.dAdd T4 T3
  let z4 := Fp2.dMod T4
  let t0 := Fp2.add x.a x.c
  let t0 := Fp2.add t0 x.b
  let T3 := Fp2.mulOpt2 s0 t0
  let T3 := Fp2.dSub T3 S1
  let z5 := Fp2.dMod T3
  ⟨⟨z0, z1, z2⟩, ⟨z3, z4, z5⟩⟩

/-- `Fp12::Dbl::mul_Fp2_024_Fp2_024`, bn.h:2065-2110. -/
def mul024_024 (x y : R6) : R12 :=
  let T00 := Fp2.mulOpt2 x.a y.a
  let T22 := Fp2.mulOpt2 x.c y.c
  let T44 := Fp2.mulOpt2 x.b y.b
  let z0 := Fp2.add x.a x.c
  let z1 := Fp2.add y.a y.c
  let T02 := Fp2.mulOpt2 z0 z1
  let T02 := Fp2.dSub T02 T00
  let T02 := Fp2.dSub T02 T22
  let z2 := Fp2.dMod T02
  let z0 := Fp2.add x.c x.b
  let z1 := Fp2.add y.c y.b
  let T24 := Fp2.mulOpt2 z0 z1
  let T24 := Fp2.dSub T24 T22
  let T24 := Fp2.dSub T24 T44
  let T02 := Fp2.dMulXi T24
  let z3 := Fp2.dMod T02
  let z0 := Fp2.add x.b x.a
  let z1 := Fp2.add y.b y.a
  let T40 := Fp2.mulOpt2 z0 z1
  let T40 := Fp2.dSub T40 T00
  let T40 := Fp2.dSub T40 T44
  let z4 := Fp2.dMod T40
  let T02 := Fp2.dMulXi T22
  let z1 := Fp2.dMod T02
  let T02 := Fp2.dMulXi T44
  let T02 := Fp2.dAdd T02 T00
  let z0 := Fp2.dMod T02
  ⟨⟨z0, z1, z2⟩, ⟨z3, z4, ⟨0, 0⟩⟩⟩

/-- `sq_Fp4UseDbl`, bn.h:1509-1523; results z0, z1. -/
def sqFp4 (x0 x1 : R2) : R2 × R2 :=
  let T0 := Fp2.dSquare x0
  let T1 := Fp2.dSquare x1
  let T2 := Fp2.dMulXi T1
  let T2 := Fp2.dAdd T2 T0
  let z1 := Fp2.add x0 x1
  let z0 := Fp2.dMod T2
  let T2 := Fp2.dSquare z1
  let T2 := Fp2.dSub T2 T0
  let T2 := Fp2.dSub T2 T1
  (z0, Fp2.dMod T2)

end Fp12

/-- The four compressed coordinates `g2_, g3_, g4_, g5_` of `CompressT`, bn.h:2136-2142. -/
structure RC where
  g2 : R2
  g3 : R2
  g4 : R2
  g5 : R2
  deriving DecidableEq, Repr

/-- `Fp::_2z_add_3x` on both components (zm2.cpp:2538-2556). -/
def Fp2.add2z3x (z x : R2) : R2 := ⟨Fp.add2z3x z.a x.a, Fp.add2z3x z.b x.b⟩

/-- The g4 update of the generated `Compress::square_n`, zm2.cpp:2478-2499, one component:
(t0 + p - g4) doubled, plus t0, without carries, then `fast_modp`. -/
def Fp.compG4 (t g : ℕ) : ℕ :=
  let s := Fp.subNC (Fp.addNC t (Fp.pTbl 1).val) g
  let s := Fp.addNC s s
  Fp.fastModp (Fp.addNC s t)

/-- One pass of `CompressT::square_n`, generated code zm2.cpp:2346-2530. -/
def compSquare (z : RC) : RC :=
  let T0 := Fp2.dSquare z.g4
  let T1 := Fp2.dSquare z.g5
  let T2 := Fp2.dMulXi T1
  let T2 := Fp2.dAdd T2 T0
  let t2 := Fp2.dMod T2
  let t0 := Fp2.add z.g4 z.g5
  let T2 := Fp2.dSquare t0
  let T0 := Fp2.dAdd T0 T1
  let T2 := Fp2.dSub T2 T0
  let t0 := Fp2.dMod T2
  let t1 := Fp2.add z.g2 z.g3
  let T3 := Fp2.dSquare t1
  let T2 := Fp2.dSquare z.g2
  let t1 := Fp2.mulXi t0
  let g2 := Fp2.add2z3x z.g2 t1
  let t1 := Fp2.sub t2 z.g3
  let t1 := Fp2.add t1 t1
  let T1 := Fp2.dSquare z.g3
  let g3 := Fp2.add t1 t2
  let T0 := Fp2.dMulXi T1
  let T0 := Fp2.dAdd T0 T2
  let t0 := Fp2.dMod T0
  let g4 : R2 := ⟨Fp.compG4 t0.a z.g4.a, Fp.compG4 t0.b z.g4.b⟩
  let T2 := Fp2.dAddNC T2 T1
  let T3 := Fp2.dSub T3 T2
  let t0 := Fp2.dMod T3
  let g5 := Fp2.add2z3x z.g5 t0
  ⟨g2, g3, g4, g5⟩

/-- A line value and the updated point: `l` and `R[0..2]` after a line evaluation. -/
structure LineR where
  l : R6
  x : R2
  y : R2
  z : R2

/-- `pointDblLineEvalWithoutP`, generated code zm2.cpp:3012-3213 (bn.h:1001-1075).  `l.c` is left
unreduced (sums without reduction). -/
def pointDblLineEvalWithoutP (X Y Z : R2) : LineR :=
  let t0 := Fp2.square Z
  let t4 := Fp2.mul X Y
  let t1 := Fp2.square Y
  let t3 := Fp2.add t0 t0
  let t4 := Fp2.divBy2 t4
  let t5 := Fp2.add t0 t1
  let t0 := Fp2.add t0 t3
  let t2 : R2 := ⟨Fp.add t0.a t0.b, Fp.sub t0.b t0.a⟩
  let t0 := Fp2.square X
  let t3 := Fp2.add t2 t2
  let t3 := Fp2.add t3 t2
  let lc := Fp2.addNC t0 t0
  let X' := Fp2.sub t1 t3
  let lc := Fp2.addNC lc t0
  let t3 := Fp2.add t3 t1
  let X' := Fp2.mul X' t4
  let t3 := Fp2.divBy2 t3
  let T0 := Fp2.dSquare t3
  let T1 := Fp2.dSquare t2
  let T2 := Fp2.dAddNC T1 T1
  let t3 := Fp2.add Y Z
  let T2 := Fp2.dAddNC T2 T1
  let t3 := Fp2.square t3
  let t3 := Fp2.sub t3 t5
  let T0 := Fp2.dSub T0 T2
  let Y' := Fp2.dMod T0
  let Z' := Fp2.mul t1 t3
  let t2 := Fp2.sub t2 t1
  let la := Fp2.mulXi t2
  let lb := Fp2.neg t3
  ⟨⟨la, lb, lc⟩, X', Y', Z'⟩

/-- `mulFp6_24_Fp_01`, bn.h:1076: l.c *= P[0], l.b *= P[1]. -/
def mulFp6_24_Fp_01 (l : R6) (px py : ℕ) : R6 :=
  ⟨l.a, Fp2.mulFp0 l.b py, Fp2.mulFp0 l.c px⟩

/-- `pointDblLineEval`, bn.h:1081-1086, zm2.cpp:3012-3213 (`withoutP = false`). -/
def pointDblLineEval (X Y Z : R2) (px py : ℕ) : LineR :=
  let e := pointDblLineEvalWithoutP X Y Z
  { e with l := mulFp6_24_Fp_01 e.l px py }

/-- `pointAddLineEvalWithoutP`, bn.h:1094-1141. -/
def pointAddLineEvalWithoutP (X Y Z Qx Qy : R2) : LineR :=
  let t1 := Fp2.mul Z Qx
  let t2 := Fp2.mul Z Qy
  let t1 := Fp2.sub X t1
  let t2 := Fp2.sub Y t2
  let t3 := Fp2.square t1
  let X := Fp2.mul t3 X
  let t4 := Fp2.square t2
  let t3 := Fp2.mul t3 t1
  let t4 := Fp2.mul t4 Z
  let t4 := Fp2.add t4 t3
  let t4 := Fp2.sub t4 X
  let t4 := Fp2.sub t4 X
  let X := Fp2.sub X t4
  let T1 := Fp2.mulOpt1 t2 X
  let T2 := Fp2.mulOpt1 t3 Y
  let T2 := Fp2.dSub T1 T2
  let Y' := Fp2.dMod T2
  let X' := Fp2.mul t1 t4
  let Z' := Fp2.mul t3 Z
  let lc := Fp2.neg t2
  let T1 := Fp2.mulOpt1 t2 Qx
  let T2 := Fp2.mulOpt1 t1 Qy
  let T1 := Fp2.dSub T1 T2
  let t2 := Fp2.dMod T1
  let la := Fp2.mulXi t2
  ⟨⟨la, t1, lc⟩, X', Y', Z'⟩

/-- `pointAddLineEval`, bn.h:1142-1147. -/
def pointAddLineEval (X Y Z Qx Qy : R2) (px py : ℕ) : LineR :=
  let e := pointAddLineEvalWithoutP X Y Z Qx Qy
  { e with l := mulFp6_24_Fp_01 e.l px py }

end Verif
