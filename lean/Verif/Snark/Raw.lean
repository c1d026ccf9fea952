import Verif.Snark.MulXi
import Verif.Tower.Raw

/-!
Raw-buffer model of the tower routines in the SNARK build (`BN_SUPPORT_SNARK`): the generated code of
src/zm2.cpp (`PairingCode`) and the templates of include/bn.h that use `Dbl`, with the SNARK branches.
The buffer types are those of `Verif/Tower/Raw.lean`; every step is the `Fp`/`Dbl` routine of
`Snark/Model.lean` that the source calls, in the source's order.  The names are `S2`, `S6`, `S12` so that
no routine of the default build can be meant by accident.
-/

namespace Verif.Snark

namespace S2

/-- `Fp2::add`, bn.h:377; generated code zm2.cpp:926-930 (componentwise). -/
def add (x y : R2) : R2 := ⟨Snark.add x.a y.a, Snark.add x.b y.b⟩
/-- `Fp2::sub`, bn.h:394; zm2.cpp:931-935. -/
def sub (x y : R2) : R2 := ⟨Snark.sub x.a y.a, Snark.sub x.b y.b⟩
/-- `Fp2::addNC`, bn.h:382; zm2.cpp:958-962. -/
def addNC (x y : R2) : R2 := ⟨Verif.Fp.addNC x.a y.a, Verif.Fp.addNC x.b y.b⟩
/-- `Fp2::neg`, bn.h:399. -/
def neg (x : R2) : R2 := ⟨Snark.neg x.a, Snark.neg x.b⟩
/-- `Fp2::mul_xi` for xi = 9 + u, generated code zm2.cpp:1513-1517: (9a - b) + (9b + a)u. -/
@[irreducible] def mulXi (x : R2) : Res R2 := do
  let a ← wMulXi (Fp.W4.of x.a) (Fp.W4.of x.b) false
  let b ← wMulXi (Fp.W4.of x.b) (Fp.W4.of x.a) true
  pure ⟨a.val, b.val⟩
/-- `Fp2T::mul_xiC`, the portable version, bn.h:447-461: repeated `Fp::add`. -/
def mulXiC (x : R2) : R2 :=
  let za := Snark.add x.a x.a
  let za := Snark.add za za
  let za := Snark.add za za
  let za := Snark.add za x.a
  let za := Snark.sub za x.b
  let zb := Snark.add x.b x.b
  let zb := Snark.add zb zb
  let zb := Snark.add zb zb
  let zb := Snark.add zb x.b
  let zb := Snark.add zb x.a
  ⟨za, zb⟩
/-- `Fp2::divBy2`, bn.h:428; zm2.cpp:1095-1105. -/
def divBy2 (x : R2) : R2 := ⟨Snark.divBy2 x.a, Snark.divBy2 x.b⟩
/-- `Fp2::divBy4`, bn.h:434. -/
def divBy4 (x : R2) : R2 := ⟨Snark.divBy4 x.a, Snark.divBy4 x.b⟩
/-- `Fp2::mul_Fp_0`, bn.h:549; zm2.cpp:1288-1301. -/
def mulFp0 (x : R2) (y : ℕ) : R2 := ⟨Snark.mul x.a y, Snark.mul x.b y⟩

/-- `Fp2::mul`, generated code zm2.cpp:1816-1862. -/
def mul (x y : R2) : R2 :=
  let s := Verif.Fp.addNC x.a x.b
  let t := Verif.Fp.addNC y.a y.b
  let d0 := Verif.Fp.dblMul s t
  let d1 := Verif.Fp.dblMul x.a y.a
  let d2 := Verif.Fp.dblMul x.b y.b
  let d0 := Verif.Fp.dblSubNC d0 d1
  let d0 := Verif.Fp.dblSubNC d0 d2
  let d1 := Snark.dblSub d1 d2
  ⟨Snark.dblMod d1, Snark.dblMod d0⟩

/-- `Fp2::square`, generated code zm2.cpp:1717-1778, SNARK branch 1728-1745: 2b and a + b are reduced,
the factor a - b is formed as a + p - b. -/
def square (x : R2) : R2 :=
  let t := Snark.add x.b x.b
  let d0 := Verif.Fp.dblMul t x.a
  let t := Verif.Fp.addNC x.a (Snark.pTbl 1).val
  let t := Verif.Fp.subNC t x.b
  let za := Snark.add x.a x.b
  let d1 := Verif.Fp.dblMul t za
  ⟨Snark.dblMod d1, Snark.dblMod d0⟩

/-- `Fp2T::squareC`, the portable version, bn.h:481-490 (SNARK branch). -/
def squareC (x : R2) : R2 :=
  let t := Snark.add x.b x.b
  let t := Snark.mul t x.a
  let tt := Snark.sub x.a x.b
  let za := Snark.add x.a x.b
  let za := Snark.mul za tt
  ⟨za, t⟩

/-- `Fp2Dbl::add`, bn.h:683; zm2.cpp:854. -/
def dAdd (x y : R2) : R2 := ⟨Snark.dblAdd x.a y.a, Snark.dblAdd x.b y.b⟩
/-- `Fp2Dbl::sub`, bn.h:701; zm2.cpp:870. -/
def dSub (x y : R2) : R2 := ⟨Snark.dblSub x.a y.a, Snark.dblSub x.b y.b⟩
/-- `Fp2Dbl::addNC`, bn.h:689. -/
def dAddNC (x y : R2) : R2 := ⟨Verif.Fp.dblAddNC x.a y.a, Verif.Fp.dblAddNC x.b y.b⟩
/-- `x * 9` by `FpDbl::add`: 2, 4, 8, 9 (zm2.cpp:2069-2072, bn.h:704-707). -/
def dMul9 (x : ℕ) : ℕ :=
  let z := Snark.dblAdd x x
  let z := Snark.dblAdd z z
  let z := Snark.dblAdd z z
  Snark.dblAdd z x
/-- `Fp2Dbl::mul_xi`, SNARK branch zm2.cpp:2068-2080 (bn.h:694-715). -/
def dMulXi (x : R2) : R2 := ⟨Snark.dblSub (dMul9 x.a) x.b, Snark.dblAdd (dMul9 x.b) x.a⟩
/-- `Fp2Dbl::mulOpt1`, generated `sub_Fp2Dbl_mulOpt(1)` zm2.cpp:2003-2047. -/
def mulOpt1 (x y : R2) : R2 :=
  let s := Verif.Fp.addNC x.a x.b
  let t := Verif.Fp.addNC y.a y.b
  let d0 := Verif.Fp.dblMul x.b y.b
  let za := Verif.Fp.dblMul x.a y.a
  let zb := Verif.Fp.dblMul s t
  let zb := Verif.Fp.dblSubNC zb za
  let zb := Verif.Fp.dblSubNC zb d0
  ⟨Snark.dblSubOpt1 za d0, zb⟩
/-- `Fp2Dbl::mulOpt2`, generated `sub_Fp2Dbl_mulOpt(2)` zm2.cpp:2003-2047. -/
def mulOpt2 (x y : R2) : R2 :=
  let s := Verif.Fp.addNC x.a x.b
  let t := Verif.Fp.addNC y.a y.b
  let d0 := Verif.Fp.dblMul x.b y.b
  let za := Verif.Fp.dblMul x.a y.a
  let zb := Verif.Fp.dblMul s t
  let zb := Verif.Fp.dblSubNC zb za
  let zb := Verif.Fp.dblSubNC zb d0
  ⟨Snark.dblSub za d0, zb⟩
/-- `Fp2Dbl::square`, zm2.cpp:2965-3009 (bn.h:755). -/
def dSquare (x : R2) : R2 :=
  let t0 := Verif.Fp.addNC x.b x.b
  let zb := Verif.Fp.dblMul t0 x.a
  let t1 := Verif.Fp.addNC x.a (Snark.pTbl 1).val
  let t1 := Verif.Fp.subNC t1 x.b
  let t0 := Verif.Fp.addNC x.a x.b
  ⟨Verif.Fp.dblMul t0 t1, zb⟩
/-- `Fp2Dbl::mod`, bn.h:766. -/
def dMod (x : R2) : R2 := ⟨Snark.dblMod x.a, Snark.dblMod x.b⟩

end S2

namespace S6

/-- `Fp6::add`, bn.h:881. -/
def add (x y : R6) : R6 := ⟨S2.add x.a y.a, S2.add x.b y.b, S2.add x.c y.c⟩
/-- `Fp6::sub`, bn.h:887. -/
def sub (x y : R6) : R6 := ⟨S2.sub x.a y.a, S2.sub x.b y.b, S2.sub x.c y.c⟩

/-- `Fp6Dbl::mul`, generated code zm2.cpp:2103-2246 (bn.h:1268-1326) with the SNARK branch
zm2.cpp:2209-2210 (bn.h:1304-1305). -/
def dMul (x y : R6) : R6 :=
  let T0 := S2.mulOpt1 x.a y.a
  let T1 := S2.mulOpt1 x.b y.b
  let T2 := S2.mulOpt1 x.c y.c
  let t0 := S2.addNC x.b x.c
  let t1 := S2.addNC y.b y.c
  let zc := S2.mulOpt2 t0 t1
  let zb := S2.dAddNC T1 T2
  let zc : R2 := ⟨Snark.dblSub zc.a zb.a, Verif.Fp.dblSubNC zc.b zb.b⟩
  let zb := S2.dMulXi zc
  let za := S2.dAdd zb T0
  let t0 := S2.addNC x.a x.b
  let t1 := S2.addNC y.a y.b
  let zc := S2.mulOpt2 t0 t1
  let zb := S2.dAddNC T0 T1
  let zc : R2 := ⟨Snark.dblSub zc.a zb.a, Verif.Fp.dblSubNC zc.b zb.b⟩
  let zb := S2.dMulXi T2
  let zb := S2.dAdd zb zc
  let t0 := S2.addNC x.a x.c
  let t1 := S2.addNC y.a y.c
  let zc := S2.mulOpt2 t0 t1
  let T2 := S2.dAddNC T2 T0
  let zca := Snark.dblSub zc.a T2.a
  let zca := Snark.dblAdd zca T1.a
  let zcb := Verif.Fp.dblSubNC zc.b T2.b
  let zcb := Verif.Fp.dblAddNC zcb T1.b
  ⟨za, zb, ⟨zca, zcb⟩⟩

/-- `Fp6Dbl::add`, bn.h:1223. -/
def dAdd (x y : R6) : R6 := ⟨S2.dAdd x.a y.a, S2.dAdd x.b y.b, S2.dAdd x.c y.c⟩
/-- `Fp6Dbl::sub`, bn.h:1244. -/
def dSub (x y : R6) : R6 := ⟨S2.dSub x.a y.a, S2.dSub x.b y.b, S2.dSub x.c y.c⟩
/-- `Fp6Dbl::mod`, bn.h:1327. -/
def dMod (x : R6) : R6 := ⟨S2.dMod x.a, S2.dMod x.b, S2.dMod x.c⟩
/-- `Fp6::mul`, zm2.cpp:2275-2303 (bn.h:902). -/
def mul (x y : R6) : R6 := dMod (dMul x y)

/-- `mul_gamma_add<Fp6, Fp2>`, bn.h:333-338, `sub_Fp2_mul_gamma_add` zm2.cpp:2559. -/
def mulGammaAdd (x y : R6) : Res R6 := do
  let za ← S2.mulXi x.c
  pure ⟨S2.add za y.a, S2.add x.a y.b, S2.add x.b y.c⟩
/-- `mul_gamma_add<Fp6Dbl, Fp2Dbl>`, bn.h:333-338. -/
def dMulGammaAdd (x y : R6) : R6 :=
  ⟨S2.dAdd (S2.dMulXi x.c) y.a, S2.dAdd x.a y.b, S2.dAdd x.b y.c⟩

end S6

namespace S12

/-- `Fp12::mul`, generated code zm2.cpp:2613-2695 (bn.h:1450-1469). -/
def mul (x y : R12) : R12 :=
  let T0 := S6.dMul x.a y.a
  let T1 := S6.dMul x.b y.b
  let t0 := S6.add x.a x.b
  let t1 := S6.add y.a y.b
  let za := S6.dMul t0 t1
  let T2 := S6.dAdd T0 T1
  let zb := S6.dSub za T2
  let za := S6.dMulGammaAdd T1 T0
  ⟨S6.dMod za, S6.dMod zb⟩

/-- `Fp12::square(z)`, generated code zm2.cpp:2570-2611 (bn.h:1476-1491). -/
def square (z : R12) : Res R12 := do
  let t0 := S6.add z.a z.b
  let t1 ← S6.mulGammaAdd z.b z.a
  let zb := S6.mul z.b z.a
  let za := S6.mul t0 t1
  let t1 ← S6.mulGammaAdd zb zb
  pure ⟨S6.sub za t1, S6.add zb zb⟩

/-- `Fp12::Dbl::mul_Fp2_024(z, x)`: z *= (x.a, 0, x.c) + (0, x.b, 0) w; generated code
zm2.cpp:2697-2960 (bn.h:1964-2035). -/
def mul024 (z : R12) (x : R6) : R12 :=
  let D0 := S2.mulOpt2 z.a.a x.a
  let D2 := S2.mulOpt2 z.a.c x.c
  let D4 := S2.mulOpt2 z.b.b x.b
  let t2 := S2.add z.a.a z.b.b
  let t1 := S2.add z.a.a z.a.c
  let s0 := S2.add z.a.b z.b.a
  let s0 := S2.add s0 z.b.c
  let S1 := S2.mulOpt2 z.a.b x.c
  let T3 := S2.dAdd S1 D4
  let T4 := S2.dMulXi T3
  let T4 := S2.dAdd T4 D0
  let z0 := S2.dMod T4
  let T3 := S2.mulOpt2 z.b.c x.b
  let S1 := S2.dAdd S1 T3
  let T3 := S2.dAdd T3 D2
  let T4 := S2.dMulXi T3
  let T3 := S2.mulOpt2 z.a.b x.a
  let S1 := S2.dAdd S1 T3
  let T4 := S2.dAdd T4 T3
  let z1 := S2.dMod T4
  let t0 := S2.add x.a x.c
  let T3 := S2.mulOpt2 t1 t0
  let T3 := S2.dSub T3 D0
  let T3 := S2.dSub T3 D2
  let T4 := S2.mulOpt2 z.b.a x.b
  let S1 := S2.dAdd S1 T4
  let T3 := S2.dAdd T3 T4
  let t0 := S2.add z.a.c z.b.b
  let z2 := S2.dMod T3
  let t1 := S2.add x.c x.b
  let T3 := S2.mulOpt2 t0 t1
  let T3 := S2.dSub T3 D2
  let T3 := S2.dSub T3 D4
  let T4 := S2.dMulXi T3
  let T3 := S2.mulOpt2 z.b.a x.a
  let S1 := S2.dAdd S1 T3
  let T4 := S2.dAdd T4 T3
  let z3 := S2.dMod T4
  let T3 := S2.mulOpt2 z.b.c x.c
  let S1 := S2.dAdd S1 T3
  let T4 := S2.dMulXi T3
  let t0 := S2.add x.a x.b
  let T3 := S2.mulOpt2 t2 t0
  let T3 := S2.dSub T3 D0
  let T3 := S2.dSub T3 D4
  let T4 := S2.dAdd T4 T3
  let z4 := S2.dMod T4
  let t0 := S2.add x.a x.c
  let t0 := S2.add t0 x.b
  let T3 := S2.mulOpt2 s0 t0
  let T3 := S2.dSub T3 S1
  let z5 := S2.dMod T3
  ⟨⟨z0, z1, z2⟩, ⟨z3, z4, z5⟩⟩

/-- `Fp12::Dbl::mul_Fp2_024_Fp2_024`, bn.h:2065-2110. -/
def mul024_024 (x y : R6) : R12 :=
  let T00 := S2.mulOpt2 x.a y.a
  let T22 := S2.mulOpt2 x.c y.c
  let T44 := S2.mulOpt2 x.b y.b
  let z0 := S2.add x.a x.c
  let z1 := S2.add y.a y.c
  let T02 := S2.mulOpt2 z0 z1
  let T02 := S2.dSub T02 T00
  let T02 := S2.dSub T02 T22
  let z2 := S2.dMod T02
  let z0 := S2.add x.c x.b
  let z1 := S2.add y.c y.b
  let T24 := S2.mulOpt2 z0 z1
  let T24 := S2.dSub T24 T22
  let T24 := S2.dSub T24 T44
  let T02 := S2.dMulXi T24
  let z3 := S2.dMod T02
  let z0 := S2.add x.b x.a
  let z1 := S2.add y.b y.a
  let T40 := S2.mulOpt2 z0 z1
  let T40 := S2.dSub T40 T00
  let T40 := S2.dSub T40 T44
  let z4 := S2.dMod T40
  let T02 := S2.dMulXi T22
  let z1 := S2.dMod T02
  let T02 := S2.dMulXi T44
  let T02 := S2.dAdd T02 T00
  let z0 := S2.dMod T02
  ⟨⟨z0, z1, z2⟩, ⟨z3, z4, ⟨0, 0⟩⟩⟩

/-- `sq_Fp4UseDbl`, bn.h:1509-1523; results z0, z1. -/
def sqFp4 (x0 x1 : R2) : R2 × R2 :=
  let T0 := S2.dSquare x0
  let T1 := S2.dSquare x1
  let T2 := S2.dMulXi T1
  let T2 := S2.dAdd T2 T0
  let z1 := S2.add x0 x1
  let z0 := S2.dMod T2
  let T2 := S2.dSquare z1
  let T2 := S2.dSub T2 T0
  let T2 := S2.dSub T2 T1
  (z0, S2.dMod T2)

end S12

/-- `Fp::_2z_add_3x` on both components (zm2.cpp:2538-2556). -/
def S2.add2z3x (z x : R2) : R2 := ⟨Snark.add2z3x z.a x.a, Snark.add2z3x z.b x.b⟩

/-- The g4 update of the generated `Compress::square_n`, zm2.cpp:2478-2499, one component:
(t0 + p - g4) doubled, plus t0, without carries, then `fast_modp`. -/
def compG4 (t g : ℕ) : ℕ :=
  let s := Verif.Fp.subNC (Verif.Fp.addNC t (Snark.pTbl 1).val) g
  let s := Verif.Fp.addNC s s
  Snark.fastModp (Verif.Fp.addNC s t)

/-- One pass of `CompressT::square_n`, generated code zm2.cpp:2346-2530. -/
def compSquare (z : RC) : Res RC := do
  let T0 := S2.dSquare z.g4
  let T1 := S2.dSquare z.g5
  let T2 := S2.dMulXi T1
  let T2 := S2.dAdd T2 T0
  let t2 := S2.dMod T2
  let t0 := S2.add z.g4 z.g5
  let T2 := S2.dSquare t0
  let T0 := S2.dAdd T0 T1
  let T2 := S2.dSub T2 T0
  let t0 := S2.dMod T2
  let t1 := S2.add z.g2 z.g3
  let T3 := S2.dSquare t1
  let T2 := S2.dSquare z.g2
  let t1 ← S2.mulXi t0
  let g2 := S2.add2z3x z.g2 t1
  let t1 := S2.sub t2 z.g3
  let t1 := S2.add t1 t1
  let T1 := S2.dSquare z.g3
  let g3 := S2.add t1 t2
  let T0 := S2.dMulXi T1
  let T0 := S2.dAdd T0 T2
  let t0 := S2.dMod T0
  let g4 : R2 := ⟨Snark.compG4 t0.a z.g4.a, Snark.compG4 t0.b z.g4.b⟩
  let T2 := S2.dAddNC T2 T1
  let T3 := S2.dSub T3 T2
  let t0 := S2.dMod T3
  let g5 := S2.add2z3x z.g5 t0
  pure ⟨g2, g3, g4, g5⟩

/-- `(a + bu) * b_invxi`, zm2.cpp:3072-3084 (bn.h:1019-1031): for b = 82 the factor is the constant 9 - u,
(9a + b) + (9b - a)u; otherwise `Fp2::mul` by `ParamT::b_invxi` (`binv`).  The test `b == 82` (`b82`) is
made when the code is generated. -/
def mulBinv (b82 : Bool) (binv t0 : R2) : Res R2 :=
  if b82 then do
    let a ← wMulXi (Fp.W4.of t0.a) (Fp.W4.of t0.b) true
    let b ← wMulXi (Fp.W4.of t0.b) (Fp.W4.of t0.a) false
    pure ⟨a.val, b.val⟩
  else pure (S2.mul t0 binv)

/-- `pointDblLineEvalWithoutP`, generated code zm2.cpp:3012-3213 (bn.h:1001-1075) with the SNARK branches
3072-3084 and 3146-3150.  `l.c` is left unreduced (sums without reduction). -/
def pointDblLineEvalWithoutP (b82 : Bool) (binv X Y Z : R2) : Res LineR := do
  let t0 := S2.square Z
  let t4 := S2.mul X Y
  let t1 := S2.square Y
  let t3 := S2.add t0 t0
  let t4 := S2.divBy2 t4
  let t5 := S2.add t0 t1
  let t0 := S2.add t0 t3
  let t2 ← mulBinv b82 binv t0
  let t0 := S2.square X
  let t3 := S2.add t2 t2
  let t3 := S2.add t3 t2
  let lc := S2.addNC t0 t0
  let X' := S2.sub t1 t3
  let lc := S2.addNC lc t0
  let t3 := S2.add t3 t1
  let X' := S2.mul X' t4
  let t3 := S2.divBy2 t3
  let T0 := S2.dSquare t3
  let T1 := S2.dSquare t2
  let T2 := S2.dAddNC T1 T1
  let t3 := S2.add Y Z
  let T2 := S2.dAdd T2 T1
  let t3 := S2.square t3
  let t3 := S2.sub t3 t5
  let T0 := S2.dSub T0 T2
  let Y' := S2.dMod T0
  let Z' := S2.mul t1 t3
  let t2 := S2.sub t2 t1
  let la ← S2.mulXi t2
  let lb := S2.neg t3
  pure ⟨⟨la, lb, lc⟩, X', Y', Z'⟩

/-- `mulFp6_24_Fp_01`, bn.h:1074-1078: l.c *= P[0], l.b *= P[1]. -/
def mulFp6_24_Fp_01 (l : R6) (px py : ℕ) : R6 :=
  ⟨l.a, S2.mulFp0 l.b py, S2.mulFp0 l.c px⟩

/-- `pointDblLineEval`, bn.h:1081-1086, zm2.cpp:3012-3213 (`withoutP = false`). -/
def pointDblLineEval (b82 : Bool) (binv X Y Z : R2) (px py : ℕ) : Res LineR := do
  let e ← pointDblLineEvalWithoutP b82 binv X Y Z
  pure { e with l := mulFp6_24_Fp_01 e.l px py }

/-- `pointAddLineEvalWithoutP`, bn.h:1094-1141. -/
def pointAddLineEvalWithoutP (X Y Z Qx Qy : R2) : Res LineR := do
  let t1 := S2.mul Z Qx
  let t2 := S2.mul Z Qy
  let t1 := S2.sub X t1
  let t2 := S2.sub Y t2
  let t3 := S2.square t1
  let X := S2.mul t3 X
  let t4 := S2.square t2
  let t3 := S2.mul t3 t1
  let t4 := S2.mul t4 Z
  let t4 := S2.add t4 t3
  let t4 := S2.sub t4 X
  let t4 := S2.sub t4 X
  let X := S2.sub X t4
  let T1 := S2.mulOpt1 t2 X
  let T2 := S2.mulOpt1 t3 Y
  let T2 := S2.dSub T1 T2
  let Y' := S2.dMod T2
  let X' := S2.mul t1 t4
  let Z' := S2.mul t3 Z
  let lc := S2.neg t2
  let T1 := S2.mulOpt1 t2 Qx
  let T2 := S2.mulOpt1 t1 Qy
  let T1 := S2.dSub T1 T2
  let t2 := S2.dMod T1
  let la ← S2.mulXi t2
  pure ⟨⟨la, t1, lc⟩, X', Y', Z'⟩

/-- `pointAddLineEval`, bn.h:1142-1147. -/
def pointAddLineEval (X Y Z Qx Qy : R2) (px py : ℕ) : Res LineR := do
  let e ← pointAddLineEvalWithoutP X Y Z Qx Qy
  pure { e with l := mulFp6_24_Fp_01 e.l px py }

end Verif.Snark
