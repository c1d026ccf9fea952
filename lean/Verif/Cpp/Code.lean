import Verif.Cpp.Spec
import Verif.Tower.Wrap

/-!
The portable versions of the tower routines (names ending in `C` in include/bn.h), statement by statement.  The calls
inside go through function pointers to the routines of the level below; those are the value functions of Fp/Model.lean and
Tower/Raw.lean.  `mul_xi` and `mul_Fp_0` are expanded to their two calls in order, since for them the order matters.
-/

namespace Verif.Cpp

/-- local variable -/
def lv (i : ℕ) : Loc := ⟨0, i⟩
/-- `_2z_add_3x` and the like read and write the same object: `f(z, x)` with the old z as first argument -/
def z1 (f : ℕ → ℕ → ℕ) (z x : Loc) : Stmt := b1 f z z x

namespace Fp2C

/-- `Fp2T::addC`, bn.h:378-382. -/
def add (z x y : Loc) : List Stmt := [b1 Fp.add z x y, b1 Fp.add (z.plus 1) (x.plus 1) (y.plus 1)]
/-- `Fp2T::addNC_C`, bn.h:383-387. -/
def addNC (z x y : Loc) : List Stmt := [b1 Fp.addNC z x y, b1 Fp.addNC (z.plus 1) (x.plus 1) (y.plus 1)]
/-- `Fp2T::subNC_C`, bn.h:389-393. -/
def subNC (z x y : Loc) : List Stmt := [b1 Fp.subNC z x y, b1 Fp.subNC (z.plus 1) (x.plus 1) (y.plus 1)]
/-- `Fp2T::subC`, bn.h:395-399. -/
def sub (z x y : Loc) : List Stmt := [b1 Fp.sub z x y, b1 Fp.sub (z.plus 1) (x.plus 1) (y.plus 1)]
/-- `Fp2T::neg`, bn.h:400-404. -/
def neg (z x : Loc) : List Stmt := [u1 Fp.neg z x, u1 Fp.neg (z.plus 1) (x.plus 1)]

/-- `Fp2T::mulC`, bn.h:412-426. -/
def mul (z x y : Loc) : List Stmt :=
  let d := fun i => lv i
  let s := lv 3
  let t := lv 4
  [b1 Fp.addNC s x (x.plus 1),
   b1 Fp.addNC t y (y.plus 1),
   b1 Fp.dblMul (d 0) s t,
   b1 Fp.dblMul (d 1) x y,
   b1 Fp.dblMul (d 2) (x.plus 1) (y.plus 1),
   b1 Fp.dblSubNC (d 0) (d 0) (d 1),
   b1 Fp.dblSubNC (d 0) (d 0) (d 2),
   u1 Fp.dblMod (z.plus 1) (d 0),
   b1 Fp.dblSub (d 1) (d 1) (d 2),
   u1 Fp.dblMod z (d 1)]

/-- `Fp2T::divBy2C`, bn.h:428-432. -/
def divBy2 (z x : Loc) : List Stmt := [u1 Fp.divBy2 z x, u1 Fp.divBy2 (z.plus 1) (x.plus 1)]
/-- `Fp2T::divBy4`, bn.h:434-438. -/
def divBy4 (z x : Loc) : List Stmt := [u1 Fp.divBy4 z x, u1 Fp.divBy4 (z.plus 1) (x.plus 1)]
/-- `Fp2T::mul_xiC`, bn.h:470-475; the assertion `&z != &x` is not compiled with NDEBUG. -/
def mulXi (z x : Loc) : List Stmt := [b1 Fp.sub z x (x.plus 1), b1 Fp.add (z.plus 1) x (x.plus 1)]
/-- `Fp2T::mul_Fp_0C`, bn.h:549-553. -/
def mulFp0 (z x b : Loc) : List Stmt := [b1 Fp.mul z x b, b1 Fp.mul (z.plus 1) (x.plus 1) b]
/-- `Fp2T::mul_x`, bn.h:561-566. -/
def mulX (z : Loc) : List Stmt := [cp1 (lv 0) (z.plus 1), cp1 (z.plus 1) z, u1 Fp.neg z (lv 0)]
/-- `Fp2T::mul_Fp_1`, bn.h:575-581. -/
def mulFp1 (z b : Loc) : List Stmt :=
  [b1 Fp.mul (lv 0) (z.plus 1) b, b1 Fp.mul (z.plus 1) z b, u1 Fp.neg z (lv 0)]
/-- `Fp2T::squareC`, bn.h:481-500 (non-SNARK): the fourth line adds x.a_ to itself. -/
def square (z x : Loc) : List Stmt :=
  let t := lv 0
  let tt := lv 1
  [b1 Fp.addNC t (x.plus 1) (x.plus 1),
   b1 Fp.mul t t x,
   b1 Fp.sub tt x (x.plus 1),
   b1 Fp.addNC z x x,
   b1 Fp.mul z z tt,
   cp1 (z.plus 1) t]

/-- `Fp2T::Dbl::addC`, bn.h:665-669. -/
def dAdd (z x y : Loc) : List Stmt := [b1 Fp.dblAdd z x y, b1 Fp.dblAdd (z.plus 1) (x.plus 1) (y.plus 1)]
/-- `Fp2T::Dbl::addNC_C`, bn.h:671-675. -/
def dAddNC (z x y : Loc) : List Stmt := [b1 Fp.dblAddNC z x y, b1 Fp.dblAddNC (z.plus 1) (x.plus 1) (y.plus 1)]
/-- `Fp2T::Dbl::negC`, bn.h:677-681. -/
def dNeg (z x : Loc) : List Stmt := [u1 Fp.dblNeg z x, u1 Fp.dblNeg (z.plus 1) (x.plus 1)]
/-- `Fp2T::Dbl::subC`, bn.h:683-687. -/
def dSub (z x y : Loc) : List Stmt := [b1 Fp.dblSub z x y, b1 Fp.dblSub (z.plus 1) (x.plus 1) (y.plus 1)]
/-- `Fp2T::Dbl::subNC_C`, bn.h:689-693. -/
def dSubNC (z x y : Loc) : List Stmt := [b1 Fp.dblSubNC z x y, b1 Fp.dblSubNC (z.plus 1) (x.plus 1) (y.plus 1)]
/-- `Fp2T::Dbl::mul_xiC`, bn.h:718-723. -/
def dMulXi (z x : Loc) : List Stmt := [b1 Fp.dblSub z x (x.plus 1), b1 Fp.dblAdd (z.plus 1) (x.plus 1) x]
/-- `Fp2T::Dbl::mulOptC`, bn.h:726-744. -/
def mulOpt (mode : ℕ) (z x y : Loc) : List Stmt :=
  let d0 := lv 0
  let s := lv 1
  let t := lv 2
  [b1 Fp.addNC s x (x.plus 1),
   b1 Fp.addNC t y (y.plus 1),
   b1 Fp.dblMul d0 (x.plus 1) (y.plus 1),
   b1 Fp.dblMul z x y,
   b1 Fp.dblMul (z.plus 1) s t,
   b1 Fp.dblSubNC (z.plus 1) (z.plus 1) z,
   b1 Fp.dblSubNC (z.plus 1) (z.plus 1) d0,
   if mode = 1 then b1 Fp.dblSubOpt1 z z d0 else b1 Fp.dblSub z z d0]
/-- `Fp2T::Dbl::mulOpt1C`, bn.h:746-749. -/
def mulOpt1 (z x y : Loc) : List Stmt := mulOpt 1 z x y
/-- `Fp2T::Dbl::mulOpt2C`, bn.h:751-754. -/
def mulOpt2 (z x y : Loc) : List Stmt := mulOpt 2 z x y
/-- `Fp2T::Dbl::squareC`, bn.h:756-765. -/
def dSquare (z x : Loc) : List Stmt :=
  let t0 := lv 0
  let t1 := lv 1
  [b1 Fp.addNC t0 (x.plus 1) (x.plus 1),
   b1 Fp.dblMul (z.plus 1) t0 x,
   u1 (fun a => Fp.addNC a (Fp.pTbl 1).val) t1 x,
   b1 Fp.subNC t1 t1 (x.plus 1),
   b1 Fp.addNC t0 x (x.plus 1),
   b1 Fp.dblMul z t0 t1]
/-- `Fp2T::Dbl::modC`, bn.h:767-771. -/
def dMod (z x : Loc) : List Stmt := [u1 Fp.dblMod z x, u1 Fp.dblMod (z.plus 1) (x.plus 1)]

end Fp2C

namespace Fp6C

/-- `Fp6T::addC`, bn.h:884-889. -/
def add (z x y : Loc) : List Stmt :=
  [b2 Fp2.add z x y, b2 Fp2.add (z.plus 2) (x.plus 2) (y.plus 2), b2 Fp2.add (z.plus 4) (x.plus 4) (y.plus 4)]
/-- `Fp6T::subC`, bn.h:890-895. -/
def sub (z x y : Loc) : List Stmt :=
  [b2 Fp2.sub z x y, b2 Fp2.sub (z.plus 2) (x.plus 2) (y.plus 2), b2 Fp2.sub (z.plus 4) (x.plus 4) (y.plus 4)]
/-- `Fp6T::neg`, bn.h:896-901. -/
def neg (z x : Loc) : List Stmt :=
  Fp2C.neg z x ++ Fp2C.neg (z.plus 2) (x.plus 2) ++ Fp2C.neg (z.plus 4) (x.plus 4)
/-- `Fp6T::Dbl::add`, bn.h:1227-1232. -/
def dAdd (z x y : Loc) : List Stmt :=
  [b2 Fp2.dAdd z x y, b2 Fp2.dAdd (z.plus 2) (x.plus 2) (y.plus 2), b2 Fp2.dAdd (z.plus 4) (x.plus 4) (y.plus 4)]
/-- `Fp6T::Dbl::sub`, bn.h:1248-1253. -/
def dSub (z x y : Loc) : List Stmt :=
  [b2 Fp2.dSub z x y, b2 Fp2.dSub (z.plus 2) (x.plus 2) (y.plus 2), b2 Fp2.dSub (z.plus 4) (x.plus 4) (y.plus 4)]
/-- `Fp6T::Dbl::mod`, bn.h:1327-1332. -/
def dMod (z x : Loc) : List Stmt :=
  [u2 Fp2.dMod z x, u2 Fp2.dMod (z.plus 2) (x.plus 2), u2 Fp2.dMod (z.plus 4) (x.plus 4)]
/-- `Fp6T::mulC`, bn.h:904-909. -/
def mul (z x y : Loc) : List Stmt := [b6 Fp6.dMul (lv 0) x y] ++ dMod z (lv 0)

/-- `Fp6T::Dbl::mulC`, bn.h:1268-1326. -/
def dMul (z x y : Loc) : List Stmt :=
  let za := z
  let zb := z.plus 2
  let zc := z.plus 4
  let t0 := lv 0
  let t1 := lv 2
  let T0 := lv 4
  let T1 := lv 6
  let T2 := lv 8
  [b2 Fp2.mulOpt1 T0 x y,
   b2 Fp2.mulOpt1 T1 (x.plus 2) (y.plus 2),
   b2 Fp2.mulOpt1 T2 (x.plus 4) (y.plus 4),
   b2 Fp2.addNC t0 (x.plus 2) (x.plus 4),
   b2 Fp2.addNC t1 (y.plus 2) (y.plus 4),
   b2 Fp2.mulOpt2 zc t0 t1,
   b2 Fp2.dAddNC zb T1 T2,
   b1 Fp.dblSub zc zc zb,
   b1 Fp.dblSubNC (zc.plus 1) (zc.plus 1) (zb.plus 1)] ++
  Fp2C.dMulXi zb zc ++
  [b2 Fp2.dAdd za zb T0,
   b2 Fp2.addNC t0 x (x.plus 2),
   b2 Fp2.addNC t1 y (y.plus 2),
   b2 Fp2.mulOpt2 zc t0 t1,
   b2 Fp2.dAddNC zb T0 T1,
   b1 Fp.dblSub zc zc zb,
   b1 Fp.dblSubNC (zc.plus 1) (zc.plus 1) (zb.plus 1),
   b1 Fp.dblSubOpt1 zb T2 (T2.plus 1),
   b1 Fp.dblAdd (zb.plus 1) T2 (T2.plus 1),
   b2 Fp2.dAdd zb zb zc,
   b2 Fp2.addNC t0 x (x.plus 4),
   b2 Fp2.addNC t1 y (y.plus 4),
   b2 Fp2.mulOpt2 zc t0 t1,
   b2 Fp2.dAddNC T2 T2 T0,
   b1 Fp.dblSub zc zc T2,
   b1 Fp.dblAdd zc zc T1,
   b1 Fp.dblSubNC (zc.plus 1) (zc.plus 1) (T2.plus 1),
   b1 Fp.dblAddNC (zc.plus 1) (zc.plus 1) (T1.plus 1)]

/-- `mul_gamma_add<Fp6, Fp2>`, bn.h:329-336. -/
def mulGammaAdd (z x y : Loc) : List Stmt :=
  Fp2C.mulXi z (x.plus 4) ++
  [b2 Fp2.add z z y, b2 Fp2.add (z.plus 2) x (y.plus 2), b2 Fp2.add (z.plus 4) (x.plus 2) (y.plus 4)]
/-- `mul_gamma_add<Fp6Dbl, Fp2Dbl>`, bn.h:329-336. -/
def dMulGammaAdd (z x y : Loc) : List Stmt :=
  Fp2C.dMulXi z (x.plus 4) ++
  [b2 Fp2.dAdd z z y, b2 Fp2.dAdd (z.plus 2) x (y.plus 2), b2 Fp2.dAdd (z.plus 4) (x.plus 2) (y.plus 4)]

/-- `pointDblLineEvalWithoutPC`, bn.h:1001-1073 (non-SNARK); `R` is `Fp2 R[3]`. -/
def pointDblLineEvalWithoutP (l R : Loc) : List Stmt :=
  let la := l
  let lb := l.plus 2
  let lc := l.plus 4
  let R0 := R
  let R1 := R.plus 2
  let R2 := R.plus 4
  let t0 := lv 0
  let t1 := lv 2
  let t2 := lv 4
  let t3 := lv 6
  let t4 := lv 8
  let t5 := lv 10
  let T0 := lv 12
  let T1 := lv 14
  let T2 := lv 16
  [u2 Fp2.square t0 R2,
   b2 Fp2.mul t4 R0 R1,
   u2 Fp2.square t1 R1,
   b2 Fp2.add t3 t0 t0,
   u2 Fp2.divBy2 t4 t4,
   b2 Fp2.add t5 t0 t1,
   b2 Fp2.add t0 t0 t3,
   b1 Fp.add t2 t0 (t0.plus 1),
   b1 Fp.sub (t2.plus 1) (t0.plus 1) t0,
   u2 Fp2.square t0 R0,
   b2 Fp2.add t3 t2 t2,
   b2 Fp2.add t3 t3 t2,
   b2 Fp2.addNC lc t0 t0,
   b2 Fp2.sub R0 t1 t3,
   b2 Fp2.addNC lc lc t0,
   b2 Fp2.add t3 t3 t1,
   b2 Fp2.mul R0 R0 t4,
   u2 Fp2.divBy2 t3 t3,
   u2 Fp2.dSquare T0 t3,
   u2 Fp2.dSquare T1 t2,
   b2 Fp2.dAddNC T2 T1 T1,
   b2 Fp2.add t3 R1 R2,
   b2 Fp2.dAddNC T2 T2 T1,
   u2 Fp2.square t3 t3,
   b2 Fp2.sub t3 t3 t5,
   b2 Fp2.dSub T0 T0 T2,
   u2 Fp2.dMod R1 T0,
   b2 Fp2.mul R2 t1 t3,
   b2 Fp2.sub t2 t2 t1] ++
  Fp2C.mulXi la t2 ++
  Fp2C.neg lb t3

/-- `mulFp6_24_Fp_01`, bn.h:1074-1078. -/
def mulFp6_24_Fp_01 (l P : Loc) : List Stmt :=
  Fp2C.mulFp0 (l.plus 4) (l.plus 4) P ++ Fp2C.mulFp0 (l.plus 2) (l.plus 2) (P.plus 1)
/-- `pointDblLineEvalC`, bn.h:1079-1084. -/
def pointDblLineEval (l R P : Loc) : List Stmt := pointDblLineEvalWithoutP l R ++ mulFp6_24_Fp_01 l P

end Fp6C

namespace Fp12C

/-- `Fp12T::mulC`, bn.h:1450-1469. -/
def mul (z x y : Loc) : List Stmt :=
  let zd := lv 0
  let t0 := lv 12
  let t1 := lv 18
  let T0 := lv 24
  let T1 := lv 30
  let T2 := lv 36
  [b6 Fp6.dMul T0 x y,
   b6 Fp6.dMul T1 (x.plus 6) (y.plus 6),
   b6 Fp6.add t0 x (x.plus 6),
   b6 Fp6.add t1 y (y.plus 6),
   b6 Fp6.dMul zd t0 t1] ++
  Fp6C.dAdd T2 T0 T1 ++
  Fp6C.dSub (zd.plus 6) zd T2 ++
  Fp6C.dMulGammaAdd zd T1 T0 ++
  Fp6C.dMod z zd ++ Fp6C.dMod (z.plus 6) (zd.plus 6)

/-- `Fp12T::squareC`, bn.h:1476-1491. -/
def square (z : Loc) : List Stmt :=
  let za := z
  let zb := z.plus 6
  let t0 := lv 0
  let t1 := lv 6
  [b6 Fp6.add t0 za zb] ++
  Fp6C.mulGammaAdd t1 zb za ++
  [b6 Fp6.mul zb zb za,
   b6 Fp6.mul za t0 t1] ++
  Fp6C.mulGammaAdd t1 zb zb ++
  [b6 Fp6.sub za za t1,
   b6 Fp6.add zb zb zb]

/-- `Fp12T::Dbl::mul_Fp2_024C`, bn.h:1964-2036. -/
def mul024 (z x : Loc) : List Stmt :=
  let z0 := z
  let z1 := z.plus 2
  let z2 := z.plus 4
  let z3 := z.plus 6
  let z4 := z.plus 8
  let z5 := z.plus 10
  let x0 := x
  let x2 := x.plus 4
  let x4 := x.plus 2
  let t0 := lv 0
  let t1 := lv 2
  let t2 := lv 4
  let s0 := lv 6
  let T3 := lv 8
  let T4 := lv 10
  let D0 := lv 12
  let D2 := lv 14
  let D4 := lv 16
  let S1 := lv 18
  [b2 Fp2.mulOpt2 D0 z0 x0,
   b2 Fp2.mulOpt2 D2 z2 x2,
   b2 Fp2.mulOpt2 D4 z4 x4,
   b2 Fp2.add t2 z0 z4,
   b2 Fp2.add t1 z0 z2,
   b2 Fp2.add s0 z1 z3,
   b2 Fp2.add s0 s0 z5,
   b2 Fp2.mulOpt2 S1 z1 x2,
   b2 Fp2.dAdd T3 S1 D4] ++
  Fp2C.dMulXi T4 T3 ++
  [b2 Fp2.dAdd T4 T4 D0,
   u2 Fp2.dMod z0 T4,
   b2 Fp2.mulOpt2 T3 z5 x4,
   b2 Fp2.dAdd S1 S1 T3,
   b2 Fp2.dAdd T3 T3 D2] ++
  Fp2C.dMulXi T4 T3 ++
  [b2 Fp2.mulOpt2 T3 z1 x0,
   b2 Fp2.dAdd S1 S1 T3,
   b2 Fp2.dAdd T4 T4 T3,
   u2 Fp2.dMod z1 T4,
   b2 Fp2.add t0 x0 x2,
   b2 Fp2.mulOpt2 T3 t1 t0,
   b2 Fp2.dSub T3 T3 D0,
   b2 Fp2.dSub T3 T3 D2,
   b2 Fp2.mulOpt2 T4 z3 x4,
   b2 Fp2.dAdd S1 S1 T4,
   b2 Fp2.dAdd T3 T3 T4,
   b2 Fp2.add t0 z2 z4,
   u2 Fp2.dMod z2 T3,
   b2 Fp2.add t1 x2 x4,
   b2 Fp2.mulOpt2 T3 t0 t1,
   b2 Fp2.dSub T3 T3 D2,
   b2 Fp2.dSub T3 T3 D4] ++
  Fp2C.dMulXi T4 T3 ++
  [b2 Fp2.mulOpt2 T3 z3 x0,
   b2 Fp2.dAdd S1 S1 T3,
   b2 Fp2.dAdd T4 T4 T3,
   u2 Fp2.dMod z3 T4,
   b2 Fp2.mulOpt2 T3 z5 x2,
   b2 Fp2.dAdd S1 S1 T3] ++
  Fp2C.dMulXi T4 T3 ++
  [b2 Fp2.add t0 x0 x4,
   b2 Fp2.mulOpt2 T3 t2 t0,
   b2 Fp2.dSub T3 T3 D0,
   b2 Fp2.dSub T3 T3 D4,
   b2 Fp2.dAdd T4 T4 T3,
   u2 Fp2.dMod z4 T4,
   b2 Fp2.add t0 x0 x2,
   b2 Fp2.add t0 t0 x4,
   b2 Fp2.mulOpt2 T3 s0 t0,
   b2 Fp2.dSub T3 T3 S1,
   u2 Fp2.dMod z5 T3]

end Fp12C

namespace CompressC

/-- `Fp::_3z_add_2xC`, zm2.h:98-104 (its comment says 3z + 2x; it computes 2z + 3x). -/
def z3x2 (z x : Loc) : List Stmt := [b1 Fp.addNC z z x, b1 Fp.addNC z z z, b1 Fp.addNC z z x, u1 Fp.fastModp z z]

/-- `CompressT::squareC`, bn.h:2232-2298; `z` is the `Fp12` the object refers to. -/
def square (z : Loc) : List Stmt :=
  let g2 := z.plus 6
  let g3 := z.plus 4
  let g4 := z.plus 2
  let g5 := z.plus 10
  let t0 := lv 0
  let t1 := lv 2
  let t2 := lv 4
  let T0 := lv 6
  let T1 := lv 8
  let T2 := lv 10
  let T3 := lv 12
  [u2 Fp2.dSquare T0 g4,
   u2 Fp2.dSquare T1 g5] ++
  Fp2C.dMulXi T2 T1 ++
  [b2 Fp2.dAdd T2 T2 T0,
   u2 Fp2.dMod t2 T2,
   b2 Fp2.add t0 g4 g5,
   u2 Fp2.dSquare T2 t0,
   b2 Fp2.dAdd T0 T0 T1,
   b2 Fp2.dSub T2 T2 T0,
   u2 Fp2.dMod t0 T2,
   b2 Fp2.add t1 g2 g3,
   u2 Fp2.dSquare T3 t1,
   u2 Fp2.dSquare T2 g2] ++
  Fp2C.mulXi t1 t0 ++
  z3x2 g2 t1 ++ z3x2 (g2.plus 1) (t1.plus 1) ++
  [b2 Fp2.sub t1 t2 g3,
   b2 Fp2.add t1 t1 t1,
   u2 Fp2.dSquare T1 g3,
   b2 Fp2.add g3 t1 t2] ++
  Fp2C.dMulXi T0 T1 ++
  [b2 Fp2.dAdd T0 T0 T2,
   u2 Fp2.dMod t0 T0,
   b2 Fp2.sub g4 t0 g4,
   b2 Fp2.add g4 g4 g4,
   b2 Fp2.add g4 g4 t0,
   b2 Fp2.dAddNC T2 T2 T1,
   b2 Fp2.dSub T3 T3 T2,
   u2 Fp2.dMod t0 T3] ++
  z3x2 g5 t0 ++ z3x2 (g5.plus 1) (t0.plus 1)

/-- `CompressT::square_nC`, bn.h:2299-2304: `n` passes of the loop; a negative `int` counts as 0. -/
def squareN (z : Loc) : ℕ → List Stmt
  | 0 => []
  | n + 1 => square z ++ squareN z n

end CompressC

end Verif.Cpp
