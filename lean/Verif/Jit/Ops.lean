import Verif.Jit.Prims

/-! The tower functions of Tower/Raw.lean over arbitrary operations on numbers, with `std` those of Tower/Raw.lean. -/

namespace Verif
namespace Jit

namespace Q2

def add (O : Ops) (x y : R2) : R2 := ⟨O.add x.a y.a, O.add x.b y.b⟩
def sub (O : Ops) (x y : R2) : R2 := ⟨O.sub x.a y.a, O.sub x.b y.b⟩
def addNC (O : Ops) (x y : R2) : R2 := ⟨O.addNC x.a y.a, O.addNC x.b y.b⟩
def neg (O : Ops) (x : R2) : R2 := ⟨O.neg x.a, O.neg x.b⟩
def mulXi (O : Ops) (x : R2) : R2 := ⟨O.sub x.a x.b, O.add x.a x.b⟩
def divBy2 (O : Ops) (x : R2) : R2 := ⟨O.divBy2 x.a, O.divBy2 x.b⟩
def mulFp0 (O : Ops) (x : R2) (y : ℕ) : R2 := ⟨O.mul x.a y, O.mul x.b y⟩

def mul (O : Ops) (x y : R2) : R2 :=
  let s := O.addNC x.a x.b
  let t := O.addNC y.a y.b
  let d0 := O.dMul s t
  let d1 := O.dMul x.a y.a
  let d2 := O.dMul x.b y.b
  let d0 := O.dSubNC d0 d1
  let d0 := O.dSubNC d0 d2
  let d1 := O.dSub d1 d2
  ⟨O.dMod d1, O.dMod d0⟩

def square (O : Ops) (x : R2) : R2 :=
  let t := O.addNC x.b x.b
  let d0 := O.dMul t x.a
  let t := O.aps x.a x.b
  let za := O.addNC x.a x.b
  let d1 := O.dMul t za
  ⟨O.dMod d1, O.dMod d0⟩

def dAdd (O : Ops) (x y : R2) : R2 := ⟨O.dAdd x.a y.a, O.dAdd x.b y.b⟩
def dSub (O : Ops) (x y : R2) : R2 := ⟨O.dSub x.a y.a, O.dSub x.b y.b⟩
def dAddNC (O : Ops) (x y : R2) : R2 := ⟨O.dAddNC x.a y.a, O.dAddNC x.b y.b⟩
def dMulXi (O : Ops) (x : R2) : R2 := ⟨O.dSub x.a x.b, O.dAdd x.b x.a⟩
def mulOpt1 (O : Ops) (x y : R2) : R2 :=
  let s := O.addNC x.a x.b
  let t := O.addNC y.a y.b
  let d0 := O.dMul x.b y.b
  let za := O.dMul x.a y.a
  let zb := O.dMul s t
  let zb := O.dSubNC zb za
  let zb := O.dSubNC zb d0
  ⟨O.dSubOpt1 za d0, zb⟩
def mulOpt2 (O : Ops) (x y : R2) : R2 :=
  let s := O.addNC x.a x.b
  let t := O.addNC y.a y.b
  let d0 := O.dMul x.b y.b
  let za := O.dMul x.a y.a
  let zb := O.dMul s t
  let zb := O.dSubNC zb za
  let zb := O.dSubNC zb d0
  ⟨O.dSub za d0, zb⟩
def dSquare (O : Ops) (x : R2) : R2 :=
  let t0 := O.addNC x.b x.b
  let zb := O.dMul t0 x.a
  let t1 := O.aps x.a x.b
  let t0 := O.addNC x.a x.b
  ⟨O.dMul t0 t1, zb⟩
def dMod (O : Ops) (x : R2) : R2 := ⟨O.dMod x.a, O.dMod x.b⟩

end Q2

namespace Q6

def add (O : Ops) (x y : R6) : R6 := ⟨Q2.add O x.a y.a, Q2.add O x.b y.b, Q2.add O x.c y.c⟩
def sub (O : Ops) (x y : R6) : R6 := ⟨Q2.sub O x.a y.a, Q2.sub O x.b y.b, Q2.sub O x.c y.c⟩

def dMul (O : Ops) (x y : R6) : R6 :=
  let T0 := Q2.mulOpt1 O x.a y.a
  let T1 := Q2.mulOpt1 O x.b y.b
  let T2 := Q2.mulOpt1 O x.c y.c
  let t0 := Q2.addNC O x.b x.c
  let t1 := Q2.addNC O y.b y.c
  let zc := Q2.mulOpt2 O t0 t1
  let zb := Q2.dAddNC O T1 T2
  let zc : R2 := ⟨O.dSub zc.a zb.a, O.dSubNC zc.b zb.b⟩
  let zb := Q2.dMulXi O zc
  let za := Q2.dAdd O zb T0
  let t0 := Q2.addNC O x.a x.b
  let t1 := Q2.addNC O y.a y.b
  let zc := Q2.mulOpt2 O t0 t1
  let zb := Q2.dAddNC O T0 T1
  let zc : R2 := ⟨O.dSub zc.a zb.a, O.dSubNC zc.b zb.b⟩
  let zb : R2 := ⟨O.dSubOpt1 T2.a T2.b, O.dAdd T2.a T2.b⟩
  let zb := Q2.dAdd O zb zc
  let t0 := Q2.addNC O x.a x.c
  let t1 := Q2.addNC O y.a y.c
  let zc := Q2.mulOpt2 O t0 t1
  let T2 := Q2.dAddNC O T2 T0
  let zca := O.dSub zc.a T2.a
  let zca := O.dAdd zca T1.a
  let zcb := O.dSubNC zc.b T2.b
  let zcb := O.dAddNC zcb T1.b
  ⟨za, zb, ⟨zca, zcb⟩⟩

def dAdd (O : Ops) (x y : R6) : R6 := ⟨Q2.dAdd O x.a y.a, Q2.dAdd O x.b y.b, Q2.dAdd O x.c y.c⟩
def dSub (O : Ops) (x y : R6) : R6 := ⟨Q2.dSub O x.a y.a, Q2.dSub O x.b y.b, Q2.dSub O x.c y.c⟩
def dMod (O : Ops) (x : R6) : R6 := ⟨Q2.dMod O x.a, Q2.dMod O x.b, Q2.dMod O x.c⟩
def mul (O : Ops) (x y : R6) : R6 := dMod O (dMul O x y)

def mulGammaAdd (O : Ops) (x y : R6) : R6 :=
  ⟨Q2.add O (Q2.mulXi O x.c) y.a, Q2.add O x.a y.b, Q2.add O x.b y.c⟩
def dMulGammaAdd (O : Ops) (x y : R6) : R6 :=
  ⟨Q2.dAdd O (Q2.dMulXi O x.c) y.a, Q2.dAdd O x.a y.b, Q2.dAdd O x.b y.c⟩

end Q6

namespace Q12

def mul (O : Ops) (x y : R12) : R12 :=
  let T0 := Q6.dMul O x.a y.a
  let T1 := Q6.dMul O x.b y.b
  let t0 := Q6.add O x.a x.b
  let t1 := Q6.add O y.a y.b
  let za := Q6.dMul O t0 t1
  let T2 := Q6.dAdd O T0 T1
  let zb := Q6.dSub O za T2
  let za := Q6.dMulGammaAdd O T1 T0
  ⟨Q6.dMod O za, Q6.dMod O zb⟩

def square (O : Ops) (z : R12) : R12 :=
  let t0 := Q6.add O z.a z.b
  let t1 := Q6.mulGammaAdd O z.b z.a
  let zb := Q6.mul O z.b z.a
  let za := Q6.mul O t0 t1
  let t1 := Q6.mulGammaAdd O zb zb
  ⟨Q6.sub O za t1, Q6.add O zb zb⟩

def mul024 (O : Ops) (z : R12) (x : R6) : R12 :=
  let D0 := Q2.mulOpt2 O z.a.a x.a
  let D2 := Q2.mulOpt2 O z.a.c x.c
  let D4 := Q2.mulOpt2 O z.b.b x.b
  let t2 := Q2.add O z.a.a z.b.b
  let t1 := Q2.add O z.a.a z.a.c
  let s0 := Q2.add O z.a.b z.b.a
  let s0 := Q2.add O s0 z.b.c
  let S1 := Q2.mulOpt2 O z.a.b x.c
  let T3 := Q2.dAdd O S1 D4
  let T4 := Q2.dMulXi O T3
  let T4 := Q2.dAdd O T4 D0
  let z0 := Q2.dMod O T4
  let T3 := Q2.mulOpt2 O z.b.c x.b
  let S1 := Q2.dAdd O S1 T3
  let T3 := Q2.dAdd O T3 D2
  let T4 := Q2.dMulXi O T3
  let T3 := Q2.mulOpt2 O z.a.b x.a
  let S1 := Q2.dAdd O S1 T3
  let T4 := Q2.dAdd O T4 T3
  let z1 := Q2.dMod O T4
  let t0 := Q2.add O x.a x.c
  let T3 := Q2.mulOpt2 O t1 t0
  let T3 := Q2.dSub O T3 D0
  let T3 := Q2.dSub O T3 D2
  let T4 := Q2.mulOpt2 O z.b.a x.b
  let S1 := Q2.dAdd O S1 T4
  let T3 := Q2.dAdd O T3 T4
  let t0 := Q2.add O z.a.c z.b.b
  let z2 := Q2.dMod O T3
  let t1 := Q2.add O x.c x.b
  let T3 := Q2.mulOpt2 O t0 t1
  let T3 := Q2.dSub O T3 D2
  let T3 := Q2.dSub O T3 D4
  let T4 := Q2.dMulXi O T3
  let T3 := Q2.mulOpt2 O z.b.a x.a
  let S1 := Q2.dAdd O S1 T3
  let T4 := Q2.dAdd O T4 T3
  let z3 := Q2.dMod O T4
  let T3 := Q2.mulOpt2 O z.b.c x.c
  let S1 := Q2.dAdd O S1 T3
  let T4 := Q2.dMulXi O T3
  let t0 := Q2.add O x.a x.b
  let T3 := Q2.mulOpt2 O t2 t0
  let T3 := Q2.dSub O T3 D0
  let T3 := Q2.dSub O T3 D4
  let T4 := Q2.dAdd O T4 T3
  let z4 := Q2.dMod O T4
  let t0 := Q2.add O x.a x.c
  let t0 := Q2.add O t0 x.b
  let T3 := Q2.mulOpt2 O s0 t0
  let T3 := Q2.dSub O T3 S1
  let z5 := Q2.dMod O T3
  ⟨⟨z0, z1, z2⟩, ⟨z3, z4, z5⟩⟩

end Q12

def Q2.add2z3x (O : Ops) (z x : R2) : R2 := ⟨O.add2z3x z.a x.a, O.add2z3x z.b x.b⟩
def tCompSquare (O : Ops) (z : RC) : RC :=
  let T0 := Q2.dSquare O z.g4
  let T1 := Q2.dSquare O z.g5
  let T2 := Q2.dMulXi O T1
  let T2 := Q2.dAdd O T2 T0
  let t2 := Q2.dMod O T2
  let t0 := Q2.add O z.g4 z.g5
  let T2 := Q2.dSquare O t0
  let T0 := Q2.dAdd O T0 T1
  let T2 := Q2.dSub O T2 T0
  let t0 := Q2.dMod O T2
  let t1 := Q2.add O z.g2 z.g3
  let T3 := Q2.dSquare O t1
  let T2 := Q2.dSquare O z.g2
  let t1 := Q2.mulXi O t0
  let g2 := Q2.add2z3x O z.g2 t1
  let t1 := Q2.sub O t2 z.g3
  let t1 := Q2.add O t1 t1
  let T1 := Q2.dSquare O z.g3
  let g3 := Q2.add O t1 t2
  let T0 := Q2.dMulXi O T1
  let T0 := Q2.dAdd O T0 T2
  let t0 := Q2.dMod O T0
  let g4 : R2 := ⟨O.g4 t0.a z.g4.a, O.g4 t0.b z.g4.b⟩
  let T2 := Q2.dAddNC O T2 T1
  let T3 := Q2.dSub O T3 T2
  let t0 := Q2.dMod O T3
  let g5 := Q2.add2z3x O z.g5 t0
  ⟨g2, g3, g4, g5⟩

def tPointDblLineEvalWithoutP (O : Ops) (X Y Z : R2) : LineR :=
  let t0 := Q2.square O Z
  let t4 := Q2.mul O X Y
  let t1 := Q2.square O Y
  let t3 := Q2.add O t0 t0
  let t4 := Q2.divBy2 O t4
  let t5 := Q2.add O t0 t1
  let t0 := Q2.add O t0 t3
  let t2 : R2 := ⟨O.add t0.a t0.b, O.sub t0.b t0.a⟩
  let t0 := Q2.square O X
  let t3 := Q2.add O t2 t2
  let t3 := Q2.add O t3 t2
  let lc := Q2.addNC O t0 t0
  let X' := Q2.sub O t1 t3
  let lc := Q2.addNC O lc t0
  let t3 := Q2.add O t3 t1
  let X' := Q2.mul O X' t4
  let t3 := Q2.divBy2 O t3
  let T0 := Q2.dSquare O t3
  let T1 := Q2.dSquare O t2
  let T2 := Q2.dAddNC O T1 T1
  let t3 := Q2.add O Y Z
  let T2 := Q2.dAddNC O T2 T1
  let t3 := Q2.square O t3
  let t3 := Q2.sub O t3 t5
  let T0 := Q2.dSub O T0 T2
  let Y' := Q2.dMod O T0
  let Z' := Q2.mul O t1 t3
  let t2 := Q2.sub O t2 t1
  let la := Q2.mulXi O t2
  let lb := Q2.neg O t3
  ⟨⟨la, lb, lc⟩, X', Y', Z'⟩

def tMulFp6_24_Fp_01 (O : Ops) (l : R6) (px py : ℕ) : R6 :=
  ⟨l.a, Q2.mulFp0 O l.b py, Q2.mulFp0 O l.c px⟩

def tPointDblLineEval (O : Ops) (X Y Z : R2) (px py : ℕ) : LineR :=
  let e := tPointDblLineEvalWithoutP O X Y Z
  { e with l := tMulFp6_24_Fp_01 O e.l px py }


theorem std_Q2_add : Q2.add std = Verif.Fp2.add := rfl
theorem std_Q2_sub : Q2.sub std = Verif.Fp2.sub := rfl
theorem std_Q2_addNC : Q2.addNC std = Verif.Fp2.addNC := rfl
theorem std_Q2_neg : Q2.neg std = Verif.Fp2.neg := rfl
theorem std_Q2_mulXi : Q2.mulXi std = Verif.Fp2.mulXi := rfl
theorem std_Q2_divBy2 : Q2.divBy2 std = Verif.Fp2.divBy2 := rfl
theorem std_Q2_mulFp0 : Q2.mulFp0 std = Verif.Fp2.mulFp0 := rfl
theorem std_Q2_mul : Q2.mul std = Verif.Fp2.mul := rfl
theorem std_Q2_square : Q2.square std = Verif.Fp2.square := rfl
theorem std_Q2_dAdd : Q2.dAdd std = Verif.Fp2.dAdd := rfl
theorem std_Q2_dSub : Q2.dSub std = Verif.Fp2.dSub := rfl
theorem std_Q2_dAddNC : Q2.dAddNC std = Verif.Fp2.dAddNC := rfl
theorem std_Q2_dMulXi : Q2.dMulXi std = Verif.Fp2.dMulXi := rfl
theorem std_Q2_mulOpt1 : Q2.mulOpt1 std = Verif.Fp2.mulOpt1 := rfl
theorem std_Q2_mulOpt2 : Q2.mulOpt2 std = Verif.Fp2.mulOpt2 := rfl
theorem std_Q2_dSquare : Q2.dSquare std = Verif.Fp2.dSquare := rfl
theorem std_Q2_dMod : Q2.dMod std = Verif.Fp2.dMod := rfl
theorem std_Q6_add : Q6.add std = Verif.Fp6.add := rfl
theorem std_Q6_sub : Q6.sub std = Verif.Fp6.sub := rfl
theorem std_Q6_dMul : Q6.dMul std = Verif.Fp6.dMul := rfl
theorem std_Q6_dAdd : Q6.dAdd std = Verif.Fp6.dAdd := rfl
theorem std_Q6_dSub : Q6.dSub std = Verif.Fp6.dSub := rfl
theorem std_Q6_dMod : Q6.dMod std = Verif.Fp6.dMod := rfl
theorem std_Q6_mul : Q6.mul std = Verif.Fp6.mul := rfl
theorem std_Q6_mulGammaAdd : Q6.mulGammaAdd std = Verif.Fp6.mulGammaAdd := rfl
theorem std_Q6_dMulGammaAdd : Q6.dMulGammaAdd std = Verif.Fp6.dMulGammaAdd := rfl
theorem std_Q12_mul : Q12.mul std = Verif.Fp12.mul := rfl
theorem std_Q12_square : Q12.square std = Verif.Fp12.square := rfl
theorem std_Q12_mul024 : Q12.mul024 std = Verif.Fp12.mul024 := rfl
theorem std_Q2_add2z3x : Q2.add2z3x std = Verif.Fp2.add2z3x := rfl
theorem std_tCompSquare : tCompSquare std = Verif.compSquare := rfl
theorem std_tPointDblLineEvalWithoutP : tPointDblLineEvalWithoutP std = Verif.pointDblLineEvalWithoutP := rfl
theorem std_tMulFp6_24_Fp_01 : tMulFp6_24_Fp_01 std = Verif.mulFp6_24_Fp_01 := rfl
theorem std_tPointDblLineEval : tPointDblLineEval std = Verif.pointDblLineEval := rfl

end Jit
end Verif
