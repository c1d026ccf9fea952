import Verif.Cpp.Code
import Verif.Tower.Cyclo

/-!
The routines of include/bn.h above the function pointers as calls on objects in memory (see Lang.lean).  In the
second part a cell is one `Fp` with a canonical buffer; a called routine is the function of values proved for it elsewhere (C20-C35, C53, C57-C64,
or a theorem of Props/Tmpl.lean).
-/

namespace Verif.Cpp

/-! ### Routines on buffers -/

/-- `Fp2 Q[2]` -/
def o4 : Obj (R2 × R2) := ⟨4, fun q => Jit.l2 q.1 ++ Jit.l2 q.2, fun m l => (m.r2 l, m.r2 (l.plus 2)), fun _ => rfl, fun _ _ => rfl⟩

/-- `Fp6T::pointAddLineEvalWithoutP(l, R, Q)`, bn.h:1094-1141.  Locals t1, t2, t3, t4, T1, T2. -/
def Fp6C.pointAddLineEvalWithoutP (l R Q : Loc) : List Stmt :=
  let R0 := R; let R1 := R.plus 2; let R2 := R.plus 4; let Q0 := Q; let Q1 := Q.plus 2
  let t1 := lv 0; let t2 := lv 2; let t3 := lv 4; let t4 := lv 6; let T1 := lv 8; let T2 := lv 10
  [b2 Fp2.mul t1 R2 Q0,
   b2 Fp2.mul t2 R2 Q1,
   b2 Fp2.sub t1 R0 t1,
   b2 Fp2.sub t2 R1 t2,
   u2 Fp2.square t3 t1,
   b2 Fp2.mul R0 t3 R0,
   u2 Fp2.square t4 t2,
   b2 Fp2.mul t3 t3 t1,
   b2 Fp2.mul t4 t4 R2,
   b2 Fp2.add t4 t4 t3,
   b2 Fp2.sub t4 t4 R0,
   b2 Fp2.sub t4 t4 R0,
   b2 Fp2.sub R0 R0 t4,
   b2 Fp2.mulOpt1 T1 t2 R0,
   b2 Fp2.mulOpt1 T2 t3 R1,
   b2 Fp2.dSub T2 T1 T2,
   u2 Fp2.dMod R1 T2,
   b2 Fp2.mul R0 t1 t4,
   b2 Fp2.mul R2 t3 R2,
   u2 Fp2.neg (l.plus 4) t2,
   b2 Fp2.mulOpt1 T1 t2 Q0,
   b2 Fp2.mulOpt1 T2 t1 Q1,
   b2 Fp2.dSub T1 T1 T2,
   u2 Fp2.dMod t2 T1,
   u2 Fp2.mulXi l t2,
   cp2 (l.plus 2) t1]
/-- `Fp6T::pointAddLineEval(l, R, Q, P)`, bn.h:1142-1147 -/
def Fp6C.pointAddLineEval (l R Q P : Loc) : List Stmt :=
  Fp6C.pointAddLineEvalWithoutP l R Q ++ Fp6C.mulFp6_24_Fp_01 l P

/-- `Fp12T::sq_Fp4UseDbl(z0, z1, x0, x1)`, bn.h:1509-1523.  Locals T0, T1, T2. -/
def Fp12C.sqFp4 (z0 z1 x0 x1 : Loc) : List Stmt :=
  let T0 := lv 0; let T1 := lv 2; let T2 := lv 4
  [u2 Fp2.dSquare T0 x0,
   u2 Fp2.dSquare T1 x1,
   u2 Fp2.dMulXi T2 T1,
   b2 Fp2.dAdd T2 T2 T0,
   b2 Fp2.add z1 x0 x1,
   u2 Fp2.dMod z0 T2,
   u2 Fp2.dSquare T2 z1,
   b2 Fp2.dSub T2 T2 T0,
   b2 Fp2.dSub T2 T2 T1,
   u2 Fp2.dMod z1 T2]

/-- `Fp12T::Dbl::mul_Fp2_024_Fp2_024(z, cv2, cv3)`, bn.h:2065-2110.  Locals T00, T22, T44, T02, T24, T40. -/
def Fp12C.mul024_024 (z x y : Loc) : List Stmt :=
  let z0 := z; let z1 := z.plus 2; let z2 := z.plus 4; let z3 := z.plus 6; let z4 := z.plus 8; let z5 := z.plus 10
  let x0 := x; let x4 := x.plus 2; let x2 := x.plus 4
  let y0 := y; let y4 := y.plus 2; let y2 := y.plus 4
  let T00 := lv 0; let T22 := lv 2; let T44 := lv 4; let T02 := lv 6; let T24 := lv 8; let T40 := lv 10
  [b2 Fp2.mulOpt2 T00 x0 y0,
   b2 Fp2.mulOpt2 T22 x2 y2,
   b2 Fp2.mulOpt2 T44 x4 y4,
   b2 Fp2.add z0 x0 x2,
   b2 Fp2.add z1 y0 y2,
   b2 Fp2.mulOpt2 T02 z0 z1,
   b2 Fp2.dSub T02 T02 T00,
   b2 Fp2.dSub T02 T02 T22,
   u2 Fp2.dMod z2 T02,
   b2 Fp2.add z0 x2 x4,
   b2 Fp2.add z1 y2 y4,
   b2 Fp2.mulOpt2 T24 z0 z1,
   b2 Fp2.dSub T24 T24 T22,
   b2 Fp2.dSub T24 T24 T44,
   u2 Fp2.dMulXi T02 T24,
   u2 Fp2.dMod z3 T02,
   b2 Fp2.add z0 x4 x0,
   b2 Fp2.add z1 y4 y0,
   b2 Fp2.mulOpt2 T40 z0 z1,
   b2 Fp2.dSub T40 T40 T00,
   b2 Fp2.dSub T40 T40 T44,
   u2 Fp2.dMod z4 T40,
   u2 Fp2.dMulXi T02 T22,
   u2 Fp2.dMod z1 T02,
   u2 Fp2.dMulXi T02 T44,
   b2 Fp2.dAdd T02 T02 T00,
   u2 Fp2.dMod z0 T02,
   u2 (fun _ => ⟨0, 0⟩) z5 z5]

/-! ### Routines on canonical elements -/

instance : Inhabited Fe := ⟨0⟩

/-- contents of memory -/
abbrev FMem := MemV Fe
/-- a call -/
abbrev FStmt := StmtV Fe

/-- the object at position k of the cells read -/
def g2 (v : List Fe) (k : ℕ) : F2 := ⟨v.getD k 0, v.getD (k + 1) 0⟩
def g6 (v : List Fe) (k : ℕ) : F6 := ⟨g2 v k, g2 v (k + 2), g2 v (k + 4)⟩
def g12 (v : List Fe) (k : ℕ) : F12 := ⟨g6 v k, g6 v (k + 6)⟩
/-- the cells of an object: `Fp2` bn.h:329, `Fp6` bn.h:828, `Fp12` bn.h:1366 -/
def e2 (x : F2) : List Fe := [x.a, x.b]
def e6 (x : F6) : List Fe := e2 x.a ++ e2 x.b ++ e2 x.c
def e12 (x : F12) : List Fe := e6 x.a ++ e6 x.b
/-- the object at l -/
def MemV.f2 (m : MemV Fe) (l : Loc) : F2 := ⟨m l, m (l.plus 1)⟩
def MemV.f6 (m : MemV Fe) (l : Loc) : F6 := ⟨MemV.f2 m l, MemV.f2 m (l.plus 2), MemV.f2 m (l.plus 4)⟩
def MemV.f12 (m : MemV Fe) (l : Loc) : F12 := ⟨MemV.f6 m l, MemV.f6 m (l.plus 6)⟩

def k1 : ObjV Fe Fe := ⟨1, fun a => [a], fun m l => m l, fun _ => rfl, fun _ _ => rfl⟩
def k2 : ObjV Fe F2 := ⟨2, e2, MemV.f2, fun _ => rfl, fun _ _ => rfl⟩
def k6 : ObjV Fe F6 := ⟨6, e6, MemV.f6, fun _ => rfl, fun _ _ => rfl⟩
def k12 : ObjV Fe F12 := ⟨12, e12, MemV.f12, fun _ => rfl, fun _ _ => rfl⟩

/-- `f(z, x)`, `f(z, x, y)` for `Fp` -/
def p1 (f : Fe → Fe) (z x : Loc) : FStmt := ⟨[z], [x], fun v => [f (v.getD 0 0)]⟩
def q1 (f : Fe → Fe → Fe) (z x y : Loc) : FStmt := ⟨[z], [x, y], fun v => [f (v.getD 0 0) (v.getD 1 0)]⟩
/-- for `Fp2` -/
def p2 (f : F2 → F2) (z x : Loc) : FStmt := ⟨cells z 2, cells x 2, fun v => e2 (f (g2 v 0))⟩
def q2 (f : F2 → F2 → F2) (z x y : Loc) : FStmt := ⟨cells z 2, cells x 2 ++ cells y 2, fun v => e2 (f (g2 v 0) (g2 v 2))⟩
/-- for `Fp6` -/
def p6 (f : F6 → F6) (z x : Loc) : FStmt := ⟨cells z 6, cells x 6, fun v => e6 (f (g6 v 0))⟩
def q6 (f : F6 → F6 → F6) (z x y : Loc) : FStmt := ⟨cells z 6, cells x 6 ++ cells y 6, fun v => e6 (f (g6 v 0) (g6 v 6))⟩
/-- for `Fp12` -/
def p12 (f : F12 → F12) (z x : Loc) : FStmt := ⟨cells z 12, cells x 12, fun v => e12 (f (g12 v 0))⟩
def q12 (f : F12 → F12 → F12) (z x y : Loc) : FStmt :=
  ⟨cells z 12, cells x 12 ++ cells y 12, fun v => e12 (f (g12 v 0) (g12 v 12))⟩
/-- `z = x` -/
def c1 (z x : Loc) : FStmt := p1 (fun v => v) z x
def c2 (z x : Loc) : FStmt := p2 (fun v => v) z x
def c6 (z x : Loc) : FStmt := p6 (fun v => v) z x
def c12 (z x : Loc) : FStmt := p12 (fun v => v) z x

/-- local variables: cell i of object 0 -/
def loc (i : ℕ) : Loc := ⟨0, i⟩

namespace Tm

/-- `Fp2T::inverse`, bn.h:505-514.  Locals t, aa. -/
def inv2 (z : Loc) : List FStmt :=
  [q1 (· * ·) (loc 0) (z.plus 1) (z.plus 1),
   q1 (· * ·) (loc 1) z z,
   q1 (· + ·) (loc 0) (loc 0) (loc 1),
   p1 (·⁻¹) (loc 0) (loc 0),
   q1 (· * ·) z z (loc 0),
   p1 (-·) (z.plus 1) (z.plus 1),
   q1 (· * ·) (z.plus 1) (z.plus 1) (loc 0)]

/-- `Fp6T::square`, bn.h:914-934.  Locals v3, v4, v5. -/
def sq6 (z x : Loc) : List FStmt :=
  let a := x; let b := x.plus 2; let c := x.plus 4
  let za := z; let zb := z.plus 2; let zc := z.plus 4
  let v3 := loc 0; let v4 := loc 2; let v5 := loc 4
  [q2 (· + ·) v4 a a,
   q2 (· * ·) v4 v4 b,
   p2 F2.square v5 c,
   p2 F2.mulXi zb v5,
   q2 (· + ·) zb zb v4,
   q2 (· - ·) zc v4 v5,
   p2 F2.square v3 a,
   q2 (· - ·) v4 a b,
   q2 (· + ·) v4 v4 c,
   q2 (· + ·) v5 b b,
   q2 (· * ·) v5 v5 c,
   p2 F2.square v4 v4,
   p2 F2.mulXi za v5,
   q2 (· + ·) za za v3,
   q2 (· + ·) zc zc v4,
   q2 (· + ·) zc zc v5,
   q2 (· - ·) zc zc v3]

/-- `Fp6T::inverse`, bn.h:937-964.  Locals z (six cells), t0, t1, t2, t4, t5. -/
def inv6 (x : Loc) : List FStmt :=
  let a := x; let b := x.plus 2; let c := x.plus 4
  let za := loc 0; let zb := loc 2; let zc := loc 4
  let t0 := loc 6; let t1 := loc 8; let t2 := loc 10; let t4 := loc 12; let t5 := loc 14
  [q2 (· * ·) t0 b c,
   p2 F2.mulXi za t0,
   p2 F2.square t0 a,
   q2 (· - ·) za t0 za,
   p2 F2.square t1 b,
   q2 (· * ·) t5 a c,
   q2 (· - ·) zc t1 t5,
   p2 F2.square t2 c,
   q2 (· * ·) t4 a b,
   p2 F2.mulXi zb t2,
   q2 (· - ·) zb zb t4,
   q2 (· * ·) t1 a za,
   q2 (· * ·) t5 c zb,
   p2 F2.mulXi t4 t5,
   q2 (· + ·) t1 t1 t4,
   q2 (· * ·) t5 b zc,
   p2 F2.mulXi t4 t5,
   q2 (· + ·) t1 t1 t4,
   p2 (·⁻¹) t1 t1,
   q2 (· * ·) a za t1,
   q2 (· * ·) b zb t1,
   q2 (· * ·) c zc t1]

/-- `Fp12T::inverse`, bn.h:1620-1634.  Locals tmp0, tmp1, tmp2. -/
def inv12 (x : Loc) : List FStmt :=
  let a := x; let b := x.plus 6
  let t0 := loc 0; let t1 := loc 6; let t2 := loc 12
  [p6 F6.square t0 a,
   p6 F6.square t1 b,
   p2 F2.mulXi t2 (t1.plus 4),
   q2 (· - ·) t0 t0 t2,
   q2 (· - ·) (t0.plus 2) (t0.plus 2) t1,
   q2 (· - ·) (t0.plus 4) (t0.plus 4) (t1.plus 2),
   p6 (·⁻¹) t0 t0,
   q6 (· * ·) a a t0,
   q6 (· * ·) b b t0,
   p6 (-·) b b]

/-- the call `sq_Fp4UseDbl(z0, z1, x0, x1)`, bn.h:1509-1523 (`C73_sqFp4`) -/
def sqFp4 (z0 z1 x0 x1 : Loc) : FStmt :=
  ⟨cells z0 2 ++ cells z1 2, cells x0 2 ++ cells x1 2,
   fun v => e2 (F2.sqFp4 (g2 v 0) (g2 v 2)).1 ++ e2 (F2.sqFp4 (g2 v 0) (g2 v 2)).2⟩

/-- `Fp12T::sqru()`, bn.h:1561-1608.  Locals t0, t1, t2, t3. -/
def sqru (z : Loc) : List FStmt :=
  let z0 := z; let z4 := z.plus 2; let z3 := z.plus 4
  let z2 := z.plus 6; let z1 := z.plus 8; let z5 := z.plus 10
  let t0 := loc 0; let t1 := loc 2; let t2 := loc 4; let t3 := loc 6
  [sqFp4 t0 t1 z0 z1,
   q2 (· - ·) z0 t0 z0,
   q2 (· + ·) z0 z0 z0,
   q2 (· + ·) z0 z0 t0,
   q2 (· + ·) z1 t1 z1,
   q2 (· + ·) z1 z1 z1,
   q2 (· + ·) z1 z1 t1,
   sqFp4 t0 t1 z2 z3,
   sqFp4 t2 t3 z4 z5,
   q2 (· - ·) z4 t0 z4,
   q2 (· + ·) z4 z4 z4,
   q2 (· + ·) z4 z4 t0,
   q2 (· + ·) z5 t1 z5,
   q2 (· + ·) z5 z5 z5,
   q2 (· + ·) z5 z5 t1,
   p2 F2.mulXi t0 t3,
   q2 (· + ·) z2 t0 z2,
   q2 (· + ·) z2 z2 z2,
   q2 (· + ·) z2 z2 t0,
   q2 (· - ·) z3 t2 z3,
   q2 (· + ·) z3 z3 z3,
   q2 (· + ·) z3 z3 t2]

/-- `Fp12T::sqru(zz)`, bn.h:1613-1617 -/
def sqruTo (zz x : Loc) : List FStmt := [c12 zz x, p12 F12.sqru zz zz]

/-- the copies of the real parts, bn.h:1643-1650 and 1702-1707 -/
def copyRe (z x : Loc) : List FStmt :=
  [c1 z x, c1 (z.plus 2) (x.plus 2), c1 (z.plus 4) (x.plus 4), c1 (z.plus 6) (x.plus 6), c1 (z.plus 8) (x.plus 8),
   c1 (z.plus 10) (x.plus 10)]
/-- the negations of the imaginary parts, bn.h:1651-1656 and 1708-1713 -/
def negIm (z x : Loc) : List FStmt :=
  [p1 (-·) (z.plus 1) (x.plus 1), p1 (-·) (z.plus 3) (x.plus 3), p1 (-·) (z.plus 5) (x.plus 5),
   p1 (-·) (z.plus 7) (x.plus 7), p1 (-·) (z.plus 9) (x.plus 9), p1 (-·) (z.plus 11) (x.plus 11)]

/-- the part of `Frobenius` after the copies, bn.h:1651-1667 -/
def frobTail (z x : Loc) : List FStmt :=
  negIm z x ++
  [p2 (fun v => v.mulFp1 (Param.gammar 1).b) (z.plus 2) (z.plus 2),
   p2 (fun v => v.mulFp0 (Param.gammar 3).a) (z.plus 4) (z.plus 4),
   p2 (fun v => v * Param.gammar 0) (z.plus 6) (z.plus 6),
   p2 (fun v => v * Param.gammar 2) (z.plus 8) (z.plus 8),
   p2 (fun v => v * Param.gammar 4) (z.plus 10) (z.plus 10)]
/-- `Fp12T::Frobenius(z)`, bn.h:1640-1667 (x is *this); the copies are made `if (&z != this)` -/
def frob (z x : Loc) : List FStmt := bif z.beq x then frobTail z x else copyRe z x ++ frobTail z x

/-- the part of `Frobenius2` after the first copy, bn.h:1687-1692 -/
def frob2Tail (z x : Loc) : List FStmt :=
  [c2 z x,
   p2 (fun v => v.mulFp0 (Param.gammar2 1).a) (z.plus 2) (x.plus 2),
   p2 (fun v => v.mulFp0 (Param.gammar2 3).a) (z.plus 4) (x.plus 4),
   p2 (fun v => v.mulFp0 (Param.gammar2 0).a) (z.plus 6) (x.plus 6),
   p2 (fun v => v.mulFp0 (Param.gammar2 2).a) (z.plus 8) (x.plus 8),
   p2 (fun v => v.mulFp0 (Param.gammar2 4).a) (z.plus 10) (x.plus 10)]
/-- `Fp12T::Frobenius2(z)`, bn.h:1678-1694 (x is *this) -/
def frob2 (z x : Loc) : List FStmt := bif z.beq x then frob2Tail z x else c2 z x :: frob2Tail z x

/-- `Fp12T::Frobenius3(z)`, bn.h:1696-1726 (x is *this) -/
def frob3 (z x : Loc) : List FStmt :=
  copyRe z x ++ negIm z x ++
  [p2 F2.mulX (z.plus 2) (z.plus 2),
   p2 (fun v => v.mulFp0 (Param.gammar3 3).a) (z.plus 4) (z.plus 4),
   p2 (fun v => v * Param.gammar3 0) (z.plus 6) (z.plus 6),
   p2 (fun v => v * Param.gammar3 2) (z.plus 8) (z.plus 8),
   p2 (fun v => v * Param.gammar3 4) (z.plus 10) (z.plus 10)]

/-- `Fp12T::mapToCyclo(z)`, bn.h:1731-1744 (x is *this) -/
def mapToCyclo (z x : Loc) : List FStmt :=
  [c6 z x,
   p6 (-·) (z.plus 6) (x.plus 6),
   p12 (·⁻¹) x x,
   q12 (· * ·) z z x,
   p12 F12.frobenius2 x z,
   q12 (· * ·) z z x]

/-- the members `g2_, g3_, g4_, g5_` of a `CompressT` on the `Fp12` at z, bn.h:2136-2157 -/
def members (z : Loc) : List Loc := cells (z.plus 6) 2 ++ cells (z.plus 4) 2 ++ cells (z.plus 2) 2 ++ cells (z.plus 10) 2
def gC (v : List Fe) : Cp := ⟨g2 v 0, g2 v 2, g2 v 4, g2 v 6⟩
def eC (c : Cp) : List Fe := e2 c.g2 ++ e2 c.g3 ++ e2 c.g4 ++ e2 c.g5
/-- the object -/
def getC (m : FMem) (z : Loc) : Cp := ⟨m.f2 (z.plus 6), m.f2 (z.plus 4), m.f2 (z.plus 2), m.f2 (z.plus 10)⟩

/-- `CompressT(z, x)`, bn.h:2145-2157; from another `CompressT` the same with the `Fp12` it refers to, 2158-2170 -/
def ctor (z x : Loc) : List FStmt :=
  [c2 (z.plus 6) (x.plus 6), c2 (z.plus 4) (x.plus 4), c2 (z.plus 2) (x.plus 2), c2 (z.plus 10) (x.plus 10)]

/-- the two branches of `decompressBeforeInv`, bn.h:2179-2199.  Local t. -/
def beforeZero (nume denomi z : Loc) : List FStmt :=
  let g3 := z.plus 4; let g4 := z.plus 2; let g5 := z.plus 10
  [q2 (· + ·) nume g4 g4,
   q2 (· * ·) nume nume g5,
   c2 denomi g3]
def beforeElse (nume denomi z : Loc) : List FStmt :=
  let g2 := z.plus 6; let g3 := z.plus 4; let g4 := z.plus 2; let g5 := z.plus 10
  let t := loc 0
  [p2 F2.square nume g5,
   p2 F2.mulXi denomi nume,
   p2 F2.square nume g4,
   q2 (· - ·) t nume g3,
   q2 (· + ·) t t t,
   q2 (· + ·) t t nume,
   q2 (· + ·) nume denomi t,
   p2 F2.divBy4 nume nume,
   c2 denomi g2]
/-- `decompressBeforeInv`: the branch is taken on the memory at entry -/
def beforeInv (m : FMem) (nume denomi z : Loc) : List FStmt :=
  if (m.f2 (z.plus 6)).isZero then beforeZero nume denomi z else beforeElse nume denomi z

/-- `decompressAfterInv`, bn.h:2202-2217.  Locals t0, t1. -/
def afterInv (z : Loc) : List FStmt :=
  let g0 := z; let g1 := z.plus 8; let g2 := z.plus 6; let g3 := z.plus 4; let g4 := z.plus 2; let g5 := z.plus 10
  let t0 := loc 0; let t1 := loc 2
  [p2 F2.square t0 g1,
   q2 (· * ·) t1 g3 g4,
   q2 (· - ·) t0 t0 t1,
   q2 (· + ·) t0 t0 t0,
   q2 (· - ·) t0 t0 t1,
   q2 (· * ·) t1 g2 g5,
   q2 (· + ·) t0 t0 t1,
   p2 F2.mulXi g0 t0,
   p1 (· + 1) g0 g0]

/-- the call `CompressT::square_n(c, n)`, C63 and C53 -/
def squareN (z : Loc) (n : ℕ) : FStmt := ⟨members z, members z, fun v => eC ((gC v).squareN n)⟩
/-- the call `c.decompressBeforeInv(nume, denomi)` (`C73_beforeInv`) -/
def callBefore (nume denomi z : Loc) : FStmt :=
  ⟨cells nume 2 ++ cells denomi 2, members z, fun v => e2 (gC v).decompressBeforeInv.1 ++ e2 (gC v).decompressBeforeInv.2⟩
/-- the call `c.decompressAfterInv()` (`C73_afterInv`): only g0 is written -/
def callAfter (z : Loc) : FStmt :=
  ⟨cells z 2, members z ++ cells (z.plus 8) 2, fun v => e2 ((gC v).decompressAfterInv (g2 v 8)).a.a⟩

/-- `CompressT::decompress()`, bn.h:2221-2228.  Locals nume, denomi. -/
def decompress (z : Loc) : List FStmt :=
  let nume := loc 0; let denomi := loc 2
  [callBefore nume denomi z,
   p2 (·⁻¹) denomi denomi,
   q2 (· * ·) (z.plus 8) nume denomi,
   callAfter z]

/-- `CompressT::fixed_power(z, x)`, bn.h:2310-2337.  Locals d62, c55nume, c55denomi, c62nume, c62denomi, acc, t. -/
def fixedPower (z x : Loc) : List FStmt :=
  let d62 := loc 0
  let n55 := loc 12; let d55 := loc 14; let n62 := loc 16; let dd62 := loc 18; let acc := loc 20; let t := loc 22
  ctor z x ++
  [squareN z 55,
   callBefore n55 d55 z] ++
  ctor d62 z ++
  [squareN d62 (62 - 55),
   callBefore n62 dd62 d62,
   q2 (· * ·) acc d55 dd62,
   p2 (·⁻¹) acc acc,
   q2 (· * ·) t acc dd62,
   q2 (· * ·) (z.plus 8) n55 t,
   callAfter z,
   q2 (· * ·) t acc d55,
   q2 (· * ·) (d62.plus 8) n62 t,
   callAfter d62,
   q12 (· * ·) z z x,
   q12 (· * ·) z z d62]

/-- `Fp12T::final_exp()`, bn.h:1776-1849 (non-SNARK).  Locals f, f2z, f6z, f6z2, f12z3, a, b.  `mapToCyclo` has no
locals; its statements are written out. -/
def finalExp (z : Loc) : List FStmt :=
  let f := loc 0; let f2z := loc 12; let f6z := loc 24; let f6z2 := loc 36; let f12z3 := loc 48
  let a := loc 60; let b := loc 72
  mapToCyclo f z ++
  [p12 F12.fixedPower f2z f,
   p12 F12.sqru f2z f2z,
   p12 F12.sqru f6z f2z,
   q12 (· * ·) f6z f6z f2z,
   p12 F12.fixedPower f6z2 f6z,
   p12 F12.sqru a f6z2,
   p12 F12.fixedPower f12z3 a,
   p6 (-·) (f6z.plus 6) (f6z.plus 6),
   p6 (-·) (f12z3.plus 6) (f12z3.plus 6),
   q12 (· * ·) a f12z3 f6z2,
   q12 (· * ·) a a f6z,
   q12 (· * ·) b a f2z,
   q12 (· * ·) z a f6z2,
   q12 (· * ·) z z f,
   p12 F12.frobenius f2z b,
   q12 (· * ·) z z f2z,
   p12 F12.frobenius2 f2z a,
   q12 (· * ·) z z f2z,
   p6 (-·) (f.plus 6) (f.plus 6),
   q12 (· * ·) b b f,
   p12 F12.frobenius3 f2z b,
   q12 (· * ·) z z f2z]

end Tm

section
open Lean Elab Tactic Meta

/-- `crun` for this level: the constants of `Fe`, `F2`, `F6`, `F12`, `Cp`, `Param`, `Miller`, `Ec` other than constructors and projections
are replaced by variables. -/
elab "trun" "[" ids:ident,* "]" : tactic => do
  let goal ← getMainGoal
  let names ← ids.getElems.mapM fun i => realizeGlobalConstNoOverload i
  goal.withContext do
    let t ← instantiateMVars (← goal.getType)
    let t ← deltaExpand t fun n => names.contains n
    let pre := [`Verif.Fe, `Verif.F2, `Verif.F6, `Verif.F12, `Verif.Cp, `Verif.Param, `Verif.Miller, `Verif.Ec]
    let env ← getEnv
    let cs := t.getUsedConstants.filter fun n => pre.contains n.getPrefix && !env.isConstructor n && !env.isProjectionFn n
    let tys ← cs.mapM fun c => do return (← getConstInfo c).type
    let decls := (cs.zip tys).map fun (c, ty) => (c.getString!.toName, fun (_ : Array Expr) => pure (f := TacticM) ty)
    let (lty, lpf) ← withLocalDeclsD decls fun fs => do
      let t' := t.replace fun e => match e with
        | .const n _ => (cs.findIdx? (· == n)).map fun i => fs[i]!
        | _ => none
      let (pf : Expr) ← forallTelescope t' fun xs b => do
        let some (ty, a, _) := b.eq? | throwError "trun: not an equation"
        let u ← getLevel ty
        mkLambdaFVars xs (mkApp2 (mkConst ``Eq.refl [u]) ty a)
      return (← mkForallFVars fs t', ← mkLambdaFVars fs pf)
    let lem ← mkAuxLemma [] lty lpf
    goal.assign (mkAppN (mkConst lem) (cs.map fun c => mkConst c))

end

end Verif.Cpp
