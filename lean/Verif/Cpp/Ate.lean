import Verif.Cpp.Tmpl
import Verif.Pairing.Model

/-!
`opt_atePairing(f, Q, P)` on affine coordinates (bn.h:2712-2785) as calls on objects in memory, in the language of
Tmpl.lean.  A call is one statement with the value proved for the callee (line functions C36, C73; sparse products C31,
C73; squaring and product C33; final exponentiation C73).
-/

namespace Verif.Cpp

/-- `Fp2 T[3]`, `Fp2 Q[2]`, `Fp P[2]` at position k of the cells read -/
def gJ (v : List Fe) (k : ℕ) : J F2 := ⟨g2 v k, g2 v (k + 2), g2 v (k + 4)⟩
def gQ (v : List Fe) (k : ℕ) : F2 × F2 := (g2 v k, g2 v (k + 2))
def gP (v : List Fe) (k : ℕ) : Fe × Fe := (v.getD k 0, v.getD (k + 1) 0)
def eJ (T : J F2) : List Fe := e2 T.x ++ e2 T.y ++ e2 T.z
def eQ (Q : F2 × F2) : List Fe := e2 Q.1 ++ e2 Q.2
def eP (P : Fe × Fe) : List Fe := [P.1, P.2]
def MemV.fJ (m : MemV Fe) (l : Loc) : J F2 := ⟨MemV.f2 m l, MemV.f2 m (l.plus 2), MemV.f2 m (l.plus 4)⟩
def MemV.fQ (m : MemV Fe) (l : Loc) : F2 × F2 := (MemV.f2 m l, MemV.f2 m (l.plus 2))
def MemV.fP (m : MemV Fe) (l : Loc) : Fe × Fe := (m l, m (l.plus 1))
def kQ : ObjV Fe (F2 × F2) := ⟨4, eQ, MemV.fQ, fun _ => rfl, fun _ _ => rfl⟩
def kP : ObjV Fe (Fe × Fe) := ⟨2, eP, MemV.fP, fun _ => rfl, fun _ _ => rfl⟩

namespace Tm

/-- `Fp6::pointDblLineEval(l, T, P)` -/
def dblS (l T P : Loc) : FStmt :=
  ⟨cells l 6 ++ cells T 6, cells T 6 ++ cells P 2,
   fun v => e6 (Miller.dblLineEval (gJ v 0) (gP v 6)).1 ++ eJ (Miller.dblLineEval (gJ v 0) (gP v 6)).2⟩
/-- `Fp6::pointAddLineEval(l, T, Q, P)` -/
def addS (l T Q P : Loc) : FStmt :=
  ⟨cells l 6 ++ cells T 6, cells T 6 ++ cells Q 4 ++ cells P 2,
   fun v => e6 (Miller.addLineEval (gJ v 0) (gQ v 6) (gP v 10)).1 ++ eJ (Miller.addLineEval (gJ v 0) (gQ v 6) (gP v 10)).2⟩
/-- `Fp12::Dbl::mul_Fp2_024(f, l)` -/
def m024 (f l : Loc) : FStmt := ⟨cells f 12, cells f 12 ++ cells l 6, fun v => e12 (F12.mul024 (g12 v 0) (g6 v 12))⟩
/-- `Fp12::Dbl::mul_Fp2_024_Fp2_024(f, d, e)` -/
def m024024 (f d e : Loc) : FStmt := ⟨cells f 12, cells d 6 ++ cells e 6, fun v => e12 (F12.mul024_024 (g6 v 0) (g6 v 6))⟩

/-- `ecop::FrobEndOnTwist_1(Q, P)`, bn.h:2650-2676 (default build): the statements in order -/
def twist1 (Q P : Loc) : List FStmt :=
  [c1 Q P,
   p1 (-·) (Q.plus 1) (P.plus 1),
   p2 (fun x => x.mulFp1 Param.W2p.b) Q Q,
   c1 (Q.plus 2) (P.plus 2),
   p1 (-·) (Q.plus 3) (P.plus 3),
   p2 (· * Param.W3p) (Q.plus 2) (Q.plus 2)]
/-- `ecop::FrobEndOnTwist_2(Q, P)`, bn.h:2679-2691 -/
def twist2 (Q P : Loc) : List FStmt :=
  [p2 (fun x => x.mulFp0 Param.Z) Q P,
   p2 (-·) (Q.plus 2) (P.plus 2)]
/-- `ecop::FrobEndOnTwist_8(Q, P)`, bn.h:2694-2708 -/
def twist8 (Q P : Loc) : List FStmt :=
  [p2 (fun x => x.mulFp0 Param.Z) Q P,
   c2 (Q.plus 2) (P.plus 2)]

/-- positions of the local variables of `opt_atePairing`: T, Qneg, d, e, l, Q1, Q2, ft -/
def lT : Loc := loc 0
def lQn : Loc := loc 6
def lD : Loc := loc 10
def lE : Loc := loc 16
def lL : Loc := loc 22
def lQ1 : Loc := loc 28
def lQ2 : Loc := loc 32
def lFt : Loc := loc 36

/-- bn.h:2730-2735 -/
def ateNeg (Q : Loc) : List FStmt :=
  [c2 lQn Q,
   p2 (-·) (lQn.plus 2) (Q.plus 2)]
/-- bn.h:2726-2729 -/
def ateT (Q : Loc) : List FStmt :=
  [c2 lT Q,
   c2 (lT.plus 2) (Q.plus 2),
   p2 (fun _ => 1) (lT.plus 4) (lT.plus 4)]
/-- bn.h:2736-2741 -/
def ateFirst (f Q P : Loc) : List FStmt :=
  [dblS lD lT P,
   addS lE lT Q P,
   m024024 f lD lE]
/-- bn.h:2747-2751 -/
def ateDbl (f P : Loc) : List FStmt :=
  [dblS lL lT P,
   p12 F12.square f f,
   m024 f lL]
/-- bn.h:2756-2757 and 2760-2761; Q is `Q` or `Qneg` -/
def ateAdd (f Q P : Loc) : List FStmt :=
  [addS lL lT Q P,
   m024 f lL]
/-- one pass of the loop, bn.h:2745-2763 -/
def atePass (f Q P : Loc) (s : ℤ) : List FStmt :=
  ateDbl f P ++ (if s > 0 then ateAdd f Q P else if s < 0 then ateAdd f lQn P else [])
/-- bn.h:2765-2782 -/
def ateLast (f Q P : Loc) : List FStmt :=
  twist1 lQ1 Q ++ twist8 lQ2 Q ++
  [p6 (-·) (f.plus 6) (f.plus 6),
   p2 (-·) (lT.plus 2) (lT.plus 2),
   addS lD lT lQ1 P,
   addS lE lT lQ2 P,
   m024024 lFt lD lE,
   q12 (· * ·) f f lFt]
/-- `opt_atePairing(f, Q, P)`, bn.h:2719-2785, with the table of digits `tbl` and `useNAF` as parameters -/
def optAte (naf : Bool) (tbl : List ℤ) (f Q P : Loc) : List FStmt :=
  ateT Q ++ (bif naf then ateNeg Q else []) ++ ateFirst f Q P ++ (tbl.drop 2).flatMap (atePass f Q P) ++ ateLast f Q P ++
  [p12 F12.finalExp f f]

/-- `Ec2`: `Fp2 p[3]`; `Ec1`: `Fp p[3]` -/
def g3 (v : List Fe) (k : ℕ) : J Fe := ⟨v.getD k 0, v.getD (k + 1) 0, v.getD (k + 2) 0⟩
def e3 (P : J Fe) : List Fe := [P.x, P.y, P.z]
def _root_.Verif.Cpp.MemV.f3 (m : MemV Fe) (l : Loc) : J Fe := ⟨m l, m (l.plus 1), m (l.plus 2)⟩
/-- `Q.normalize()`, `P.normalize()`: the coordinates are `mutable` -/
def norm2 (Q : Loc) : FStmt := ⟨cells Q 6, cells Q 6, fun v => eJ (Ec.normalize (gJ v 0))⟩
def norm1 (P : Loc) : FStmt := ⟨cells P 3, cells P 3, fun v => e3 (Ec.normalize (g3 v 0))⟩
/-- memory after `opt_atePairing(f, const Ec2& Q, const Ec1& P)`, bn.h:2966-2975 -/
def ecPairing (f Q P : Loc) (m : FMem) : FMem :=
  let m := exec [norm2 Q, norm1 P] m
  if Ec.isInf (m.fJ Q) || Ec.isInf (m.f3 P) then exec [p12 (fun _ => 1) f f] m
  else exec (optAte false Param.siTbl f Q P) m

end Tm
end Verif.Cpp
