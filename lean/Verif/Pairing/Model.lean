import Verif.Pairing.Line
import Verif.Tower.Wrap

/-!
Model of the optimal ate pairing (bn.h:2712-2807, 2966-2975) and of `components` (bn.h:2992-3180),
non-SNARK branches, on typed values.
-/

namespace Verif
open Fp

/-- Line coefficients as stored by the `WithoutP` routines: `Fp6` whose `c_` may be unreduced (below 3p). -/
structure Coef where
  l : R6
  ha : l.a.Canon
  hb : l.b.Canon
  hc : l.c.Lt3

namespace Miller

/-- `Fp6::pointDblLineEvalWithoutP(l, T)`: coefficients and the new T -/
def dblLine (T : J F2) : Coef × J F2 :=
  let e := pointDblLineEvalWithoutP T.x.raw T.y.raw T.z.raw
  have h := dblLine_den T.x.raw_canon T.y.raw_canon T.z.raw_canon
  (⟨e.l, h.1.1, h.1.2.1, h.1.2.2⟩,
   ⟨F2.ofRaw e.x h.2.1.1, F2.ofRaw e.y h.2.1.2.1, F2.ofRaw e.z h.2.1.2.2⟩)

/-- `Fp6::pointAddLineEvalWithoutP(l, T, Q)` -/
def addLine (T : J F2) (Q : F2 × F2) : Coef × J F2 :=
  let e := pointAddLineEvalWithoutP T.x.raw T.y.raw T.z.raw Q.1.raw Q.2.raw
  have h := addLine_den T.x.raw_canon T.y.raw_canon T.z.raw_canon Q.1.raw_canon Q.2.raw_canon
  (⟨e.l, h.1.1, h.1.2.1, h.1.2.2.lt3⟩,
   ⟨F2.ofRaw e.x h.2.1.1, F2.ofRaw e.y h.2.1.2.1, F2.ofRaw e.z h.2.1.2.2⟩)

/-- `Fp6::mulFp6_24_Fp_01(l, P)`, bn.h:1076-1080 -/
def eval (c : Coef) (P : Fe × Fe) : F6 :=
  F6.ofRaw (mulFp6_24_Fp_01 c.l P.1.n P.2.n) (mulFp6_24_canon c.ha c.hb c.hc P.1 P.2)

/-- `Fp6::pointDblLineEval(l, T, P)`, bn.h:1081-1086 -/
def dblLineEval (T : J F2) (P : Fe × Fe) : F6 × J F2 :=
  let e := dblLine T
  (eval e.1 P, e.2)
/-- `Fp6::pointAddLineEval(l, T, Q, P)`, bn.h:1142-1147 -/
def addLineEval (T : J F2) (Q : F2 × F2) (P : Fe × Fe) : F6 × J F2 :=
  let e := addLine T Q
  (eval e.1 P, e.2)

/-- `Fp6::neg(f.b_, f.b_)` -/
def negB (f : F12) : F12 := ⟨f.a, -f.b⟩
/-- `Fp2::neg(T[1], T[1])` -/
def negY (T : J F2) : J F2 := ⟨T.x, -T.y, T.z⟩

/-- one pass of the loop bn.h:2745-2763 for digit `s`; the state is (f, T).  `Qneg` is set by the code only if
`useNAF`, and read only for negative digits, which occur only then. -/
def step (Q Qneg : F2 × F2) (P : Fe × Fe) (st : F12 × J F2) (s : ℤ) : F12 × J F2 :=
  let f := st.1
  let T := st.2
  let e := dblLineEval T P
  let l := e.1
  let T := e.2
  let f := f.square
  let f := f.mul024 l
  if s > 0 then
    let e := addLineEval T Q P
    (f.mul024 e.1, e.2)
  else if s < 0 then
    let e := addLineEval T Qneg P
    (f.mul024 e.1, e.2)
  else (f, T)

/-- the state before the loop, bn.h:2726-2741 -/
def start (Q : F2 × F2) (P : Fe × Fe) : F12 × J F2 :=
  let T : J F2 := ⟨Q.1, Q.2, 1⟩
  let d := dblLineEval T P
  let e := addLineEval d.2 Q P
  (F12.mul024_024 d.1 e.1, e.2)

/-- the addition steps bn.h:2765-2782 up to the final exponentiation -/
def finish (Q : F2 × F2) (P : Fe × Fe) (st : F12 × J F2) : F12 :=
  let Q1 := Ec.frobTwist1 Q.1 Q.2
  let Q2 := Ec.frobTwist8 Q.1 Q.2
  let f := negB st.1
  let T := negY st.2
  let d := addLineEval T Q1 P
  let e := addLineEval d.2 Q2 P
  let ft := F12.mul024_024 d.1 e.1
  f * ft

/-- the Miller part of `opt_atePairing` for a digit table `tbl` (most significant first) -/
def miller (tbl : List ℤ) (Q : F2 × F2) (P : Fe × Fe) : F12 :=
  finish Q P ((tbl.drop 2).foldl (step Q (Q.1, -Q.2) P) (start Q P))

end Miller

/-- `Param::siTbl`: the binary digits of |6z+2| = 2^64+2^63+2^57+2^56+2^2, most significant first
(`useNAF` is false).  Justified from `getGoodRepl` in `Naf`. -/
def Param.siTbl : List ℤ :=
  [1, 1, 0, 0, 0, 0, 0, 1, 1] ++ List.replicate 53 0 ++ [1, 0, 0]

namespace Pairing
open Miller

/-- `opt_atePairing(f, Q, P)` on affine coordinates, bn.h:2719-2785 -/
def optAteAffine (Q : F2 × F2) (P : Fe × Fe) : F12 := (miller Param.siTbl Q P).finalExp

/-- `opt_atePairingJac`, bn.h:2794-2807 -/
def optAteJac (Q : J F2) (P : J Fe) : F12 :=
  if FF.eqb Q.z 0 || FF.eqb P.z 0 then 1
  else
    let Q := Ec.normalizeJac Q
    let P := Ec.normalizeJac P
    optAteAffine (Q.x, Q.y) (P.x, P.y)

/-- `opt_atePairing(f, const Ec2& Q, const Ec1& P)`, bn.h:2966-2975.  (The normalisation is stored back in the
`mutable` coordinates of the arguments.) -/
def optAte (Q : J F2) (P : J Fe) : F12 :=
  let Q := Ec.normalize Q
  let P := Ec.normalize P
  if Ec.isInf Q || Ec.isInf P then 1
  else optAteAffine (Q.x, Q.y) (P.x, P.y)

/-! ### `components`, bn.h:2992-3180 -/

/-- one pass of the loop of `precomputeG2`, bn.h:3023-3035; the state is (coeff, T) -/
def preStep (Q Qneg : F2 × F2) (st : List Coef × J F2) (s : ℤ) : List Coef × J F2 :=
  let e := dblLine st.2
  let cs := st.1 ++ [e.1]
  if s > 0 then
    let a := addLine e.2 Q
    (cs ++ [a.1], a.2)
  else if s < 0 then
    let a := addLine e.2 Qneg
    (cs ++ [a.1], a.2)
  else (cs, e.2)

/-- `precomputeG2(coeff, Q, inQ)`, bn.h:2997-3055: coefficients and the normalised point -/
def precomputeG2 (tbl : List ℤ) (inQ : J F2) : List Coef × J F2 :=
  let Qn := Ec.normalizeJac inQ
  let Q := (Qn.x, Qn.y)
  let T : J F2 := ⟨Q.1, Q.2, 1⟩
  let d := dblLine T
  let e := addLine d.2 Q
  let st := (tbl.drop 2).foldl (preStep Q (Q.1, -Q.2)) ([d.1, e.1], e.2)
  let Q1 := Ec.frobTwist1 Q.1 Q.2
  let Q2 := Ec.frobTwist8 Q.1 Q.2
  let T := negY st.2
  let d := addLine T Q1
  let e := addLine d.2 Q2
  (st.1 ++ [d.1, e.1], Qn)

/-- one pass of the loop of `millerLoop`, bn.h:3075-3089; the state is (f, the coefficients not yet read);
`none`: read past the end of the vector -/
def mlStep (P : Fe × Fe) (st : Option (F12 × List Coef)) (s : ℤ) : Option (F12 × List Coef) :=
  match st with
  | none => none
  | some (f, cs) =>
    match cs with
    | [] => none
    | l :: cs =>
      let f := f.square
      let f := f.mul024 (eval l P)
      if s ≠ 0 then
        match cs with
        | [] => none
        | l :: cs => some (f.mul024 (eval l P), cs)
      else some (f, cs)

/-- `millerLoop(f, Qcoeff, precP)`, bn.h:3060-3106 -/
def millerLoop (tbl : List ℤ) (coeff : List Coef) (P : Fe × Fe) : Option F12 :=
  match coeff with
  | d :: e :: cs =>
    let f := F12.mul024_024 (eval d P) (eval e P)
    match (tbl.drop 2).foldl (mlStep P) (some (f, cs)) with
    | some (f, d :: e :: _) =>
      let f := negB f
      let ft := F12.mul024_024 (eval d P) (eval e P)
      some (f * ft)
    | _ => none
  | _ => none

/-- one pass of the loop of `millerLoop2`, bn.h:3133-3154 -/
def ml2Step (P1 P2 : Fe × Fe) (st : Option (F12 × List Coef × List Coef)) (s : ℤ) :
    Option (F12 × List Coef × List Coef) :=
  match st with
  | some (f, l1 :: cs1, l2 :: cs2) =>
    let f := f.square
    let f1 := F12.mul024_024 (eval l1 P1) (eval l2 P2)
    let f := f * f1
    if s ≠ 0 then
      match cs1, cs2 with
      | l1 :: cs1, l2 :: cs2 =>
        let f1 := F12.mul024_024 (eval l1 P1) (eval l2 P2)
        some (f * f1, cs1, cs2)
      | _, _ => none
    else some (f, cs1, cs2)
  | _ => none

/-- `millerLoop2`, bn.h:3108-3178 -/
def millerLoop2 (tbl : List ℤ) (c1 : List Coef) (P1 : Fe × Fe) (c2 : List Coef) (P2 : Fe × Fe) : Option F12 :=
  match c1, c2 with
  | d1 :: e1 :: cs1, d2 :: e2 :: cs2 =>
    let f1 := F12.mul024_024 (eval d1 P1) (eval e1 P1)
    let f2 := F12.mul024_024 (eval d2 P2) (eval e2 P2)
    let f := f1 * f2
    match (tbl.drop 2).foldl (ml2Step P1 P2) (some (f, cs1, cs2)) with
    | some (f, d1 :: e1 :: _, d2 :: e2 :: _) =>
      let f := negB f
      let f1 := F12.mul024_024 (eval d1 P1) (eval e1 P1)
      let f2 := F12.mul024_024 (eval d2 P2) (eval e2 P2)
      some (f * f1 * f2)
    | _ => none
  | _, _ => none

end Pairing
end Verif
