import Verif.Snark.Field
import Verif.Util.Naf

/-!
Final exponentiation of the SNARK build on buffers: the constants of `ParamT::init`, Frobenius maps, inverses, cyclotomic
squaring, `pow_neg_t`, `final_exp`.

`Fp6::mul`, `Fp12::mul` and `Fp12::square` of this build are right only for operands within bounds (C68, C69).  The routines
below take a flag: with `false` they are the code, with `true` they stop (`throw`) at the first of these products whose bound
fails.  The flag is not in the code; a theorem about a run with `true` that ends with `ok` is about the same run with `false`.
-/

namespace Verif.Snark

open scoped Verif

/-- a canonical `Fp2` object, for `mie::power` -/
structure C2 where
  v : R2
  can : v.SCan
instance : Mul C2 := ⟨fun x y => ⟨S2.mul x.v y.v, (S2.mul_den x.can y.can).1⟩⟩
instance : One C2 := ⟨⟨⟨montR, 0⟩, by decide +kernel⟩⟩

/-- `Fp2 xi(cp.xi_a, cp.xi_b)`, bn.h:233: `Fp(9)`, `Fp(1)` -/
def xiR : R2 := ⟨Snark.mul 9 montR2, montR⟩
theorem xiR_set : Snark.setInt 9 = .ok xiR.a ∧ Snark.setInt 1 = .ok xiR.b := by decide +kernel
theorem xiR_can : xiR.SCan := by decide +kernel

/-- `(p - 1) / 6`, bn.h:237, as a `Vuint` -/
def pSub1Div6V : List ℕ := words4 ((p - 1) / 6)
theorem pSub1Div6V_run : (do
    let s ← Vuint.sub pV [1]
    let qr ← Vuint.divUnit s 6
    pure qr.1 : Res (List ℕ)) = .ok pSub1Div6V := by decide +kernel
theorem pSub1Div6V_wf : WF pSub1Div6V ∧ val pSub1Div6V = (p - 1) / 6 := by decide +kernel

/-- `gammar[i]`, bn.h:237-241 -/
def gammar : ℕ → R2
  | 0 => (power (⟨xiR, xiR_can⟩ : C2) pSub1Div6V).v
  | i + 1 => S2.mul (gammar i) (power (⟨xiR, xiR_can⟩ : C2) pSub1Div6V).v
/-- `gammar2[i]`, bn.h:243-245 -/
def gammar2 (i : ℕ) : R2 := S2.mul ⟨(gammar i).a, Snark.neg (gammar i).b⟩ (gammar i)
/-- `gammar3[i]`, bn.h:247-249 -/
def gammar3 (i : ℕ) : R2 := S2.mul (gammar i) (gammar2 i)

/-- `Param::zReplTbl`, bn.h:261 -/
def zReplTbl : List ℤ :=
  [1, 0, 0, 0, 1, 0, 1, 0, 0, -1, 0, 1, 0, 1, 0, -1, 0, 0, 1, 0, 1, 0, -1, 0, -1, 0, -1, 0, 1, 0, 0, 0, 1, 0, 0, 1, 0, 1, 0,
   1, 0, -1, 0, 1, 0, 0, 1, 0, 0, 0, 0, 1, 0, 1, 0, 0, 0, 0, -1, 0, 0, 0, 1]
/-- `getGoodRepl(zReplTbl, z.abs())` -/
theorem zReplTbl_run : Naf.goodRepl [4965661367192848881] = .ok (true, zReplTbl) := by decide +kernel

/-- `Fp6::neg`, bn.h:896-901 -/
def S6.neg (x : R6) : R6 := ⟨S2.neg x.a, S2.neg x.b, S2.neg x.c⟩

/-- `Fp6::square`, bn.h:914-935 -/
def S6.square (x : R6) : Res R6 := do
  let v4 := S2.add x.a x.a
  let v4 := S2.mul v4 x.b
  let v5 := S2.square x.c
  let zb ← S2.mulXi v5
  let zb := S2.add zb v4
  let zc := S2.sub v4 v5
  let v3 := S2.square x.a
  let v4 := S2.sub x.a x.b
  let v4 := S2.add v4 x.c
  let v5 := S2.add x.b x.b
  let v5 := S2.mul v5 x.c
  let v4 := S2.square v4
  let za ← S2.mulXi v5
  let za := S2.add za v3
  let zc := S2.add zc v4
  let zc := S2.add zc v5
  let zc := S2.sub zc v3
  pure ⟨za, zb, zc⟩

/-- `Fp6::inverse`, bn.h:937-964 -/
def S6.inverse (x : R6) : Res R6 := do
  let t0 := S2.mul x.b x.c
  let za ← S2.mulXi t0
  let t0 := S2.square x.a
  let za := S2.sub t0 za
  let t1 := S2.square x.b
  let t5 := S2.mul x.a x.c
  let zc := S2.sub t1 t5
  let t2 := S2.square x.c
  let t4 := S2.mul x.a x.b
  let zb ← S2.mulXi t2
  let zb := S2.sub zb t4
  let t1 := S2.mul x.a za
  let t5 := S2.mul x.c zb
  let t4 ← S2.mulXi t5
  let t1 := S2.add t1 t4
  let t5 := S2.mul x.b zc
  let t4 ← S2.mulXi t5
  let t1 := S2.add t1 t4
  let t1 ← S2.inverse t1
  pure ⟨S2.mul za t1, S2.mul zb t1, S2.mul zc t1⟩

/-- `Fp6::mul`; with the flag it stops when the result would be unreduced -/
def S6.mulK (k : Bool) (x y : R6) : Res R6 :=
  if k = true ∧ ¬ cb x y < pN then .throw else .ok (S6.mul x y)

namespace S12

/-- `Fp12::mul`; with the flag it stops when one of the three products of `Fp6Dbl::mul` would be unreduced -/
def mulK (k : Bool) (x y : R12) : Res R12 :=
  if k = true ∧ ¬ (cb x.a y.a < pN ∧ cb x.b y.b < pN ∧ cb (S6.add x.a x.b) (S6.add y.a y.b) < pN) then .throw
  else .ok (mul x y)

/-- `Fp12::square`; with the flag it stops when one of its two calls of `Fp6::mul` would give an unreduced result -/
def squareK (k : Bool) (x : R12) : Res R12 := do
  let t ← S6.mulGammaAdd x.b x.a
  if k = true ∧ ¬ (cb x.b x.a < pN ∧ cb (S6.add x.a x.b) t < pN) then .throw else square x

/-- a + b w ↦ a - b w: `z.a_ = x.a_; Fp6::neg(z.b_, x.b_)` -/
def conj (x : R12) : R12 := ⟨x.a, S6.neg x.b⟩

/-- `Fp12::sqru`, bn.h:1561-1610 -/
def sqru (x : R12) : Res R12 := do
  let z0 := x.a.a
  let z4 := x.a.b
  let z3 := x.a.c
  let z2 := x.b.a
  let z1 := x.b.b
  let z5 := x.b.c
  let t := sqFp4 z0 z1
  let z0 := S2.sub t.1 z0
  let z0 := S2.add z0 z0
  let z0 := S2.add z0 t.1
  let z1 := S2.add t.2 z1
  let z1 := S2.add z1 z1
  let z1 := S2.add z1 t.2
  let t := sqFp4 z2 z3
  let s := sqFp4 z4 z5
  let z4 := S2.sub t.1 z4
  let z4 := S2.add z4 z4
  let z4 := S2.add z4 t.1
  let z5 := S2.add t.2 z5
  let z5 := S2.add z5 z5
  let z5 := S2.add z5 t.2
  let t0 ← S2.mulXi s.2
  let z2 := S2.add t0 z2
  let z2 := S2.add z2 z2
  let z2 := S2.add z2 t0
  let z3 := S2.sub s.1 z3
  let z3 := S2.add z3 z3
  let z3 := S2.add z3 s.1
  pure ⟨⟨z0, z4, z3⟩, ⟨z2, z1, z5⟩⟩

/-- `Fp12::inverse`, bn.h:1620-1634 -/
def inverse (k : Bool) (x : R12) : Res R12 := do
  let t0 ← S6.square x.a
  let t1 ← S6.square x.b
  let t2 ← S2.mulXi t1.c
  let t0 : R6 := ⟨S2.sub t0.a t2, S2.sub t0.b t1.a, S2.sub t0.c t1.b⟩
  let t0 ← S6.inverse t0
  let a ← S6.mulK k x.a t0
  let b ← S6.mulK k x.b t0
  pure ⟨a, S6.neg b⟩

/-- complex conjugation of the coordinates: copy and `Fp::neg` -/
def cj (g : R2) : R2 := ⟨g.a, Snark.neg g.b⟩

/-- `Fp12::Frobenius`, bn.h:1640-1667, SNARK branch -/
def frobenius (x : R12) : R12 :=
  ⟨⟨cj x.a.a, S2.mul (cj x.a.b) (gammar 1), S2.mul (cj x.a.c) (gammar 3)⟩,
   ⟨S2.mul (cj x.b.a) (gammar 0), S2.mul (cj x.b.b) (gammar 2), S2.mul (cj x.b.c) (gammar 4)⟩⟩

/-- `Fp12::Frobenius2`, bn.h:1678-1694 -/
def frobenius2 (x : R12) : R12 :=
  ⟨⟨x.a.a, S2.mulFp0 x.a.b (gammar2 1).a, S2.mulFp0 x.a.c (gammar2 3).a⟩,
   ⟨S2.mulFp0 x.b.a (gammar2 0).a, S2.mulFp0 x.b.b (gammar2 2).a, S2.mulFp0 x.b.c (gammar2 4).a⟩⟩

/-- `Fp12::Frobenius3`, bn.h:1696-1726, SNARK branch -/
def frobenius3 (x : R12) : R12 :=
  ⟨⟨cj x.a.a, S2.mul (cj x.a.b) (gammar3 1), S2.mul (cj x.a.c) (gammar3 3)⟩,
   ⟨S2.mul (cj x.b.a) (gammar3 0), S2.mul (cj x.b.b) (gammar3 2), S2.mul (cj x.b.c) (gammar3 4)⟩⟩

/-- `Fp12::mapToCyclo`, bn.h:1731-1744 -/
def mapToCyclo (k : Bool) (x : R12) : Res R12 := do
  let z := conj x
  let this ← inverse k x
  let z ← mulK k z this
  let this := frobenius2 z
  mulK k z this

/-- the conditional product of `pow_neg_t`, bn.h:1765-1769 -/
def powDigit (k : Bool) (x inConj : R12) (d : ℤ) (out : R12) : Res R12 :=
  if 0 < d then mulK k out x else if d < 0 then mulK k out inConj else .ok out

/-- the loop of `pow_neg_t`, bn.h:1763-1770 -/
def powLoop (k : Bool) (x inConj : R12) : List ℤ → R12 → Res R12
  | [], out => .ok out
  | d :: ds, out => do
    let out ← sqru out
    let out ← powDigit k x inConj d out
    powLoop k x inConj ds out

/-- `Fp12::pow_neg_t`, bn.h:1756-1772 -/
def powNegT (k : Bool) (x : R12) : Res R12 := do
  let inConj := conj x
  let out ← powLoop k x inConj (zReplTbl.drop 1) x
  pure (conj out)

/-- `Fp12::final_exp` after `mapToCyclo`, bn.h:1784-1810 (SNARK branch) -/
def hardPart (k : Bool) (f : R12) : Res R12 := do
  let f2z ← powNegT k f
  let f2z ← sqru f2z
  let f6z ← sqru f2z
  let f6z ← mulK k f6z f2z
  let f6z2 ← powNegT k f6z
  let a ← sqru f6z2
  let f12z3 ← powNegT k a
  let f6z := conj f6z
  let f12z3 := conj f12z3
  let a ← mulK k f12z3 f6z2
  let a ← mulK k a f6z
  let b ← mulK k a f2z
  let z ← mulK k a f6z2
  let z ← mulK k z f
  let f2z := frobenius b
  let z ← mulK k z f2z
  let f2z := frobenius2 a
  let z ← mulK k z f2z
  let f := conj f
  let b ← mulK k b f
  let f2z := frobenius3 b
  mulK k z f2z

/-- `Fp12::final_exp`, bn.h:1776-1815 (SNARK branch) -/
def finalExp (k : Bool) (x : R12) : Res R12 := do
  let f ← mapToCyclo k x
  hardPart k f

end S12

end Verif.Snark
