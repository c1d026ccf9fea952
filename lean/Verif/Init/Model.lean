import Verif.Zm.Model
import Verif.Sint.Model
import Verif.Util.Naf
import Verif.Pairing.Model

/-! Start-up: `Fp::setModulo` (zm2.cpp:3576-3717) and `ParamT::init` (bn.h:206-279), default build.

Not modelled: the code generation itself (`PairingCode`, `zmInit`), its `mode` and `useMulx` arguments, and failure to
allocate executable memory. -/

namespace Verif
namespace Init

open Fp

/-! ### `Fp::setModulo` -/

/-- what `setModulo` stores; entries of the tables as the numbers in their 4-word and 8-word buffers -/
structure Consts where
  /-- `p_` -/
  p : List ℕ
  /-- `pp_mont` -/
  pp : ℕ
  /-- `pN` -/
  pN : List ℕ
  /-- `p_add1_div4_` -/
  pAdd1Div4 : List ℕ
  /-- `montgomeryR_` -/
  R : List ℕ
  /-- `montgomeryR2_` -/
  R2 : ℕ
  /-- `one_` -/
  one : ℕ
  /-- `s_pTbl` -/
  pTbl : List ℕ
  /-- `pNTbl_` -/
  pNTbl : List ℕ
  /-- `halfTbl_` -/
  halfTbl : List ℕ
  /-- `quarterTbl_` -/
  quarterTbl : List ℕ
  /-- `invTbl_` -/
  invTbl : List ℕ

/-- `a % b` and `a / b` (zm.h:153-154) on new objects; for `b = 0` they stay 0 -/
def rem (a b : List ℕ) : Res (List ℕ) := do
  match ← Vuint.div a b with
  | some d => pure d.2
  | none => pure (Vuint.ofUnit 0)

def quo (a b : List ℕ) : Res (List ℕ) := do
  match ← Vuint.div a b with
  | some d => pure d.1
  | none => pure (Vuint.ofUnit 0)

/-- `Dbl::setDirect` (zm2.h:309-320) -/
def setDirectD (x : List ℕ) : ℕ := val (x.take 8)

/-- a loop storing `f(i)` at successive indices -/
def table (f : ℕ → Res ℕ) : List ℕ → Res (List ℕ)
  | [] => .ok []
  | i :: is => do
    let a ← f i
    let r ← table f is
    pure (a :: r)

/-- `invTbl_[511 - i] = t; t += t` (zm2.cpp:3702-3708), n entries left, filled from the end -/
def invLoop : ℕ → ℕ → List ℕ → List ℕ
  | 0, _, acc => acc
  | n + 1, t, acc => invLoop n (Fp.add t t) (t :: acc)

/-- `setTablesForDiv` (zm2.cpp:3576-3590) -/
def tablesForDiv (p : List ℕ) : Res (List ℕ × List ℕ) := do
  let a ← Vuint.add p [1]
  let h ← Vuint.shr a 1
  let b ← Vuint.add p [1]
  let quarter ← Vuint.shr b 2
  let q2 ← Vuint.mul quarter [2]
  let q3 ← Vuint.mul quarter [3]
  pure ([0, setDirect h], [0, setDirect quarter, setDirect q2, setDirect q3])

/-- `setModulo` (zm2.cpp:3592-3717).  The state is `none` before the first call (`static bool init`). `Fp t(2)` and `+=`
at the end run the generated code for this p, which is modelled for the default p only. -/
def setModulo (st : Option Consts) (p : List ℕ) : Res Consts :=
  match st with
  | some c => .ok c
  | none =>
    if p.length ≠ 4 then .exit
    else do
      let W ← Vuint.shl [1] 64
      let t ← Zm.setV W p
      let t ← Zm.minus W t
      let t ← Zm.inv W t
      let pp := t.getD 0 0
      let pN ← Vuint.shl p 256
      let a ← Vuint.add p [1]
      let pa ← quo a [4]
      let s ← Vuint.shl [1] 256
      let R ← rem s p
      let t ← Zm.setV p R
      let R2 ← Zm.times p t t
      let pTbl ← table (fun i => do let v ← Vuint.mul p [i]; pure (setDirect v)) (List.range 10)
      let pNTbl ← table (fun h => do let v ← Vuint.shr pN h; pure (setDirectD v)) [1, 2, 3]
      let d ← tablesForDiv p
      let two ← Fp.setInt 2
      pure { p := p, pp := pp, pN := pN, pAdd1Div4 := pa, R := R, R2 := setDirect R2, one := 1, pTbl := pTbl,
             pNTbl := setDirectD pN :: pNTbl, halfTbl := d.1, quarterTbl := d.2, invTbl := invLoop 512 two [] }

/-! ### `ParamT::init` -/

/-- `CurveParam` (bn.h:58-71) -/
structure CurveParam where
  z : ℤ
  b : ℤ
  xi_a : ℤ
  xi_b : ℤ
  deriving DecidableEq

/-- `CurveFp254BNb` (bn.h:83) -/
def curveFp254BNb : CurveParam := ⟨-(2 ^ 62 + 2 ^ 55 + 1), 2, 1, 1⟩

/-- `a * b` of `Vsint` (zm.h:141), result in a new object -/
def sMul (a b : Sint) : Res Sint := do
  let m ← Sint.mul (fun i => if i = 0 then ⟨[0], false⟩ else if i = 1 then a else b) 0 1 2
  pure (m 0)

/-- `a + b` of `Vsint` (zm.h:139) -/
def sAdd (a b : Sint) : Res Sint := do
  let m ← Sint.add (fun i => if i = 0 then ⟨[0], false⟩ else if i = 1 then a else b) 0 1 2
  pure (m 0)

/-- one step `acc * x + c` -/
def horner (acc x : Sint) (c : ℤ) : Res Sint := do
  let t ← sMul acc x
  let k ← Sint.ofInt c
  sAdd t k

/-- `eval` (bn.h:273-279): the coefficients are converted from `int`; `get()` returns the magnitude -/
def eval (x : Sint) (c0 c1 c2 c3 c4 : ℤ) : Res (List ℕ) := do
  let k ← Sint.ofInt c4
  let t ← horner k x c3
  let t ← horner t x c2
  let t ← horner t x c1
  let t ← horner t x c0
  pure t.v

/-- the static members of `ParamT` (bn.h:176-200) -/
structure St where
  consts : Consts
  z : Sint
  p : List ℕ
  r : List ℕ
  t : List ℕ
  largest_c : Sint
  b : ℤ
  half : ℕ
  b_invxi : F2
  gammar : List F2
  gammar2 : List F2
  gammar3 : List F2
  W2p : F2
  W3p : F2
  Z : Fe
  i0 : Fe
  i1 : Fe
  useNAF : Bool
  siTbl : List ℤ

/-- `(x - 1) / n` -/
def expo (x : List ℕ) (n : ℕ) : Res (List ℕ) := do
  let s ← Vuint.sub x [1]
  quo s [n]

/-- `gammar[i] = gammar[i - 1] * gammar[0]` (bn.h:240-242), n entries after `last` -/
def gammaLoop (g0 : F2) : ℕ → F2 → List F2
  | 0, _ => []
  | n + 1, last => let g := last * g0; g :: gammaLoop g0 n g

/-- `init` (bn.h:206-263).  A supported parameter has xi = 1 + u and b = 2, so these are written as constants; field
elements are canonical values (`Fe`, `F2`). -/
def paramInit (st : Option Consts) (cp : CurveParam) : Res St :=
  if cp ≠ curveFp254BNb then .exit
  else do
    let m ← Sint.setInt64 (fun _ => ⟨[0], false⟩) 0 cp.z
    let z := m 0
    let p ← eval z 1 6 24 36 36
    let r ← eval z 1 6 18 36 36
    let t ← eval z 1 0 6 0 0
    let six ← Sint.ofInt 6
    let two ← Sint.ofInt 2
    let c ← sMul six z
    let c ← sAdd c two
    let k ← setModulo st p
    let f1 ← Fp.setInt 1
    let f2 ← Fp.setInt 2
    let i2 ← Fp.inv f2
    let e6 ← expo p 6
    let g0 := power F2.xi e6
    let gs := g0 :: gammaLoop g0 4 g0
    let gs2 := gs.map fun g => (⟨g.a, -g.b⟩ : F2) * g
    let gs3 := (gs.zip gs2).map fun g => g.1 * g.2
    let e3 ← expo p 3
    let e2 ← expo p 2
    let pp ← Vuint.mul p p
    let eZ ← expo pp 6
    let temp := power F2.xi eZ
    let s ← Naf.goodRepl c.v
    pure { consts := k, z := z, p := p, r := r, t := t, largest_c := c, b := cp.b, half := Fp.mul i2 f1,
           b_invxi := F2.xi⁻¹ * ⟨Param.b, 0⟩, gammar := gs, gammar2 := gs2, gammar3 := gs3, W2p := power F2.xi e3,
           W3p := power F2.xi e2, Z := FF.sq (-temp.a), i0 := 0, i1 := 1, useNAF := s.1, siTbl := s.2 }

end Init
end Verif
