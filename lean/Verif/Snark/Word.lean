import Verif.Fp.Model

/-! 
Word-level model of the generated x64 field routines (src/zm2.cpp, `PairingCode`) in the SNARK build
(`BN_SUPPORT_SNARK` defined, `CurveSNARK1`/`CurveSNARK2`, bn.h:77-81).  The routines are those of
`Verif/Fp/Word.lean` with the other modulus; the pieces that do not mention the modulus are shared.
 -/

namespace Verif.Snark

open scoped Verif.Fp
open Verif.Fp (W4 W8 adc add4 invLoop maskW mul4x1 setDirect sub4 wAddNC wShr)

/-- The parameter z of `CurveSNARK1` and `CurveSNARK2`, bn.h:78-81. -/
def z : ℕ := 4965661367192848881

/-- The characteristic p = 36z^4+36z^3+24z^2+6z+1 for that z, bn.h:215-225 (`snark_params`). -/
def p : ℕ := 0x30644e72e131a029b85045b68181585d97816a916871ca8d3c208c16d87cfd47

/-- `s_pTbl[i] = i * p` truncated to 256 bits, zm2.cpp:3676-3678 (`setDirect`). -/
def pTbl (i : ℕ) : W4 := W4.of (i * p)

/-- `in_Fp_add_modp`, zm2.cpp:726-750: subtract p; on borrow (`cmovc`) keep the saved words. -/
def addModp (x : W4) : W4 :=
  let r := sub4 x (pTbl 1) 0
  if r.2 = 1 then x else r.1

/-- `in_Fp_sub_modp`, zm2.cpp:764-796: add `p & mask`, mask from the incoming borrow. -/
def subModp (x : W4) (borrow : ℕ) : W4 := (add4 x (maskW borrow (pTbl 1)) 0).1

/-- `in_Fp_add`, zm2.cpp:752-763 (`make_Fp_add` 994). -/
def wAdd (x y : W4) : W4 := addModp (add4 x y 0).1

/-- `in_Fp_sub`, zm2.cpp:798-806 (`make_Fp_sub` 999). -/
def wSub (x y : W4) : W4 := let d := sub4 x y 0; subModp d.1 d.2

/-- `make_Fp_neg` zm2.cpp:1029-1054 (and `in_Fp_neg` 887-898): the `or_` of all words decides. -/
def wNeg (x : W4) : W4 :=
  if x.w0 ||| x.w1 ||| x.w2 ||| x.w3 = 0 then x else (sub4 (pTbl 1) x 0).1

/-- `halfTbl_`, zm2.cpp:3576-3581. -/
def halfTbl (i : ℕ) : W4 := if i = 0 then W4.of 0 else W4.of ((p + 1) / 2)

/-- `quarterTbl_`, zm2.cpp:3583-3590. -/
def quarterTbl (i : ℕ) : W4 := if i = 0 then W4.of 0 else W4.of ((p + 1) / 4 * i)

/-- `Fp::divBy2` zm2.h:216-221 and the generated `sub_Fp_divBy2` zm2.cpp:1083-1095 (same steps). -/
def wDivBy2 (x : W4) : W4 := wAddNC (wShr 1 x) (halfTbl (x.w0 % 2))

/-- `Fp::divBy4` zm2.h:223-228. -/
def wDivBy4 (x : W4) : W4 := wAddNC (wShr 2 x) (quarterTbl (x.w0 % 4))

/-- `in_FpDbl_add`, zm2.cpp:807-814: reduction on the high half only. -/
def dAdd (x y : W8) : W8 :=
  let l := add4 x.lo y.lo 0
  ⟨l.1, addModp (add4 x.hi y.hi l.2).1⟩

/-- `sub_FpDbl_sub`, zm2.cpp:818-825. -/
def dSub (x y : W8) : W8 :=
  let l := sub4 x.lo y.lo 0
  let h := sub4 x.hi y.hi l.2
  ⟨l.1, subModp h.1 h.2⟩

/-- `in_FpDbl_neg`, zm2.cpp:1546-1581.  The zero test ORs the destination pointer `gp1` (never 0)
instead of `gt1`, so the branch for zero is never taken: the result is always pN - x
(`&s_pTbl[0]` read as eight words is p * 2^256). -/
def dNeg (x : W8) : W8 :=
  let l := sub4 (pTbl 0) x.lo 0
  ⟨l.1, (sub4 (pTbl 1) x.hi l.2).1⟩

/-- `pNTbl_[h] = pN >> h`, zm2.cpp:3684-3687. -/
def pNTbl (h : ℕ) : W8 := W8.of (p * W256 / 2 ^ h)

/-- `in_FpDbl_subOpt1`, zm2.cpp:1802-1814: only the top word of the low half of `pNTbl_[2]` is
added (the lower 192 bits are taken to be zero), then the full high half with carry. -/
def dSubOpt1 (x y : W8) : W8 :=
  let t := adc x.lo.w3 (pNTbl 2).lo.w3 0
  let h := add4 x.hi (pNTbl 2).hi t.2
  let l' := sub4 ⟨x.lo.w0, x.lo.w1, x.lo.w2, t.1⟩ y.lo 0
  ⟨l'.1, (sub4 h.1 y.hi l'.2).1⟩

/-- `pp_ = -1/p mod 2^64`, zm2.cpp:3310-3317 (computed there with `ZmZ` modulo 2^64; that this
literal is that number is `Snark.pp_spec`). -/
def pp : ℕ := 0x87d20782e4866389

/-- `montgomery1`, zm2.cpp:1195-1221: `c += x * y; q = c0 * pp; c = (c + q * p) >> 64` on the
five-word accumulator (`c`, `c4`); returns the shifted five words. -/
def montgomery1 (c : W4) (c4 : ℕ) (x : W4) (y : ℕ) : W4 × ℕ :=
  let m := mul4x1 x y
  let s := add4 c m.1 0
  let s4 := (c4 + m.2 + s.2) % B64
  let q := s.1.w0 * pp % B64
  let n := mul4x1 (pTbl 1) q
  let t := add4 s.1 n.1 0
  let t4 := adc s4 n.2 t.2
  (⟨t.1.w1, t.1.w2, t.1.w3, t4.1⟩, (t.1.w0 + t4.2) % B64)

/-- First round of `Fp_mul` (`isFirst`), zm2.cpp:1202-1205: the accumulator is the product. -/
def montgomery1First (x : W4) (y : ℕ) : W4 × ℕ :=
  let m := mul4x1 x y
  let q := m.1.w0 * pp % B64
  let n := mul4x1 (pTbl 1) q
  let t := add4 m.1 n.1 0
  let t4 := adc m.2 n.2 t.2
  (⟨t.1.w1, t.1.w2, t.1.w3, t4.1⟩, (t.1.w0 + t4.2) % B64)

/-- `Fp_mul`, zm2.cpp:1228-1265: four rounds, then conditional subtraction of p on the low four
words (the fifth word is ignored). -/
def wMul (x y : W4) : W4 :=
  let c := montgomery1First x y.w0
  let c := montgomery1 c.1 c.2 x y.w1
  let c := montgomery1 c.1 c.2 x y.w2
  let c := montgomery1 c.1 c.2 x y.w3
  addModp c.1

/-- One reduction round of `mont_mod` (zm2.cpp:1390-1459): `c` is the low four words of the current
value, `h` the remaining higher words (least significant first).  Adds q * p with q = c0 * pp, ripples
the carry through `h` and drops the low word. -/
def modRound (c : W4) (h0 : ℕ) : W4 × ℕ × ℕ :=
  let q := c.w0 * pp % B64
  let n := mul4x1 (pTbl 1) q
  let t := add4 c n.1 0
  let u := adc h0 n.2 t.2
  (t.1, u.1, u.2)

/-- `mont_mod`, zm2.cpp:1381-1466. -/
def wMod (x : W8) : W4 :=
  let r1 := modRound x.lo x.hi.w0
  let a1 := adc x.hi.w1 0 r1.2.2
  let a2 := adc x.hi.w2 0 a1.2
  let a3 := adc x.hi.w3 0 a2.2
  let r2 := modRound ⟨r1.1.w1, r1.1.w2, r1.1.w3, r1.2.1⟩ a1.1
  let b2 := adc a2.1 0 r2.2.2
  let b3 := adc a3.1 0 b2.2
  let r3 := modRound ⟨r2.1.w1, r2.1.w2, r2.1.w3, r2.2.1⟩ b2.1
  let c3 := adc b3.1 0 r3.2.2
  let r4 := modRound ⟨r3.1.w1, r3.1.w2, r3.1.w3, r3.2.1⟩ c3.1
  addModp ⟨r4.1.w1, r4.1.w2, r4.1.w3, r4.2.1⟩

/-- `fast_modp`, zm2.cpp:1686-1706: index by the top three bits, subtract, add p back on borrow. -/
def wFastModp (x : W4) : W4 :=
  let d := sub4 x (pTbl (x.w3 / 2 ^ 61)) 0
  (add4 d.1 (maskW d.2 (pTbl 1)) 0).1

/-- `in_Fp_2z_add_3x`, zm2.cpp:2538-2545: 2(z + x) + x, then `fast_modp`. -/
def w2zAdd3x (z x : W4) : W4 :=
  let t := (add4 z x 0).1
  let t := (add4 t t 0).1
  wFastModp (add4 t x 0).1

/-- `preInv`, zm2.cpp:1870-1979: r := 2p - r and the iteration count.  Fuel 511 is the number of
passes whose count still indexes the 512-entry table; more passes are reported as `diverge`. -/
def wPreInv (x : W4) : Res (W4 × ℕ) :=
  (invLoop 511 ⟨pTbl 1, x, W4.of 0, W4.of 1, 0⟩) >>= fun st =>
    .ok ((sub4 (pTbl 2) st.r 0).1, st.k)

end Verif.Snark
