import Verif.Base

/-!
Word-level model of the generated x64 field routines (src/zm2.cpp, `PairingCode`), default build
(`BN_SUPPORT_SNARK` undefined).  A 256-bit operand is four 64-bit words, a `Dbl` operand eight.
Each routine is the composition of the carry chains (`add/adc`, `sub/sbb`), `mul`/`mulx` word
products, masks and conditional moves in the order of the source.  Simplification: register
allocation, stack frames and the spilling of registers to xmm are not modelled; the `interleaveLoad`
variants only reorder loads and are identified with the plain ones.
-/

namespace Verif.Fp

-- `W256` = 2^256, the number of values of a 256-bit buffer; `W512` = 2^512.
scoped notation "W256" =>
  (115792089237316195423570985008687907853269984665640564039457584007913129639936 : ℕ)
scoped notation "W512" =>
  (13407807929942597099574024998205846127479365820592393377723561443721764030073546976801874298166903427690031858186486050853753882811946569946433649006084096 : ℕ)

/-- The characteristic p: `p = 36z^4+36z^3+24z^2+6z+1`, zm2.cpp:40-41 (hex value in the comment) and
bn.h:215-225.  The equation with z is theorem `C19_params`. -/
def p : ℕ := 0x2523648240000001ba344d80000000086121000000000013a700000000000013

/-- Four words, little endian: `Unit v_[N]`, zm2.h:266. -/
structure W4 where
  w0 : ℕ
  w1 : ℕ
  w2 : ℕ
  w3 : ℕ
  deriving DecidableEq, Repr

/-- Number held by a 256-bit buffer. -/
def W4.val (x : W4) : ℕ := x.w0 + B64 * (x.w1 + B64 * (x.w2 + B64 * x.w3))

/-- The buffer holding a number (truncated to 256 bits). -/
def W4.of (n : ℕ) : W4 :=
  ⟨n % B64, n / B64 % B64, n / (B64 * B64) % B64, n / (B64 * B64 * B64) % B64⟩

/-- All four entries are 64-bit words. -/
def W4.Ok (x : W4) : Prop := x.w0 < B64 ∧ x.w1 < B64 ∧ x.w2 < B64 ∧ x.w3 < B64

/-- Eight words: `Unit v_[N * 2]`, zm2.h:404. -/
structure W8 where
  lo : W4
  hi : W4
  deriving DecidableEq, Repr

def W8.val (x : W8) : ℕ := x.lo.val + W256 * x.hi.val
def W8.of (n : ℕ) : W8 := ⟨W4.of n, W4.of (n / W256)⟩
def W8.Ok (x : W8) : Prop := x.lo.Ok ∧ x.hi.Ok

/-- x64 `adc a, b` with carry-in `c`: result word and carry-out (`add` is the case c = 0). -/
def adc (a b c : ℕ) : ℕ × ℕ := ((a + b + c) % B64, (a + b + c) / B64)

/-- x64 `sbb a, b` with borrow-in `c`: result word and borrow-out (`sub` is the case c = 0). -/
def sbb (a b c : ℕ) : ℕ × ℕ := ((a + B64 - (b + c)) % B64, if a < b + c then 1 else 0)

/-- `add_rr`/`add_rm`/`adc_rm`/`load_add_rm`, zm2.cpp:452-510: four-word add with carry-in;
result and carry-out. -/
def add4 (x y : W4) (c : ℕ) : W4 × ℕ :=
  let a0 := adc x.w0 y.w0 c
  let a1 := adc x.w1 y.w1 a0.2
  let a2 := adc x.w2 y.w2 a1.2
  let a3 := adc x.w3 y.w3 a2.2
  (⟨a0.1, a1.1, a2.1, a3.1⟩, a3.2)

/-- `sub_rr`/`sub_rm`/`sbb_rm`/`load_sub_rm`, zm2.cpp:511-574. -/
def sub4 (x y : W4) (c : ℕ) : W4 × ℕ :=
  let a0 := sbb x.w0 y.w0 c
  let a1 := sbb x.w1 y.w1 a0.2
  let a2 := sbb x.w2 y.w2 a1.2
  let a3 := sbb x.w3 y.w3 a2.2
  (⟨a0.1, a1.1, a2.1, a3.1⟩, a3.2)

/-- `s_pTbl[i] = i * p` truncated to 256 bits, zm2.cpp:3676-3678 (`setDirect`). -/
def pTbl (i : ℕ) : W4 := W4.of (i * p)

/-- `in_Fp_add_modp`, zm2.cpp:726-750: subtract p; on borrow (`cmovc`) keep the saved words. -/
def addModp (x : W4) : W4 :=
  let r := sub4 x (pTbl 1) 0
  if r.2 = 1 then x else r.1

/-- `and_` of every word of `y` with a mask that is all ones (m = 1) or 0 (`sbb rdx, rdx`). -/
def maskW (m : ℕ) (y : W4) : W4 := if m = 1 then y else ⟨0, 0, 0, 0⟩

/-- `in_Fp_sub_modp`, zm2.cpp:764-796: add `p & mask`, mask from the incoming borrow. -/
def subModp (x : W4) (borrow : ℕ) : W4 := (add4 x (maskW borrow (pTbl 1)) 0).1

/-- `make_Fp_addNC`, zm2.cpp:682-701. -/
def wAddNC (x y : W4) : W4 := (add4 x y 0).1
/-- `make_Fp_subNC`, zm2.cpp:702-719. -/
def wSubNC (x y : W4) : W4 := (sub4 x y 0).1
/-- `in_Fp_add`, zm2.cpp:752-763 (`make_Fp_add` 994). -/
def wAdd (x y : W4) : W4 := addModp (add4 x y 0).1
/-- `in_Fp_sub`, zm2.cpp:798-806 (`make_Fp_sub` 999). -/
def wSub (x y : W4) : W4 := let d := sub4 x y 0; subModp d.1 d.2

/-- `make_Fp_neg` zm2.cpp:1029-1054 (and `in_Fp_neg` 887-898): the `or_` of all words decides. -/
def wNeg (x : W4) : W4 :=
  if x.w0 ||| x.w1 ||| x.w2 ||| x.w3 = 0 then x else (sub4 (pTbl 1) x 0).1

/-- `shrd a, b, n`: low word of [b:a] >> n. -/
def shrd (a b n : ℕ) : ℕ := (a + B64 * b) / 2 ^ n % B64

/-- `shrn` zm2.cpp:1058-1064, `make_Fp_shr` 1128-1146. -/
def wShr (n : ℕ) (x : W4) : W4 :=
  ⟨shrd x.w0 x.w1 n, shrd x.w1 x.w2 n, shrd x.w2 x.w3 n, x.w3 / 2 ^ n⟩

/-- `halfTbl_`, zm2.cpp:3576-3581. -/
def halfTbl (i : ℕ) : W4 := if i = 0 then W4.of 0 else W4.of ((p + 1) / 2)
/-- `quarterTbl_`, zm2.cpp:3583-3590. -/
def quarterTbl (i : ℕ) : W4 := if i = 0 then W4.of 0 else W4.of ((p + 1) / 4 * i)

/-- `Fp::divBy2` zm2.h:216-221 and the generated `sub_Fp_divBy2` zm2.cpp:1083-1095 (same steps). -/
def wDivBy2 (x : W4) : W4 := wAddNC (wShr 1 x) (halfTbl (x.w0 % 2))
/-- `Fp::divBy4` zm2.h:223-228. -/
def wDivBy4 (x : W4) : W4 := wAddNC (wShr 2 x) (quarterTbl (x.w0 % 4))

/-- `FpDbl_addNC`, zm2.cpp:838-845 (also `make_FpDbl_addNC` 1611). -/
def dAddNC (x y : W8) : W8 :=
  let l := add4 x.lo y.lo 0
  ⟨l.1, (add4 x.hi y.hi l.2).1⟩
/-- `FpDbl_subNC`, zm2.cpp:846-853, 1619-1626. -/
def dSubNC (x y : W8) : W8 :=
  let l := sub4 x.lo y.lo 0
  ⟨l.1, (sub4 x.hi y.hi l.2).1⟩
/-- `in_FpDbl_add`, zm2.cpp:807-814: reduction on the high half only. -/
def dAdd (x y : W8) : W8 :=
  let l := add4 x.lo y.lo 0
  ⟨l.1, addModp (add4 x.hi y.hi l.2).1⟩
/-- `sub_FpDbl_sub`, zm2.cpp:818-825. -/
def dSub (x y : W8) : W8 :=
  let l := sub4 x.lo y.lo 0
  let h := sub4 x.hi y.hi l.2
  ⟨l.1, subModp h.1 h.2⟩

/-- `in_FpDbl_neg`, zm2.cpp:1546-1581.  The zero test ORs the destination pointer `gp1` (never 0)
instead of `gt1`, so the branch for zero is never taken: the result is always pN - x
(`&s_pTbl[0]` read as eight words is p * 2^256). -/
def dNeg (x : W8) : W8 :=
  let l := sub4 (pTbl 0) x.lo 0
  ⟨l.1, (sub4 (pTbl 1) x.hi l.2).1⟩

/-- `pNTbl_[h] = pN >> h`, zm2.cpp:3684-3687. -/
def pNTbl (h : ℕ) : W8 := W8.of (p * W256 / 2 ^ h)

/-- `in_FpDbl_subOpt1`, zm2.cpp:1802-1814: only the top word of the low half of `pNTbl_[2]` is
added (the lower 192 bits are taken to be zero), then the full high half with carry. -/
def dSubOpt1 (x y : W8) : W8 :=
  let t := adc x.lo.w3 (pNTbl 2).lo.w3 0
  let h := add4 x.hi (pNTbl 2).hi t.2
  let l' := sub4 ⟨x.lo.w0, x.lo.w1, x.lo.w2, t.1⟩ y.lo 0
  ⟨l'.1, (sub4 h.1 y.hi l'.2).1⟩

/-- `mul4x1`, zm2.cpp:1147-1182: `[d:x:t2:t1:t0] = py[3..0] * x`; both the `mulx` and the `mul`
variant form the four double-word products and add high and low parts in one carry chain. -/
def mul4x1 (y : W4) (x : ℕ) : W4 × ℕ :=
  let t1 := adc (x * y.w0 / B64) (x * y.w1 % B64) 0
  let t2 := adc (x * y.w1 / B64) (x * y.w2 % B64) t1.2
  let t3 := adc (x * y.w2 / B64) (x * y.w3 % B64) t2.2
  (⟨x * y.w0 % B64, t1.1, t2.1, t3.1⟩, (x * y.w3 / B64 + t3.2) % B64)

/-- `pp_ = -1/p mod 2^64`, zm2.cpp:3310-3317 (computed there with `ZmZ` modulo 2^64; that this
literal is that number is `pp_spec`). -/
def pp : ℕ := 0x8435e50d79435e5

/-- `montgomery1`, zm2.cpp:1195-1221: `c += x * y; q = c0 * pp; c = (c + q * p) >> 64` on the
five-word accumulator (`c`, `c4`); returns the shifted five words. -/
def montgomery1 (c : W4) (c4 : ℕ) (x : W4) (y : ℕ) : W4 × ℕ :=
  let m := mul4x1 x y
  let s := add4 c m.1 0
  let s4 := (c4 + m.2 + s.2) % B64
  let q := s.1.w0 * pp % B64
  let n := mul4x1 (pTbl 1) q
  let t := add4 s.1 n.1 0
  let t4 := adc s4 n.2 t.2
  (⟨t.1.w1, t.1.w2, t.1.w3, t4.1⟩, (t.1.w0 + t4.2) % B64)

/-- First round of `Fp_mul` (`isFirst`), zm2.cpp:1202-1205: the accumulator is the product. -/
def montgomery1First (x : W4) (y : ℕ) : W4 × ℕ :=
  let m := mul4x1 x y
  let q := m.1.w0 * pp % B64
  let n := mul4x1 (pTbl 1) q
  let t := add4 m.1 n.1 0
  let t4 := adc m.2 n.2 t.2
  (⟨t.1.w1, t.1.w2, t.1.w3, t4.1⟩, (t.1.w0 + t4.2) % B64)

/-- `Fp_mul`, zm2.cpp:1228-1265: four rounds, then conditional subtraction of p on the low four
words (the fifth word is ignored). -/
def wMul (x y : W4) : W4 :=
  let c := montgomery1First x y.w0
  let c := montgomery1 c.1 c.2 x y.w1
  let c := montgomery1 c.1 c.2 x y.w2
  let c := montgomery1 c.1 c.2 x y.w3
  addModp c.1

/-- `mul4x4`, zm2.cpp:1302-1374: row-by-row schoolbook product. -/
def mul4x4 (x y : W4) : W8 :=
  -- [t3:t2:t1:t0:pz0] = px[0] * py
  let m0 := mul4x1 y x.w0
  let a0 : W4 := ⟨m0.1.w1, m0.1.w2, m0.1.w3, m0.2⟩
  let m1 := mul4x1 y x.w1
  let s1 := add4 a0 m1.1 0
  let d1 := (m1.2 + s1.2) % B64
  let a1 : W4 := ⟨s1.1.w1, s1.1.w2, s1.1.w3, d1⟩
  let m2 := mul4x1 y x.w2
  let s2 := add4 a1 m2.1 0
  let d2 := (m2.2 + s2.2) % B64
  let a2 : W4 := ⟨s2.1.w1, s2.1.w2, s2.1.w3, d2⟩
  let m3 := mul4x1 y x.w3
  let s3 := add4 a2 m3.1 0
  let d3 := (m3.2 + s3.2) % B64
  ⟨⟨m0.1.w0, s1.1.w0, s2.1.w0, s3.1.w0⟩, ⟨s3.1.w1, s3.1.w2, s3.1.w3, d3⟩⟩

/-- One reduction round of `mont_mod` (zm2.cpp:1390-1459): `c` is the low four words of the current
value, `h` the remaining higher words (least significant first).  Adds q * p with q = c0 * pp, ripples
the carry through `h` and drops the low word. -/
def modRound (c : W4) (h0 : ℕ) : W4 × ℕ × ℕ :=
  let q := c.w0 * pp % B64
  let n := mul4x1 (pTbl 1) q
  let t := add4 c n.1 0
  let u := adc h0 n.2 t.2
  (t.1, u.1, u.2)

/-- `mont_mod`, zm2.cpp:1381-1466. -/
def wMod (x : W8) : W4 :=
  let r1 := modRound x.lo x.hi.w0
  let a1 := adc x.hi.w1 0 r1.2.2
  let a2 := adc x.hi.w2 0 a1.2
  let a3 := adc x.hi.w3 0 a2.2
  let r2 := modRound ⟨r1.1.w1, r1.1.w2, r1.1.w3, r1.2.1⟩ a1.1
  let b2 := adc a2.1 0 r2.2.2
  let b3 := adc a3.1 0 b2.2
  let r3 := modRound ⟨r2.1.w1, r2.1.w2, r2.1.w3, r2.2.1⟩ b2.1
  let c3 := adc b3.1 0 r3.2.2
  let r4 := modRound ⟨r3.1.w1, r3.1.w2, r3.1.w3, r3.2.1⟩ c3.1
  addModp ⟨r4.1.w1, r4.1.w2, r4.1.w3, r4.2.1⟩

/-- `fast_modp`, zm2.cpp:1686-1706: index by the top three bits, subtract, add p back on borrow. -/
def wFastModp (x : W4) : W4 :=
  let d := sub4 x (pTbl (x.w3 / 2 ^ 61)) 0
  (add4 d.1 (maskW d.2 (pTbl 1)) 0).1

/-- `in_Fp_2z_add_3x`, zm2.cpp:2538-2545: 2(z + x) + x, then `fast_modp`. -/
def w2zAdd3x (z x : W4) : W4 :=
  let t := (add4 z x 0).1
  let t := (add4 t t 0).1
  wFastModp (add4 t x 0).1

/-- Registers of the almost-inverse loop, `make_Fp_preInv` zm2.cpp:1873-1900. -/
structure InvSt where
  u : W4
  v : W4
  r : W4
  s : W4
  k : ℕ

/-- One pass through `.lp`, zm2.cpp:1917-1962. -/
def invStep (st : InvSt) : InvSt :=
  let shl1 := fun (x : W4) => (add4 x x 0).1
  if st.u.w0 % 2 = 0 then
    { st with u := wShr 1 st.u, s := shl1 st.s, k := st.k + 1 }
  else if st.v.w0 % 2 = 0 then
    { st with v := wShr 1 st.v, r := shl1 st.r, k := st.k + 1 }
  else
    let d := sub4 st.v st.u 0
    if d.2 = 0 then
      { st with v := wShr 1 d.1, s := (add4 st.s st.r 0).1, r := shl1 st.r, k := st.k + 1 }
    else
      { st with u := wShr 1 (sub4 st.u st.v 0).1, r := (add4 st.r st.s 0).1,
                s := shl1 st.s, k := st.k + 1 }

/-- The loop with fuel; `jz(".exit")` when all words of v are 0. -/
def invLoop : ℕ → InvSt → Res InvSt
  | 0, st => if st.v.w0 ||| st.v.w1 ||| st.v.w2 ||| st.v.w3 = 0 then .ok st else .diverge
  | n + 1, st =>
    if st.v.w0 ||| st.v.w1 ||| st.v.w2 ||| st.v.w3 = 0 then .ok st
    else invLoop n (invStep st)

/-- `preInv`, zm2.cpp:1870-1979: r := 2p - r and the iteration count.  Fuel 511 is the number of
passes whose count still indexes the 512-entry table; more passes are reported as `diverge`. -/
def wPreInv (x : W4) : Res (W4 × ℕ) :=
  (invLoop 511 ⟨pTbl 1, x, W4.of 0, W4.of 1, 0⟩) >>= fun st =>
    .ok ((sub4 (pTbl 2) st.r 0).1, st.k)

end Verif.Fp
