import Verif.Tower.F12

/-! Sparse multiplications and the Fp4 squaring on raw buffers. -/

set_option linter.unusedSimpArgs false

namespace Verif
open Fp

/-- the `F12` element denoted by raw buffers -/
noncomputable def R12.den (x : R12) : F12 := ⟨x.a.den, x.b.den⟩
theorem F12.den_raw (x : F12) : x.raw.den = x := F12.ext (F6.den_raw _) (F6.den_raw _)
theorem F12.ofRaw_eq {r : R12} (h : r.Canon) : F12.ofRaw r h = r.den :=
  F12.ext (F6.ofRaw_eq h.1) (F6.ofRaw_eq h.2)

theorem zero_canon : (⟨0, 0⟩ : R2).Canon := ⟨p_pos, p_pos⟩
theorem den_zero : (⟨0, 0⟩ : R2).den = 0 := F2.den_raw 0

/-- the sparse operand of `mul_Fp2_024`: (x.a, 0, x.c) + (0, x.b, 0) w -/
def F6.line (x : F6) : F12 := ⟨⟨x.a, 0, x.c⟩, ⟨0, x.b, 0⟩⟩

namespace Fp12

theorem redD_le {x : R2} (h : x.RedD) : x.a ≤ pN ∧ x.b ≤ pN := ⟨h.1.le, h.2.le⟩

theorem mul024_den {z : R12} {x : R6} (hz : z.Canon) (hx : x.Canon) : (mul024 z x).Canon ∧ (mul024 z x).den = z.den * x.den.line := by
  obtain ⟨c1, d1⟩ := Fp2.mulOpt2_den hz.1.1 hx.1
  obtain ⟨c2, d2⟩ := Fp2.mulOpt2_den hz.1.2.2 hx.2.2
  obtain ⟨c3, d3⟩ := Fp2.mulOpt2_den hz.2.2.1 hx.2.1
  obtain ⟨c4, d4⟩ := Fp2.add_den hz.1.1 hz.2.2.1
  obtain ⟨c5, d5⟩ := Fp2.add_den hz.1.1 hz.1.2.2
  obtain ⟨c6, d6⟩ := Fp2.add_den hz.1.2.1 hz.2.1
  obtain ⟨c7, d7⟩ := Fp2.add_den c6 hz.2.2.2
  obtain ⟨c8, d8⟩ := Fp2.mulOpt2_den hz.1.2.1 hx.2.2
  obtain ⟨c9, d9⟩ := Fp2.dAdd_den c8 c3
  obtain ⟨c10, d10⟩ := Fp2.dMulXi_den c9
  obtain ⟨c11, d11⟩ := Fp2.dAdd_den c10 c1
  obtain ⟨c12, d12⟩ := Fp2.dMod_den c11
  obtain ⟨c13, d13⟩ := Fp2.mulOpt2_den hz.2.2.2 hx.2.1
  obtain ⟨c14, d14⟩ := Fp2.dAdd_den c8 c13
  obtain ⟨c15, d15⟩ := Fp2.dAdd_den c13 c2
  obtain ⟨c16, d16⟩ := Fp2.dMulXi_den c15
  obtain ⟨c17, d17⟩ := Fp2.mulOpt2_den hz.1.2.1 hx.1
  obtain ⟨c18, d18⟩ := Fp2.dAdd_den c14 c17
  obtain ⟨c19, d19⟩ := Fp2.dAdd_den c16 c17
  obtain ⟨c20, d20⟩ := Fp2.dMod_den c19
  obtain ⟨c21, d21⟩ := Fp2.add_den hx.1 hx.2.2
  obtain ⟨c22, d22⟩ := Fp2.mulOpt2_den c5 c21
  obtain ⟨c23, d23⟩ := Fp2.dSub_den c22 (redD_le c1)
  obtain ⟨c24, d24⟩ := Fp2.dSub_den c23 (redD_le c2)
  obtain ⟨c25, d25⟩ := Fp2.mulOpt2_den hz.2.1 hx.2.1
  obtain ⟨c26, d26⟩ := Fp2.dAdd_den c18 c25
  obtain ⟨c27, d27⟩ := Fp2.dAdd_den c24 c25
  obtain ⟨c28, d28⟩ := Fp2.add_den hz.1.2.2 hz.2.2.1
  obtain ⟨c29, d29⟩ := Fp2.dMod_den c27
  obtain ⟨c30, d30⟩ := Fp2.add_den hx.2.2 hx.2.1
  obtain ⟨c31, d31⟩ := Fp2.mulOpt2_den c28 c30
  obtain ⟨c32, d32⟩ := Fp2.dSub_den c31 (redD_le c2)
  obtain ⟨c33, d33⟩ := Fp2.dSub_den c32 (redD_le c3)
  obtain ⟨c34, d34⟩ := Fp2.dMulXi_den c33
  obtain ⟨c35, d35⟩ := Fp2.mulOpt2_den hz.2.1 hx.1
  obtain ⟨c36, d36⟩ := Fp2.dAdd_den c26 c35
  obtain ⟨c37, d37⟩ := Fp2.dAdd_den c34 c35
  obtain ⟨c38, d38⟩ := Fp2.dMod_den c37
  obtain ⟨c39, d39⟩ := Fp2.mulOpt2_den hz.2.2.2 hx.2.2
  obtain ⟨c40, d40⟩ := Fp2.dAdd_den c36 c39
  obtain ⟨c41, d41⟩ := Fp2.dMulXi_den c39
  obtain ⟨c42, d42⟩ := Fp2.add_den hx.1 hx.2.1
  obtain ⟨c43, d43⟩ := Fp2.mulOpt2_den c4 c42
  obtain ⟨c44, d44⟩ := Fp2.dSub_den c43 (redD_le c1)
  obtain ⟨c45, d45⟩ := Fp2.dSub_den c44 (redD_le c3)
  obtain ⟨c46, d46⟩ := Fp2.dAdd_den c41 c45
  obtain ⟨c47, d47⟩ := Fp2.dMod_den c46
  obtain ⟨c48, d48⟩ := Fp2.add_den hx.1 hx.2.2
  obtain ⟨c49, d49⟩ := Fp2.add_den c48 hx.2.1
  obtain ⟨c50, d50⟩ := Fp2.mulOpt2_den c7 c49
  obtain ⟨c51, d51⟩ := Fp2.dSub_den c50 (redD_le c40)
  obtain ⟨c52, d52⟩ := Fp2.dMod_den c51
  -- ⟨⟨z0, z1, z2⟩, ⟨z3, z4, z5⟩⟩
  refine ⟨⟨⟨c12, c20, c29⟩, c38, c47, c52⟩, F12.ext (F6.ext ?_ ?_ ?_) (F6.ext ?_ ?_ ?_)⟩
  · refine d12.trans ?_
    simp only [d1, d2, d3, d4, d5, d6, d7, d8, d9, d10, d11, d12, d13, d14, d15, d16, d17, d18, d19, d20, d21, d22, d23, d24, d25, d26, d27, d28, d29, d30, d31, d32, d33, d34, d35, d36, d37, d38, d39, d40, d41, d42, d43, d44, d45, d46, d47, d48, d49, d50, d51, d52]
    simp only [F12.mul_a, F12.mul_b, F6.add_a, F6.add_b, F6.add_c, F6.mul_a, F6.mul_b, F6.mul_c, F6.line, F6.v, R6.den, R12.den]
    ring
  · refine d20.trans ?_
    simp only [d1, d2, d3, d4, d5, d6, d7, d8, d9, d10, d11, d12, d13, d14, d15, d16, d17, d18, d19, d20, d21, d22, d23, d24, d25, d26, d27, d28, d29, d30, d31, d32, d33, d34, d35, d36, d37, d38, d39, d40, d41, d42, d43, d44, d45, d46, d47, d48, d49, d50, d51, d52]
    simp only [F12.mul_a, F12.mul_b, F6.add_a, F6.add_b, F6.add_c, F6.mul_a, F6.mul_b, F6.mul_c, F6.line, F6.v, R6.den, R12.den]
    ring
  · refine d29.trans ?_
    simp only [d1, d2, d3, d4, d5, d6, d7, d8, d9, d10, d11, d12, d13, d14, d15, d16, d17, d18, d19, d20, d21, d22, d23, d24, d25, d26, d27, d28, d29, d30, d31, d32, d33, d34, d35, d36, d37, d38, d39, d40, d41, d42, d43, d44, d45, d46, d47, d48, d49, d50, d51, d52]
    simp only [F12.mul_a, F12.mul_b, F6.add_a, F6.add_b, F6.add_c, F6.mul_a, F6.mul_b, F6.mul_c, F6.line, F6.v, R6.den, R12.den]
    ring
  · refine d38.trans ?_
    simp only [d1, d2, d3, d4, d5, d6, d7, d8, d9, d10, d11, d12, d13, d14, d15, d16, d17, d18, d19, d20, d21, d22, d23, d24, d25, d26, d27, d28, d29, d30, d31, d32, d33, d34, d35, d36, d37, d38, d39, d40, d41, d42, d43, d44, d45, d46, d47, d48, d49, d50, d51, d52]
    simp only [F12.mul_a, F12.mul_b, F6.add_a, F6.add_b, F6.add_c, F6.mul_a, F6.mul_b, F6.mul_c, F6.line, F6.v, R6.den, R12.den]
    ring
  · refine d47.trans ?_
    simp only [d1, d2, d3, d4, d5, d6, d7, d8, d9, d10, d11, d12, d13, d14, d15, d16, d17, d18, d19, d20, d21, d22, d23, d24, d25, d26, d27, d28, d29, d30, d31, d32, d33, d34, d35, d36, d37, d38, d39, d40, d41, d42, d43, d44, d45, d46, d47, d48, d49, d50, d51, d52]
    simp only [F12.mul_a, F12.mul_b, F6.add_a, F6.add_b, F6.add_c, F6.mul_a, F6.mul_b, F6.mul_c, F6.line, F6.v, R6.den, R12.den]
    ring
  · refine d52.trans ?_
    simp only [d1, d2, d3, d4, d5, d6, d7, d8, d9, d10, d11, d12, d13, d14, d15, d16, d17, d18, d19, d20, d21, d22, d23, d24, d25, d26, d27, d28, d29, d30, d31, d32, d33, d34, d35, d36, d37, d38, d39, d40, d41, d42, d43, d44, d45, d46, d47, d48, d49, d50, d51, d52]
    simp only [F12.mul_a, F12.mul_b, F6.add_a, F6.add_b, F6.add_c, F6.mul_a, F6.mul_b, F6.mul_c, F6.line, F6.v, R6.den, R12.den]
    ring

theorem mul024_024_den {x y : R6} (hx : x.Canon) (hy : y.Canon) : (mul024_024 x y).Canon ∧ (mul024_024 x y).den = x.den.line * y.den.line := by
  obtain ⟨c1, d1⟩ := Fp2.mulOpt2_den hx.1 hy.1
  obtain ⟨c2, d2⟩ := Fp2.mulOpt2_den hx.2.2 hy.2.2
  obtain ⟨c3, d3⟩ := Fp2.mulOpt2_den hx.2.1 hy.2.1
  obtain ⟨c4, d4⟩ := Fp2.add_den hx.1 hx.2.2
  obtain ⟨c5, d5⟩ := Fp2.add_den hy.1 hy.2.2
  obtain ⟨c6, d6⟩ := Fp2.mulOpt2_den c4 c5
  obtain ⟨c7, d7⟩ := Fp2.dSub_den c6 (redD_le c1)
  obtain ⟨c8, d8⟩ := Fp2.dSub_den c7 (redD_le c2)
  obtain ⟨c9, d9⟩ := Fp2.dMod_den c8
  obtain ⟨c10, d10⟩ := Fp2.add_den hx.2.2 hx.2.1
  obtain ⟨c11, d11⟩ := Fp2.add_den hy.2.2 hy.2.1
  obtain ⟨c12, d12⟩ := Fp2.mulOpt2_den c10 c11
  obtain ⟨c13, d13⟩ := Fp2.dSub_den c12 (redD_le c2)
  obtain ⟨c14, d14⟩ := Fp2.dSub_den c13 (redD_le c3)
  obtain ⟨c15, d15⟩ := Fp2.dMulXi_den c14
  obtain ⟨c16, d16⟩ := Fp2.dMod_den c15
  obtain ⟨c17, d17⟩ := Fp2.add_den hx.2.1 hx.1
  obtain ⟨c18, d18⟩ := Fp2.add_den hy.2.1 hy.1
  obtain ⟨c19, d19⟩ := Fp2.mulOpt2_den c17 c18
  obtain ⟨c20, d20⟩ := Fp2.dSub_den c19 (redD_le c1)
  obtain ⟨c21, d21⟩ := Fp2.dSub_den c20 (redD_le c3)
  obtain ⟨c22, d22⟩ := Fp2.dMod_den c21
  obtain ⟨c23, d23⟩ := Fp2.dMulXi_den c2
  obtain ⟨c24, d24⟩ := Fp2.dMod_den c23
  obtain ⟨c25, d25⟩ := Fp2.dMulXi_den c3
  obtain ⟨c26, d26⟩ := Fp2.dAdd_den c25 c1
  obtain ⟨c27, d27⟩ := Fp2.dMod_den c26
  -- ⟨⟨z0, z1, z2⟩, ⟨z3, z4, ⟨0, 0⟩⟩⟩
  refine ⟨⟨⟨c27, c24, c9⟩, c16, c22, zero_canon⟩, F12.ext (F6.ext ?_ ?_ ?_) (F6.ext ?_ ?_ ?_)⟩
  · refine d27.trans ?_
    simp only [d1, d2, d3, d4, d5, d6, d7, d8, d9, d10, d11, d12, d13, d14, d15, d16, d17, d18, d19, d20, d21, d22, d23, d24, d25, d26, d27]
    simp only [F12.mul_a, F12.mul_b, F6.add_a, F6.add_b, F6.add_c, F6.mul_a, F6.mul_b, F6.mul_c, F6.line, F6.v, R6.den, R12.den]
    ring
  · refine d24.trans ?_
    simp only [d1, d2, d3, d4, d5, d6, d7, d8, d9, d10, d11, d12, d13, d14, d15, d16, d17, d18, d19, d20, d21, d22, d23, d24, d25, d26, d27]
    simp only [F12.mul_a, F12.mul_b, F6.add_a, F6.add_b, F6.add_c, F6.mul_a, F6.mul_b, F6.mul_c, F6.line, F6.v, R6.den, R12.den]
    ring
  · refine d9.trans ?_
    simp only [d1, d2, d3, d4, d5, d6, d7, d8, d9, d10, d11, d12, d13, d14, d15, d16, d17, d18, d19, d20, d21, d22, d23, d24, d25, d26, d27]
    simp only [F12.mul_a, F12.mul_b, F6.add_a, F6.add_b, F6.add_c, F6.mul_a, F6.mul_b, F6.mul_c, F6.line, F6.v, R6.den, R12.den]
    ring
  · refine d16.trans ?_
    simp only [d1, d2, d3, d4, d5, d6, d7, d8, d9, d10, d11, d12, d13, d14, d15, d16, d17, d18, d19, d20, d21, d22, d23, d24, d25, d26, d27]
    simp only [F12.mul_a, F12.mul_b, F6.add_a, F6.add_b, F6.add_c, F6.mul_a, F6.mul_b, F6.mul_c, F6.line, F6.v, R6.den, R12.den]
    ring
  · refine d22.trans ?_
    simp only [d1, d2, d3, d4, d5, d6, d7, d8, d9, d10, d11, d12, d13, d14, d15, d16, d17, d18, d19, d20, d21, d22, d23, d24, d25, d26, d27]
    simp only [F12.mul_a, F12.mul_b, F6.add_a, F6.add_b, F6.add_c, F6.mul_a, F6.mul_b, F6.mul_c, F6.line, F6.v, R6.den, R12.den]
    ring
  · refine den_zero.trans ?_
    simp only [F12.mul_a, F12.mul_b, F6.add_a, F6.add_b, F6.add_c, F6.mul_a, F6.mul_b, F6.mul_c, F6.line, F6.v, R6.den, R12.den]
    ring

theorem sqFp4_den {x0 x1 : R2} (h0 : x0.Canon) (h1 : x1.Canon) :
    (sqFp4 x0 x1).1.Canon ∧ (sqFp4 x0 x1).2.Canon ∧
    (sqFp4 x0 x1).1.den = x0.den * x0.den + F2.xi * (x1.den * x1.den) ∧
    (sqFp4 x0 x1).2.den = 2 * (x0.den * x1.den) := by
  obtain ⟨c1, d1⟩ := Fp2.dSquare_den h0
  obtain ⟨c2, d2⟩ := Fp2.dSquare_den h1
  obtain ⟨c3, d3⟩ := Fp2.dMulXi_den c2
  obtain ⟨c4, d4⟩ := Fp2.dAdd_den c3 c1
  obtain ⟨c5, d5⟩ := Fp2.add_den h0 h1
  obtain ⟨c6, d6⟩ := Fp2.dMod_den c4
  obtain ⟨c7, d7⟩ := Fp2.dSquare_den c5
  obtain ⟨c8, d8⟩ := Fp2.dSub_den c7 (redD_le c1)
  obtain ⟨c9, d9⟩ := Fp2.dSub_den c8 (redD_le c2)
  -- (z0, Fp2.dMod T2)
  obtain ⟨e1, e2⟩ := Fp2.dMod_den c9
  refine ⟨c6, e1, ?_, ?_⟩
  · refine d6.trans ?_
    simp only [d1, d2, d3, d4, d5, d6, d7, d8, d9]; ring
  · refine e2.trans ?_
    simp only [d1, d2, d3, d4, d5, d6, d7, d8, d9]; ring

end Fp12
end Verif
