import Verif.Snark.Den12

/-! Sparse multiplications and the Fp4 squaring of the SNARK build. -/

set_option linter.unusedSimpArgs false

namespace Verif
namespace Snark

theorem zero_can : (⟨0, 0⟩ : R2).SCan := ⟨p_pos, p_pos⟩
theorem sden_zero : (⟨0, 0⟩ : R2).sden = 0 := by
  refine G2.ext ?_ ?_ <;> simp [R2.sden, residue, G2.zero_a, G2.zero_b]

/-- the sparse operand of `mul_Fp2_024`: (x.a, 0, x.c) + (0, x.b, 0) w -/
def G6.line (x : G6) : G12 := ⟨⟨x.a, 0, x.c⟩, ⟨0, x.b, 0⟩⟩

namespace S12

theorem sred_le {x : R2} (h : x.SRed) : x.a ≤ pN ∧ x.b ≤ pN := ⟨h.1.le, h.2.le⟩

theorem mul024_den {z : R12} {x : R6} (hz : z.SCan) (hx : x.SCan) : (mul024 z x).SCan ∧ (mul024 z x).sden = z.sden * x.sden.line := by
  obtain ⟨c1, d1⟩ := S2.mulOpt2_den hz.1.1 hx.1
  obtain ⟨c2, d2⟩ := S2.mulOpt2_den hz.1.2.2 hx.2.2
  obtain ⟨c3, d3⟩ := S2.mulOpt2_den hz.2.2.1 hx.2.1
  obtain ⟨c4, d4⟩ := S2.add_den hz.1.1 hz.2.2.1
  obtain ⟨c5, d5⟩ := S2.add_den hz.1.1 hz.1.2.2
  obtain ⟨c6, d6⟩ := S2.add_den hz.1.2.1 hz.2.1
  obtain ⟨c7, d7⟩ := S2.add_den c6 hz.2.2.2
  obtain ⟨c8, d8⟩ := S2.mulOpt2_den hz.1.2.1 hx.2.2
  obtain ⟨c9, d9⟩ := S2.dAdd_den c8 c3
  obtain ⟨c10, d10⟩ := S2.dMulXi_den c9
  obtain ⟨c11, d11⟩ := S2.dAdd_den c10 c1
  obtain ⟨c12, d12⟩ := S2.dMod_den c11
  obtain ⟨c13, d13⟩ := S2.mulOpt2_den hz.2.2.2 hx.2.1
  obtain ⟨c14, d14⟩ := S2.dAdd_den c8 c13
  obtain ⟨c15, d15⟩ := S2.dAdd_den c13 c2
  obtain ⟨c16, d16⟩ := S2.dMulXi_den c15
  obtain ⟨c17, d17⟩ := S2.mulOpt2_den hz.1.2.1 hx.1
  obtain ⟨c18, d18⟩ := S2.dAdd_den c14 c17
  obtain ⟨c19, d19⟩ := S2.dAdd_den c16 c17
  obtain ⟨c20, d20⟩ := S2.dMod_den c19
  obtain ⟨c21, d21⟩ := S2.add_den hx.1 hx.2.2
  obtain ⟨c22, d22⟩ := S2.mulOpt2_den c5 c21
  obtain ⟨c23, d23⟩ := S2.dSub_den c22 (sred_le c1)
  obtain ⟨c24, d24⟩ := S2.dSub_den c23 (sred_le c2)
  obtain ⟨c25, d25⟩ := S2.mulOpt2_den hz.2.1 hx.2.1
  obtain ⟨c26, d26⟩ := S2.dAdd_den c18 c25
  obtain ⟨c27, d27⟩ := S2.dAdd_den c24 c25
  obtain ⟨c28, d28⟩ := S2.add_den hz.1.2.2 hz.2.2.1
  obtain ⟨c29, d29⟩ := S2.dMod_den c27
  obtain ⟨c30, d30⟩ := S2.add_den hx.2.2 hx.2.1
  obtain ⟨c31, d31⟩ := S2.mulOpt2_den c28 c30
  obtain ⟨c32, d32⟩ := S2.dSub_den c31 (sred_le c2)
  obtain ⟨c33, d33⟩ := S2.dSub_den c32 (sred_le c3)
  obtain ⟨c34, d34⟩ := S2.dMulXi_den c33
  obtain ⟨c35, d35⟩ := S2.mulOpt2_den hz.2.1 hx.1
  obtain ⟨c36, d36⟩ := S2.dAdd_den c26 c35
  obtain ⟨c37, d37⟩ := S2.dAdd_den c34 c35
  obtain ⟨c38, d38⟩ := S2.dMod_den c37
  obtain ⟨c39, d39⟩ := S2.mulOpt2_den hz.2.2.2 hx.2.2
  obtain ⟨c40, d40⟩ := S2.dAdd_den c36 c39
  obtain ⟨c41, d41⟩ := S2.dMulXi_den c39
  obtain ⟨c42, d42⟩ := S2.add_den hx.1 hx.2.1
  obtain ⟨c43, d43⟩ := S2.mulOpt2_den c4 c42
  obtain ⟨c44, d44⟩ := S2.dSub_den c43 (sred_le c1)
  obtain ⟨c45, d45⟩ := S2.dSub_den c44 (sred_le c3)
  obtain ⟨c46, d46⟩ := S2.dAdd_den c41 c45
  obtain ⟨c47, d47⟩ := S2.dMod_den c46
  obtain ⟨c48, d48⟩ := S2.add_den hx.1 hx.2.2
  obtain ⟨c49, d49⟩ := S2.add_den c48 hx.2.1
  obtain ⟨c50, d50⟩ := S2.mulOpt2_den c7 c49
  obtain ⟨c51, d51⟩ := S2.dSub_den c50 (sred_le c40)
  obtain ⟨c52, d52⟩ := S2.dMod_den c51
  -- ⟨⟨z0, z1, z2⟩, ⟨z3, z4, z5⟩⟩
  refine ⟨⟨⟨c12, c20, c29⟩, c38, c47, c52⟩, G12.ext (G6.ext ?_ ?_ ?_) (G6.ext ?_ ?_ ?_)⟩
  · refine d12.trans ?_
    simp only [d1, d2, d3, d4, d5, d6, d7, d8, d9, d10, d11, d12, d13, d14, d15, d16, d17, d18, d19, d20, d21, d22, d23, d24, d25, d26, d27, d28, d29, d30, d31, d32, d33, d34, d35, d36, d37, d38, d39, d40, d41, d42, d43, d44, d45, d46, d47, d48, d49, d50, d51, d52]
    simp only [G12.mul_a, G12.mul_b, G6.add_a, G6.add_b, G6.add_c, G6.mul_a, G6.mul_b, G6.mul_c, G6.line, G6.v, R6.sden, R12.sden]
    ring
  · refine d20.trans ?_
    simp only [d1, d2, d3, d4, d5, d6, d7, d8, d9, d10, d11, d12, d13, d14, d15, d16, d17, d18, d19, d20, d21, d22, d23, d24, d25, d26, d27, d28, d29, d30, d31, d32, d33, d34, d35, d36, d37, d38, d39, d40, d41, d42, d43, d44, d45, d46, d47, d48, d49, d50, d51, d52]
    simp only [G12.mul_a, G12.mul_b, G6.add_a, G6.add_b, G6.add_c, G6.mul_a, G6.mul_b, G6.mul_c, G6.line, G6.v, R6.sden, R12.sden]
    ring
  · refine d29.trans ?_
    simp only [d1, d2, d3, d4, d5, d6, d7, d8, d9, d10, d11, d12, d13, d14, d15, d16, d17, d18, d19, d20, d21, d22, d23, d24, d25, d26, d27, d28, d29, d30, d31, d32, d33, d34, d35, d36, d37, d38, d39, d40, d41, d42, d43, d44, d45, d46, d47, d48, d49, d50, d51, d52]
    simp only [G12.mul_a, G12.mul_b, G6.add_a, G6.add_b, G6.add_c, G6.mul_a, G6.mul_b, G6.mul_c, G6.line, G6.v, R6.sden, R12.sden]
    ring
  · refine d38.trans ?_
    simp only [d1, d2, d3, d4, d5, d6, d7, d8, d9, d10, d11, d12, d13, d14, d15, d16, d17, d18, d19, d20, d21, d22, d23, d24, d25, d26, d27, d28, d29, d30, d31, d32, d33, d34, d35, d36, d37, d38, d39, d40, d41, d42, d43, d44, d45, d46, d47, d48, d49, d50, d51, d52]
    simp only [G12.mul_a, G12.mul_b, G6.add_a, G6.add_b, G6.add_c, G6.mul_a, G6.mul_b, G6.mul_c, G6.line, G6.v, R6.sden, R12.sden]
    ring
  · refine d47.trans ?_
    simp only [d1, d2, d3, d4, d5, d6, d7, d8, d9, d10, d11, d12, d13, d14, d15, d16, d17, d18, d19, d20, d21, d22, d23, d24, d25, d26, d27, d28, d29, d30, d31, d32, d33, d34, d35, d36, d37, d38, d39, d40, d41, d42, d43, d44, d45, d46, d47, d48, d49, d50, d51, d52]
    simp only [G12.mul_a, G12.mul_b, G6.add_a, G6.add_b, G6.add_c, G6.mul_a, G6.mul_b, G6.mul_c, G6.line, G6.v, R6.sden, R12.sden]
    ring
  · refine d52.trans ?_
    simp only [d1, d2, d3, d4, d5, d6, d7, d8, d9, d10, d11, d12, d13, d14, d15, d16, d17, d18, d19, d20, d21, d22, d23, d24, d25, d26, d27, d28, d29, d30, d31, d32, d33, d34, d35, d36, d37, d38, d39, d40, d41, d42, d43, d44, d45, d46, d47, d48, d49, d50, d51, d52]
    simp only [G12.mul_a, G12.mul_b, G6.add_a, G6.add_b, G6.add_c, G6.mul_a, G6.mul_b, G6.mul_c, G6.line, G6.v, R6.sden, R12.sden]
    ring

theorem mul024_024_den {x y : R6} (hx : x.SCan) (hy : y.SCan) : (mul024_024 x y).SCan ∧ (mul024_024 x y).sden = x.sden.line * y.sden.line := by
  obtain ⟨c1, d1⟩ := S2.mulOpt2_den hx.1 hy.1
  obtain ⟨c2, d2⟩ := S2.mulOpt2_den hx.2.2 hy.2.2
  obtain ⟨c3, d3⟩ := S2.mulOpt2_den hx.2.1 hy.2.1
  obtain ⟨c4, d4⟩ := S2.add_den hx.1 hx.2.2
  obtain ⟨c5, d5⟩ := S2.add_den hy.1 hy.2.2
  obtain ⟨c6, d6⟩ := S2.mulOpt2_den c4 c5
  obtain ⟨c7, d7⟩ := S2.dSub_den c6 (sred_le c1)
  obtain ⟨c8, d8⟩ := S2.dSub_den c7 (sred_le c2)
  obtain ⟨c9, d9⟩ := S2.dMod_den c8
  obtain ⟨c10, d10⟩ := S2.add_den hx.2.2 hx.2.1
  obtain ⟨c11, d11⟩ := S2.add_den hy.2.2 hy.2.1
  obtain ⟨c12, d12⟩ := S2.mulOpt2_den c10 c11
  obtain ⟨c13, d13⟩ := S2.dSub_den c12 (sred_le c2)
  obtain ⟨c14, d14⟩ := S2.dSub_den c13 (sred_le c3)
  obtain ⟨c15, d15⟩ := S2.dMulXi_den c14
  obtain ⟨c16, d16⟩ := S2.dMod_den c15
  obtain ⟨c17, d17⟩ := S2.add_den hx.2.1 hx.1
  obtain ⟨c18, d18⟩ := S2.add_den hy.2.1 hy.1
  obtain ⟨c19, d19⟩ := S2.mulOpt2_den c17 c18
  obtain ⟨c20, d20⟩ := S2.dSub_den c19 (sred_le c1)
  obtain ⟨c21, d21⟩ := S2.dSub_den c20 (sred_le c3)
  obtain ⟨c22, d22⟩ := S2.dMod_den c21
  obtain ⟨c23, d23⟩ := S2.dMulXi_den c2
  obtain ⟨c24, d24⟩ := S2.dMod_den c23
  obtain ⟨c25, d25⟩ := S2.dMulXi_den c3
  obtain ⟨c26, d26⟩ := S2.dAdd_den c25 c1
  obtain ⟨c27, d27⟩ := S2.dMod_den c26
  -- ⟨⟨z0, z1, z2⟩, ⟨z3, z4, ⟨0, 0⟩⟩⟩
  refine ⟨⟨⟨c27, c24, c9⟩, c16, c22, zero_can⟩, G12.ext (G6.ext ?_ ?_ ?_) (G6.ext ?_ ?_ ?_)⟩
  · refine d27.trans ?_
    simp only [d1, d2, d3, d4, d5, d6, d7, d8, d9, d10, d11, d12, d13, d14, d15, d16, d17, d18, d19, d20, d21, d22, d23, d24, d25, d26, d27]
    simp only [G12.mul_a, G12.mul_b, G6.add_a, G6.add_b, G6.add_c, G6.mul_a, G6.mul_b, G6.mul_c, G6.line, G6.v, R6.sden, R12.sden]
    ring
  · refine d24.trans ?_
    simp only [d1, d2, d3, d4, d5, d6, d7, d8, d9, d10, d11, d12, d13, d14, d15, d16, d17, d18, d19, d20, d21, d22, d23, d24, d25, d26, d27]
    simp only [G12.mul_a, G12.mul_b, G6.add_a, G6.add_b, G6.add_c, G6.mul_a, G6.mul_b, G6.mul_c, G6.line, G6.v, R6.sden, R12.sden]
    ring
  · refine d9.trans ?_
    simp only [d1, d2, d3, d4, d5, d6, d7, d8, d9, d10, d11, d12, d13, d14, d15, d16, d17, d18, d19, d20, d21, d22, d23, d24, d25, d26, d27]
    simp only [G12.mul_a, G12.mul_b, G6.add_a, G6.add_b, G6.add_c, G6.mul_a, G6.mul_b, G6.mul_c, G6.line, G6.v, R6.sden, R12.sden]
    ring
  · refine d16.trans ?_
    simp only [d1, d2, d3, d4, d5, d6, d7, d8, d9, d10, d11, d12, d13, d14, d15, d16, d17, d18, d19, d20, d21, d22, d23, d24, d25, d26, d27]
    simp only [G12.mul_a, G12.mul_b, G6.add_a, G6.add_b, G6.add_c, G6.mul_a, G6.mul_b, G6.mul_c, G6.line, G6.v, R6.sden, R12.sden]
    ring
  · refine d22.trans ?_
    simp only [d1, d2, d3, d4, d5, d6, d7, d8, d9, d10, d11, d12, d13, d14, d15, d16, d17, d18, d19, d20, d21, d22, d23, d24, d25, d26, d27]
    simp only [G12.mul_a, G12.mul_b, G6.add_a, G6.add_b, G6.add_c, G6.mul_a, G6.mul_b, G6.mul_c, G6.line, G6.v, R6.sden, R12.sden]
    ring
  · refine sden_zero.trans ?_
    simp only [G12.mul_a, G12.mul_b, G6.add_a, G6.add_b, G6.add_c, G6.mul_a, G6.mul_b, G6.mul_c, G6.line, G6.v, R6.sden, R12.sden]
    ring

theorem sqFp4_den {x0 x1 : R2} (h0 : x0.SCan) (h1 : x1.SCan) :
    (sqFp4 x0 x1).1.SCan ∧ (sqFp4 x0 x1).2.SCan ∧
    (sqFp4 x0 x1).1.sden = x0.sden * x0.sden + G2.xi * (x1.sden * x1.sden) ∧
    (sqFp4 x0 x1).2.sden = 2 * (x0.sden * x1.sden) := by
  obtain ⟨c1, d1⟩ := S2.dSquare_den h0
  obtain ⟨c2, d2⟩ := S2.dSquare_den h1
  obtain ⟨c3, d3⟩ := S2.dMulXi_den c2
  obtain ⟨c4, d4⟩ := S2.dAdd_den c3 c1
  obtain ⟨c5, d5⟩ := S2.add_den h0 h1
  obtain ⟨c6, d6⟩ := S2.dMod_den c4
  obtain ⟨c7, d7⟩ := S2.dSquare_den c5
  obtain ⟨c8, d8⟩ := S2.dSub_den c7 (sred_le c1)
  obtain ⟨c9, d9⟩ := S2.dSub_den c8 (sred_le c2)
  -- (z0, S2.dMod T2)
  obtain ⟨e1, e2⟩ := S2.dMod_den c9
  refine ⟨c6, e1, ?_, ?_⟩
  · refine d6.trans ?_
    simp only [d1, d2, d3, d4, d5, d6, d7, d8, d9]; ring
  · refine e2.trans ?_
    simp only [d1, d2, d3, d4, d5, d6, d7, d8, d9]; ring

end S12
end Snark
end Verif
