import Verif.Cpp.Code

/-! `CompressT::squareC` as a function of buffers, and its agreement with the generated pass. -/

namespace Verif.Cpp
open Fp

/-- the members `g2_, g3_, g4_, g5_` of a `CompressT` refer to parts of an `Fp12`, bn.h:2136-2158 -/
def comp (w : R12) : RC := ⟨w.b.a, w.a.c, w.a.b, w.b.c⟩
/-- the `Fp12` after an assignment to these members -/
def setComp (w : R12) (c : RC) : R12 := ⟨⟨w.a.a, c.g4, c.g3⟩, ⟨c.g2, w.b.b, c.g5⟩⟩

/-- `Fp::_3z_add_2xC` on one component, zm2.h:98-104 -/
def z3x2C (z x : ℕ) : ℕ :=
  let z := Fp.addNC z x
  let z := Fp.addNC z z
  let z := Fp.addNC z x
  Fp.fastModp z
/-- g4 = 2 (t0 - g4) + t0 with the `Fp2` routines, bn.h:2286-2288 -/
def g4C (t g : R2) : R2 :=
  let g := Fp2.sub t g
  let g := Fp2.add g g
  Fp2.add g t

/-- one compressed squaring, with the two steps in which `squareC` and the generated code differ as parameters -/
def compSquareW (h4 : R2 → R2 → R2) (h25 : R2 → R2 → R2) (z : RC) : RC :=
  let T0 := Fp2.dSquare z.g4
  let T1 := Fp2.dSquare z.g5
  let T2 := Fp2.dMulXi T1
  let T2 := Fp2.dAdd T2 T0
  let t2 := Fp2.dMod T2
  let t0 := Fp2.add z.g4 z.g5
  let T2 := Fp2.dSquare t0
  let T0 := Fp2.dAdd T0 T1
  let T2 := Fp2.dSub T2 T0
  let t0 := Fp2.dMod T2
  let t1 := Fp2.add z.g2 z.g3
  let T3 := Fp2.dSquare t1
  let T2 := Fp2.dSquare z.g2
  let t1 := Fp2.mulXi t0
  let g2 := h25 z.g2 t1
  let t1 := Fp2.sub t2 z.g3
  let t1 := Fp2.add t1 t1
  let T1 := Fp2.dSquare z.g3
  let g3 := Fp2.add t1 t2
  let T0 := Fp2.dMulXi T1
  let T0 := Fp2.dAdd T0 T2
  let t0 := Fp2.dMod T0
  let g4 := h4 t0 z.g4
  let T2 := Fp2.dAddNC T2 T1
  let T3 := Fp2.dSub T3 T2
  let t0 := Fp2.dMod T3
  let g5 := h25 z.g5 t0
  ⟨g2, g3, g4, g5⟩

theorem compSquareW_gen (z : RC) :
    compSquareW (fun t g => ⟨Fp.compG4 t.a g.a, Fp.compG4 t.b g.b⟩) Fp2.add2z3x z = compSquare z := rfl

/-- `CompressT::squareC`, bn.h:2232-2298, as a function of the four members -/
def compSquareC (z : RC) : RC := compSquareW g4C (fun z x => ⟨z3x2C z.a x.a, z3x2C z.b x.b⟩) z

theorem z3x2C_eq {z x : ℕ} (hz : z < p) (hx : x < p) : z3x2C z x = Fp.add2z3x z x := by
  have h5 : 5 * p < 7 * 2 ^ 253 := by rw [p_eq]; norm_num
  have hW : 5 * p < W256 := by rw [p_eq]; norm_num
  unfold z3x2C
  dsimp only
  rw [add2z3x_val hz hx, addNC_val (x := z) (by omega), addNC_val (x := z + x) (by omega), addNC_val (by omega),
    fastModp_val (by omega)]
  congr 1; ring

theorem g4C_eq {t g : R2} (ht : t.Canon) (hg : g.Canon) : g4C t g = ⟨Fp.compG4 t.a g.a, Fp.compG4 t.b g.b⟩ := by
  obtain ⟨c1, d1⟩ := Fp2.sub_den ht hg
  obtain ⟨c2, d2⟩ := Fp2.add_den c1 c1
  obtain ⟨c3, d3⟩ := Fp2.add_den c2 ht
  obtain ⟨c, d⟩ := compG4_den ht hg
  have e : (g4C t g).den = (⟨Fp.compG4 t.a g.a, Fp.compG4 t.b g.b⟩ : R2).den := by
    rw [d]; refine d3.trans ?_; rw [d2, d1]
  have c3 : (g4C t g).Canon := c3
  exact R2.den_inj c3 c e

theorem compSquareC_eq {z : RC} (hz : z.Canon) : compSquareC z = compSquare z := by
  obtain ⟨h2, h3, h4, h5⟩ := hz
  obtain ⟨c1, -⟩ := Fp2.dSquare_den h4
  obtain ⟨c2, -⟩ := Fp2.dSquare_den h5
  obtain ⟨c6, -⟩ := Fp2.add_den h4 h5
  obtain ⟨c7, -⟩ := Fp2.dSquare_den c6
  obtain ⟨c8, -⟩ := Fp2.dAdd_den c1 c2
  obtain ⟨c9, -⟩ := Fp2.dSub_den c7 (Fp12.redD_le c8)
  obtain ⟨c10, -⟩ := Fp2.dMod_den c9
  obtain ⟨c11, -⟩ := Fp2.add_den h2 h3
  obtain ⟨c12, -⟩ := Fp2.dSquare_den c11
  obtain ⟨c13, -⟩ := Fp2.dSquare_den h2
  obtain ⟨c14, -⟩ := Fp2.mulXi_den c10
  obtain ⟨c18, -⟩ := Fp2.dSquare_den h3
  obtain ⟨c20, -⟩ := Fp2.dMulXi_den c18
  obtain ⟨c21, -⟩ := Fp2.dAdd_den c20 c13
  obtain ⟨c22, -⟩ := Fp2.dMod_den c21
  obtain ⟨c24, -⟩ := Fp2.dAddNC_den (Fp2.dSquare_half h2) (Fp2.dSquare_half h3)
  obtain ⟨c25, -⟩ := Fp2.dSub_den c12 c24
  obtain ⟨c26, -⟩ := Fp2.dMod_den c25
  rw [← compSquareW_gen]
  unfold compSquareC compSquareW
  dsimp only
  rw [g4C_eq c22 h4, z3x2C_eq h2.1 c14.1, z3x2C_eq h2.2 c14.2, z3x2C_eq h5.1 c26.1, z3x2C_eq h5.2 c26.2]
  rfl

end Verif.Cpp
