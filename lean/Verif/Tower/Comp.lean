import Verif.Tower.Frob

/-! `CompressT::square_n` on raw buffers. -/

namespace Verif
open Fp

theorem Fp.residue_nat {x y : ℕ} (h : x = y % p) : residue x = residue y := by
  unfold residue; rw [h, cast_mod]

/-- `_2z_add_3x` -/
theorem Fp2.add2z3x_den {z x : R2} (hz : z.Canon) (hx : x.Canon) :
    (Fp2.add2z3x z x).Canon ∧ (Fp2.add2z3x z x).den = 2 * z.den + 3 * x.den := by
  have e : ∀ {a b : ℕ}, a < p → b < p → Fp.add2z3x a b < p ∧
      residue (Fp.add2z3x a b) = (residue a + residue a) + (residue b + residue b + residue b) := by
    intro a b ha hb
    have h := Fp.add2z3x_val ha hb
    refine ⟨by rw [h]; exact Nat.mod_lt _ p_pos, ?_⟩
    rw [Fp.residue_nat h, ← residue_plus, ← residue_plus, ← residue_plus, ← residue_plus]
    congr 1; ring
  obtain ⟨h1, h2⟩ := e hz.1 hx.1
  obtain ⟨h3, h4⟩ := e hz.2 hx.2
  refine ⟨⟨h1, h3⟩, ?_⟩
  rw [show (2 : F2) * z.den + 3 * x.den = (z.den + z.den) + (x.den + x.den + x.den) by ring]
  refine F2.ext ?_ ?_
  · simp only [F2.add_a, R2.den_a, Fp2.add2z3x]
    rw [h2]; simp only [Fe.ofZ_add]
  · simp only [F2.add_b, R2.den_b, Fp2.add2z3x]
    rw [h4]; simp only [Fe.ofZ_add]

theorem Fp.compG4_spec {t g : ℕ} (ht : t < p) (hg : g < p) : Fp.compG4 t g < p ∧
    residue (Fp.compG4 t g) = residue t - residue g + (residue t - residue g) + residue t := by
  have h5 : 5 * p < 7 * 2 ^ 253 := by rw [p_eq]; norm_num
  have hW : 5 * p < W256 := by rw [p_eq]; norm_num
  have e : Fp.compG4 t g = ((t + p - g) + (t + p - g) + t) % p := by
    unfold Fp.compG4
    dsimp only
    rw [pTbl1_val, addNC_val (x := t) (y := p) (by omega), subNC_val (by omega) (by omega),
      addNC_val (x := t + p - g) (by omega), addNC_val (by omega), fastModp_val (by omega)]
  refine ⟨by rw [e]; exact Nat.mod_lt _ p_pos, ?_⟩
  rw [Fp.residue_nat e, residue_plus, residue_plus, residue_minus (by omega), residue_p]

theorem compG4_den {t g : R2} (ht : t.Canon) (hg : g.Canon) :
    (⟨Fp.compG4 t.a g.a, Fp.compG4 t.b g.b⟩ : R2).Canon ∧
    (⟨Fp.compG4 t.a g.a, Fp.compG4 t.b g.b⟩ : R2).den = t.den - g.den + (t.den - g.den) + t.den := by
  obtain ⟨h1, h2⟩ := Fp.compG4_spec ht.1 hg.1
  obtain ⟨h3, h4⟩ := Fp.compG4_spec ht.2 hg.2
  refine ⟨⟨h1, h3⟩, F2.ext ?_ ?_⟩
  · simp only [F2.add_a, F2.sub_a, R2.den_a]
    rw [h2]; simp only [Fe.ofZ_add, Fe.ofZ_sub]
  · simp only [F2.add_b, F2.sub_b, R2.den_b]
    rw [h4]; simp only [Fe.ofZ_add, Fe.ofZ_sub]

theorem Fp.sq_bound {a b : ℕ} (ha : a < p) (hb : b < p) : 2 * ((a + b) * (a + p - b)) ≤ pN := by
  have h1 : 9 * (p * p) ≤ 2 * pN := by unfold pN; rw [p_eq]; norm_num
  obtain ⟨c, hc⟩ : ∃ c, a + p - b = c := ⟨_, rfl⟩
  rw [hc]
  have hc' : a + b + c = 2 * a + p := by omega
  have h2 : 4 * ((a + b) * c) ≤ (a + b + c) * (a + b + c) := by
    zify; nlinarith [sq_nonneg ((a : ℤ) + b - c)]
  have h3 : (a + b + c) * (a + b + c) ≤ (3 * p) * (3 * p) := by
    apply Nat.mul_le_mul <;> omega
  have h4 : (3 * p) * (3 * p) = 9 * (p * p) := by ring
  omega

theorem Fp2.dSquare_half {x : R2} (hx : x.Canon) : 2 * (Fp2.dSquare x).a ≤ pN ∧ 2 * (Fp2.dSquare x).b ≤ pN := by
  obtain ⟨hxa, hxb⟩ := hx
  have h4 := p_lt_W
  unfold Fp2.dSquare
  dsimp only
  rw [pTbl1_val, anc (x := x.b) (y := x.b) (by omega), anc (x := x.a) (y := p) (by omega),
    anc (x := x.a) (y := x.b) (by omega), subNC_val (by omega) (by omega),
    dmul (by omega) (by omega), dmul (by omega) (by omega)]
  refine ⟨Fp.sq_bound hxa hxb, ?_⟩
  have h1 := prod_lt hxb hxa
  have h2 := pN_qN
  have : 2 * ((x.b + x.b) * x.a) = 4 * (x.b * x.a) := by ring
  omega

theorem Fp2.dAddNC_den {x y : R2} (hx : 2 * x.a ≤ pN ∧ 2 * x.b ≤ pN) (hy : 2 * y.a ≤ pN ∧ 2 * y.b ≤ pN) :
    ((Fp2.dAddNC x y).a ≤ pN ∧ (Fp2.dAddNC x y).b ≤ pN) ∧ (Fp2.dAddNC x y).denD = x.denD + y.denD := by
  have h4 := pN_w
  unfold Fp2.dAddNC
  rw [daddNC (x := x.a) (by omega), daddNC (x := x.b) (by omega)]
  refine ⟨⟨by show x.a + y.a ≤ _; omega, by show x.b + y.b ≤ _; omega⟩, F2.ext ?_ ?_⟩
  · simp only [F2.add_a, R2.denD_a]; rw [residueD_add, Fe.ofZ_add]
  · simp only [F2.add_b, R2.denD_b]; rw [residueD_add, Fe.ofZ_add]

/-- canonical compressed coordinates -/
structure Cp where
  g2 : F2
  g3 : F2
  g4 : F2
  g5 : F2
  deriving DecidableEq

def RC.Canon (z : RC) : Prop := z.g2.Canon ∧ z.g3.Canon ∧ z.g4.Canon ∧ z.g5.Canon
noncomputable def RC.den (z : RC) : Cp := ⟨z.g2.den, z.g3.den, z.g4.den, z.g5.den⟩

/-- compressed squaring in coordinates (specification) -/
noncomputable def Cp.sq (z : Cp) : Cp :=
  ⟨2 * z.g2 + 3 * (F2.xi * (2 * (z.g4 * z.g5))),
   3 * (z.g4 * z.g4 + F2.xi * (z.g5 * z.g5)) - 2 * z.g3,
   3 * (z.g2 * z.g2 + F2.xi * (z.g3 * z.g3)) - 2 * z.g4,
   2 * z.g5 + 3 * (2 * (z.g2 * z.g3))⟩

theorem compSquare_den {z : RC} (hz : z.Canon) : (compSquare z).Canon ∧ (compSquare z).den = z.den.sq := by
  obtain ⟨h2, h3, h4, h5⟩ := hz
  obtain ⟨c1, d1⟩ := Fp2.dSquare_den h4
  obtain ⟨c2, d2⟩ := Fp2.dSquare_den h5
  obtain ⟨c3, d3⟩ := Fp2.dMulXi_den c2
  obtain ⟨c4, d4⟩ := Fp2.dAdd_den c3 c1
  obtain ⟨c5, d5⟩ := Fp2.dMod_den c4
  obtain ⟨c6, d6⟩ := Fp2.add_den h4 h5
  obtain ⟨c7, d7⟩ := Fp2.dSquare_den c6
  obtain ⟨c8, d8⟩ := Fp2.dAdd_den c1 c2
  obtain ⟨c9, d9⟩ := Fp2.dSub_den c7 (Fp12.redD_le c8)
  obtain ⟨c10, d10⟩ := Fp2.dMod_den c9
  obtain ⟨c11, d11⟩ := Fp2.add_den h2 h3
  obtain ⟨c12, d12⟩ := Fp2.dSquare_den c11
  obtain ⟨c13, d13⟩ := Fp2.dSquare_den h2
  obtain ⟨c14, d14⟩ := Fp2.mulXi_den c10
  obtain ⟨c15, d15⟩ := Fp2.add2z3x_den h2 c14
  obtain ⟨c16, d16⟩ := Fp2.sub_den c5 h3
  obtain ⟨c17, d17⟩ := Fp2.add_den c16 c16
  obtain ⟨c18, d18⟩ := Fp2.dSquare_den h3
  obtain ⟨c19, d19⟩ := Fp2.add_den c17 c5
  obtain ⟨c20, d20⟩ := Fp2.dMulXi_den c18
  obtain ⟨c21, d21⟩ := Fp2.dAdd_den c20 c13
  obtain ⟨c22, d22⟩ := Fp2.dMod_den c21
  obtain ⟨c23, d23⟩ := compG4_den c22 h4
  obtain ⟨c24, d24⟩ := Fp2.dAddNC_den (Fp2.dSquare_half h2) (Fp2.dSquare_half h3)
  obtain ⟨c25, d25⟩ := Fp2.dSub_den c12 c24
  obtain ⟨c26, d26⟩ := Fp2.dMod_den c25
  obtain ⟨c27, d27⟩ := Fp2.add2z3x_den h5 c26
  refine ⟨⟨c15, c19, c23, c27⟩, ?_⟩
  have e2 : (compSquare z).den.g2 = z.den.sq.g2 := by
    refine d15.trans ?_
    simp only [d1, d2, d3, d4, d5, d6, d7, d8, d9, d10, d11, d12, d13, d14, d15, d16, d17, d18, d19, d20, d21, d22, d23, d24, d25, d26, d27, Cp.sq, RC.den]; ring
  have e3 : (compSquare z).den.g3 = z.den.sq.g3 := by
    refine d19.trans ?_
    simp only [d1, d2, d3, d4, d5, d6, d7, d8, d9, d10, d11, d12, d13, d14, d15, d16, d17, d18, d19, d20, d21, d22, d23, d24, d25, d26, d27, Cp.sq, RC.den]; ring
  have e4 : (compSquare z).den.g4 = z.den.sq.g4 := by
    refine d23.trans ?_
    simp only [d1, d2, d3, d4, d5, d6, d7, d8, d9, d10, d11, d12, d13, d14, d15, d16, d17, d18, d19, d20, d21, d22, d23, d24, d25, d26, d27, Cp.sq, RC.den]; ring
  have e5 : (compSquare z).den.g5 = z.den.sq.g5 := by
    refine d27.trans ?_
    simp only [d1, d2, d3, d4, d5, d6, d7, d8, d9, d10, d11, d12, d13, d14, d15, d16, d17, d18, d19, d20, d21, d22, d23, d24, d25, d26, d27, Cp.sq, RC.den]; ring
  cases h : (compSquare z).den
  cases h' : z.den.sq
  rw [h, h'] at e2 e3 e4 e5
  dsimp only at e2 e3 e4 e5
  rw [e2, e3, e4, e5]

end Verif
