import Verif.Ec.Lemmas

/-! Constants of the two curves and the twist Frobenius maps. -/

namespace Verif
open Fp

theorem Fe.two_ne : (2 : Fe) ≠ 0 := by
  intro h; have := congrArg Fe.toZ h
  rw [Fe.two_toZ, Fe.toZ_zero] at this; exact Fp.two_ne this

theorem Fe.three_ne : (3 : Fe) ≠ 0 := by
  intro h
  have h3 : (3 : Fe).toZ = 3 := by have := Fe.toZ_natCast 3; push_cast at this; exact this
  have := congrArg Fe.toZ h
  rw [h3, Fe.toZ_zero] at this
  have h4 : ((3 : ℕ) : ZMod p) = 0 := by push_cast; exact this
  rw [ZMod.natCast_eq_zero_iff] at h4
  have := Nat.le_of_dvd (by norm_num) h4
  rw [p_eq] at this
  omega

theorem F2.two_ne : (2 : F2) ≠ 0 := by
  rw [show (2 : F2) = F2.incl 2 by rw [map_ofNat]]
  exact fun h => Fe.two_ne (F2.incl.injective (by rw [h, map_zero]))
theorem F2.three_ne : (3 : F2) ≠ 0 := by
  rw [show (3 : F2) = F2.incl 3 by rw [map_ofNat]]
  exact fun h => Fe.three_ne (F2.incl.injective (by rw [h, map_zero]))

theorem Param.b_eq : Param.b = 2 := by
  apply Fe.toZ_inj
  obtain ⟨y, h1, h2, h3⟩ := setInt_spec (x := 2) (by norm_num) (by norm_num)
  rw [Param.b_setInt] at h1
  have : Param.b.n = y := Res.ok.inj h1
  rw [Fe.two_toZ]
  show residue Param.b.n = 2
  rw [this, h3]; norm_num

theorem Param.b_invxi_eq : Param.b_invxi = 2 / F2.xi := by
  unfold Param.b_invxi
  rw [Param.b_eq, show (⟨2, 0⟩ : F2) = 2 by rw [show (2 : F2) = F2.incl 2 by rw [map_ofNat]]; rfl,
    div_eq_mul_inv, mul_comm]

namespace Ec

theorem good1 : Good (2 : Fe) := ⟨Fe.two_ne, Fe.three_ne, Fe.two_ne⟩
theorem good2 : Good (2 / F2.xi : F2) := ⟨F2.two_ne, F2.three_ne, div_ne_zero F2.two_ne F2.xi_ne⟩

end Ec

namespace Param

theorem W2p_eq : W2p = F2.gam ^ 2 := by
  unfold W2p F2.gam
  rw [power_eq F2.xi pSub1Div3V_wf.1.isWords, pSub1Div3V_wf.2, ← pow_mul]; congr 1
theorem W3p_eq : W3p = F2.gam ^ 3 := by
  unfold W3p F2.gam
  rw [power_eq F2.xi pSub1Div2V_wf.1.isWords, pSub1Div2V_wf.2, ← pow_mul]; congr 1

theorem W2p_b : F2.ofFe W2p.b * F2.u = F2.gam ^ 2 := by
  rw [W2p_eq, F12.gam1]
  congr 1
  obtain ⟨c, _, h⟩ := F2.gam2
  have := F12.gam1
  rw [F12.gammar_gam 1] at *
  rw [h]
  congr 1
  simp only [F2.mul_b, F2.ofFe, F2.u]; ring

theorem p2Sub1Div6V_wf : WF p2Sub1Div6V ∧ val p2Sub1Div6V = (p * p - 1) / 6 := by decide +kernel

/-- the norm of gamma: xi^((p²-1)/6) -/
theorem temp_eq : power F2.xi p2Sub1Div6V = F2.ofFe F2.gam.norm := by
  rw [power_eq F2.xi p2Sub1Div6V_wf.1.isWords, p2Sub1Div6V_wf.2]
  have e : (p * p - 1) / 6 = (p - 1) / 6 * (p + 1) := by rw [p_eq]
  rw [e, pow_mul]
  show F2.gam ^ (p + 1) = _
  rw [pow_succ, F2.pow_p]
  exact F12.ofFe_norm F2.gam

theorem Z_eq : F2.ofFe Z = F2.conj (F2.gam ^ 2) * F2.gam ^ 2 := by
  unfold Z
  rw [LawfulFF.sq_eq, temp_eq]
  have h := F12.ofFe_norm F2.gam
  have h2 : F2.ofFe (-(F2.ofFe F2.gam.norm).a * -(F2.ofFe F2.gam.norm).a)
      = F2.ofFe F2.gam.norm * F2.ofFe F2.gam.norm := by
    ext1 <;> simp only [F2.ofFe, F2.mul_a, F2.mul_b] <;> ring
  rw [h2, ← h, show F2.gam ^ 2 = F2.gam * F2.gam by ring, F2.conj_mul]
  show F2.conj F2.gam * F2.gam * (F2.conj F2.gam * F2.gam) = _
  ring

end Param

namespace Ec

theorem frobTwist1_eq (x y : F2) : frobTwist1 x y = (F2.gam ^ 2 * x ^ p, F2.gam ^ 3 * y ^ p) := by
  unfold frobTwist1
  dsimp only
  rw [F2.mulFp1_mul, Param.W2p_b, Param.W3p_eq, F2.pow_p, F2.pow_p, mul_comm, mul_comm (F2.gam ^ 3)]
  rfl

theorem gam3_norm : F2.conj (F2.gam ^ 3) * F2.gam ^ 3 = -1 := by
  have h6 := F2.gam6
  have h : F2.conj (F2.gam ^ 3) * F2.gam ^ 3 = (F2.gam ^ 3) ^ (p + 1) := by
    rw [pow_succ (F2.gam ^ 3) p, F2.pow_p]
  have e1 : p + 1 = 2 * ((p + 1) / 2) := by rw [p_eq]
  have e2 : (p + 1) / 2 = 2 * ((p + 1) / 4) := by rw [p_eq]
  have e3 : (p + 1) / 4 = 2 * ((p + 1) / 8) + 1 := by rw [p_eq]
  rw [h, e1, pow_mul, ← pow_mul F2.gam 3 2, h6, e2, pow_mul, neg_sq, pow_two, F2.u_mul_u, e3, pow_succ,
    pow_mul]
  simp

theorem frobTwist2_eq (x y : F2) : frobTwist2 x y =
    (F2.conj (F2.gam ^ 2) * F2.gam ^ 2 * x, F2.conj (F2.gam ^ 3) * F2.gam ^ 3 * y) := by
  unfold frobTwist2
  rw [F2.mulFp0_mul, Param.Z_eq, gam3_norm]
  refine Prod.ext ?_ ?_
  · exact mul_comm _ _
  · show -y = -1 * y; ring

theorem frobTwist8_eq (x y : F2) : frobTwist8 x y =
    (F2.conj (F2.gam ^ 2) * F2.gam ^ 2 * x, -(F2.conj (F2.gam ^ 3) * F2.gam ^ 3 * y)) := by
  unfold frobTwist8
  rw [F2.mulFp0_mul, Param.Z_eq, gam3_norm]
  refine Prod.ext ?_ ?_
  · exact mul_comm _ _
  · show y = -(-1 * y); ring

theorem frobTwist2_twice (x y : F2) :
    frobTwist2 x y = frobTwist1 (frobTwist1 x y).1 (frobTwist1 x y).2 := by
  rw [frobTwist2_eq, frobTwist1_eq, frobTwist1_eq]
  dsimp only
  rw [mul_pow, mul_pow, ← pow_mul x, ← pow_mul y, ← pow_two p, F2.pow_p2, F2.pow_p2, F2.pow_p, F2.pow_p]
  refine Prod.ext ?_ ?_ <;> ring

/-- the map to the untwisted curve over Fp12 commutes with Frobenius -/
theorem frobTwist1_untwist (x y : F2) :
    F12.incl (frobTwist1 x y).1 * F12.w ^ 2 = (F12.incl x * F12.w ^ 2) ^ p ∧
    F12.incl (frobTwist1 x y).2 * F12.w ^ 3 = (F12.incl y * F12.w ^ 3) ^ p := by
  rw [frobTwist1_eq]
  dsimp only
  constructor
  · rw [mul_pow, ← map_pow, pow_right_comm, F12.w_pow_p, mul_pow, map_mul, map_pow F12.incl F2.gam]; ring
  · rw [mul_pow, ← map_pow, pow_right_comm, F12.w_pow_p, mul_pow, map_mul, map_pow F12.incl F2.gam]; ring

theorem frobTwist2_untwist (x y : F2) :
    F12.incl (frobTwist2 x y).1 * F12.w ^ 2 = (F12.incl x * F12.w ^ 2) ^ (p ^ 2) ∧
    F12.incl (frobTwist2 x y).2 * F12.w ^ 3 = (F12.incl y * F12.w ^ 3) ^ (p ^ 2) := by
  rw [frobTwist2_twice, pow_two p, pow_mul, pow_mul]
  obtain ⟨h1, h2⟩ := frobTwist1_untwist x y
  obtain ⟨h3, h4⟩ := frobTwist1_untwist (frobTwist1 x y).1 (frobTwist1 x y).2
  rw [← h1, ← h2]
  exact ⟨h3, h4⟩

/-! In-place use of the twist maps -/

/-- a memory of coordinate pairs `Fp2 Q[2]` -/
abbrev Mem2 := ℕ → F2 × F2

def Mem2.set0 (m : Mem2) (o : ℕ) (v : F2) : Mem2 := fun k => if k = o then (v, (m k).2) else m k
def Mem2.set1 (m : Mem2) (o : ℕ) (v : F2) : Mem2 := fun k => if k = o then ((m k).1, v) else m k

/-- `FrobEndOnTwist_1(Q, P)` statement by statement, bn.h:2669-2674, with `mul_Fp_1` bn.h:575-581 -/
def frobTwist1At (m : Mem2) (o i : ℕ) : Mem2 :=
  let m := m.set0 o ⟨(m i).1.a, (m o).1.b⟩
  let m := m.set0 o ⟨(m o).1.a, -(m i).1.b⟩
  let t := (m o).1.b * Param.W2p.b
  let m := m.set0 o ⟨(m o).1.a, (m o).1.a * Param.W2p.b⟩
  let m := m.set0 o ⟨-t, (m o).1.b⟩
  let m := m.set1 o ⟨(m i).2.a, (m o).2.b⟩
  let m := m.set1 o ⟨(m o).2.a, -(m i).2.b⟩
  m.set1 o ((m o).2 * Param.W3p)
/-- `FrobEndOnTwist_2(Q, P)`, bn.h:2688-2689 -/
def frobTwist2At (m : Mem2) (o i : ℕ) : Mem2 :=
  let m := m.set0 o ((m i).1.mulFp0 Param.Z)
  m.set1 o (-(m i).2)
/-- `FrobEndOnTwist_8(Q, P)`, bn.h:2705-2706 -/
def frobTwist8At (m : Mem2) (o i : ℕ) : Mem2 :=
  let m := m.set0 o ((m i).1.mulFp0 Param.Z)
  m.set1 o ((m i).2)

theorem frobTwist1At_eq (m : Mem2) (o i : ℕ) :
    frobTwist1At m o i = fun k => if k = o then frobTwist1 (m i).1 (m i).2 else m k := by
  funext k
  unfold frobTwist1At frobTwist1 Mem2.set0 Mem2.set1 F2.mulFp1
  by_cases hk : k = o <;> by_cases hi : i = o <;> simp [hk, hi]
theorem frobTwist2At_eq (m : Mem2) (o i : ℕ) :
    frobTwist2At m o i = fun k => if k = o then frobTwist2 (m i).1 (m i).2 else m k := by
  funext k
  unfold frobTwist2At frobTwist2 Mem2.set0 Mem2.set1
  by_cases hk : k = o <;> by_cases hi : i = o <;> simp [hk, hi]
theorem frobTwist8At_eq (m : Mem2) (o i : ℕ) :
    frobTwist8At m o i = fun k => if k = o then frobTwist8 (m i).1 (m i).2 else m k := by
  funext k
  unfold frobTwist8At frobTwist8 Mem2.set0 Mem2.set1
  by_cases hk : k = o <;> by_cases hi : i = o <;> simp [hk, hi]

end Ec
end Verif
