import Verif.Tower.Sparse
import Verif.Fp.Sqrt
import Mathlib.Algebra.CharP.Frobenius

/-! Frobenius maps of `Fp12T` and the constants of `ParamT::init` they use. -/

set_option linter.unusedSimpArgs false

namespace Verif
open Fp

/-- the low words of a natural number below 2^256 as a `Vuint` of four words -/
def words4 (n : ℕ) : List ℕ := [n % B64, n / B64 % B64, n / (B64 * B64) % B64, n / (B64 * B64 * B64)]

namespace Param

/-- `(p - 1) / 6`, bn.h:238, as a `Vuint` -/
def pSub1Div6V : List ℕ := words4 ((p - 1) / 6)
/-- `(p - 1) / 3`, bn.h:252 -/
def pSub1Div3V : List ℕ := words4 ((p - 1) / 3)
/-- `(p - 1) / 2`, bn.h:253 -/
def pSub1Div2V : List ℕ := words4 ((p - 1) / 2)

/-- `(p - 1) / n` as executed: one-word subtraction and division. -/
def initExp (n : ℕ) : Res (List ℕ) := do
  let s ← Vuint.sub pV [1]
  let qr ← Vuint.divUnit s n
  pure qr.1

theorem initExp6 : initExp 6 = .ok pSub1Div6V := by decide +kernel
theorem initExp3 : initExp 3 = .ok pSub1Div3V := by decide +kernel
theorem initExp2 : initExp 2 = .ok pSub1Div2V := by decide +kernel

theorem pSub1Div6V_wf : WF pSub1Div6V ∧ val pSub1Div6V = (p - 1) / 6 := by decide +kernel
theorem pSub1Div3V_wf : WF pSub1Div3V ∧ val pSub1Div3V = (p - 1) / 3 := by decide +kernel
theorem pSub1Div2V_wf : WF pSub1Div2V ∧ val pSub1Div2V = (p - 1) / 2 := by decide +kernel

/-- `gammar[i]`, bn.h:238-242: `power(xi, (p - 1) / 6)` and its products. -/
def gammar : ℕ → F2
  | 0 => power F2.xi pSub1Div6V
  | i + 1 => gammar i * power F2.xi pSub1Div6V
/-- `gammar2[i]`, bn.h:244-246. -/
def gammar2 (i : ℕ) : F2 := (⟨(gammar i).a, -(gammar i).b⟩ : F2) * gammar i
/-- `gammar3[i]`, bn.h:248-250. -/
def gammar3 (i : ℕ) : F2 := gammar i * gammar2 i
/-- `W2p`, bn.h:252 -/
def W2p : F2 := power F2.xi pSub1Div3V
/-- `W3p`, bn.h:253 -/
def W3p : F2 := power F2.xi pSub1Div2V

end Param

/-! ### F2 -/

theorem Fe.natCast_p : ((p : ℕ) : Fe) = 0 := by
  apply Fe.toZ_inj
  rw [Fe.toZ_natCast, Fe.toZ_zero]; exact cast_p

namespace F2

/-- embedding of Fp as a ring homomorphism -/
noncomputable def incl : Fe →+* F2 where
  toFun := ofFe
  map_one' := rfl
  map_zero' := rfl
  map_mul' x y := by ext1 <;> simp only [mul_a, mul_b, ofFe] <;> ring
  map_add' x y := by ext1 <;> simp only [add_a, add_b, ofFe] <;> ring

theorem incl_apply (x : Fe) : incl x = ofFe x := rfl

/-- conjugation -/
def conj (x : F2) : F2 := ⟨x.a, -x.b⟩

theorem conj_mul (x y : F2) : (x * y).conj = x.conj * y.conj := by
  unfold conj; ext1 <;> simp only [mul_a, mul_b] <;> ring

instance : CharP Fe p :=
  ((Fe.equivZ.symm : ZMod p →+* Fe).charP_iff Fe.equivZ.symm.injective p).1 inferInstance
instance : CharP F2 p := (incl.charP_iff incl.injective p).1 inferInstance

theorem u_pow_p : u ^ p = -u := by
  have e : p = 2 * ((p - 3) / 2 + 1) + 1 := by rw [p_eq]
  have h4 : (p - 3) / 2 + 1 = 2 * ((p - 3) / 4) + 1 := by rw [p_eq]
  rw [e, pow_succ, pow_mul, pow_two, u_mul_u, h4, pow_succ, pow_mul]
  ring

theorem pow_p (x : F2) : x ^ p = x.conj := by
  conv_lhs => rw [eq_ofFe x]
  rw [add_pow_char, mul_pow, u_pow_p, ← incl_apply, ← incl_apply, ← map_pow, ← map_pow, Fe.pow_p,
    Fe.pow_p]
  rw [incl_apply, incl_apply]
  ext1 <;> simp only [add_a, add_b, mul_a, mul_b, neg_a, neg_b, ofFe, u, conj] <;> ring

theorem pow_p2 (x : F2) : x ^ (p ^ 2) = x := by
  rw [pow_two, pow_mul, pow_p, pow_p]
  unfold conj; ext1 <;> simp

/-- gammar[0] = xi^((p-1)/6) -/
theorem gammar0 : Param.gammar 0 = xi ^ ((p - 1) / 6) := by
  show power F2.xi Param.pSub1Div6V = _
  rw [power_eq xi Param.pSub1Div6V_wf.1.isWords, Param.pSub1Div6V_wf.2]

theorem gammar_eq (i : ℕ) : Param.gammar i = (xi ^ ((p - 1) / 6)) ^ (i + 1) := by
  induction i with
  | zero => rw [gammar0, pow_one]
  | succ i ih =>
    rw [pow_succ, ← ih, ← gammar0]; rfl

theorem xi_pow_sub : xi ^ (p - 1) = -u := by
  have h : xi ^ p = xi ^ (p - 1) * xi := by
    rw [← pow_succ]; congr 1
  rw [pow_p] at h
  have h1 : xi.conj = -u * xi := by
    ext1 <;> simp only [conj, xi, u, mul_a, mul_b, neg_a, neg_b] <;> ring
  rw [h1] at h
  exact (mul_right_cancel₀ xi_ne h).symm

/-- gamma = xi^((p-1)/6) -/
noncomputable def gam : F2 := xi ^ ((p - 1) / 6)

theorem gam6 : gam ^ 6 = -u := by
  unfold gam; rw [← pow_mul, ← xi_pow_sub]
  congr 1

theorem u_ne : u ≠ 0 := by
  intro h; have := u_mul_u; rw [h] at this; simp at this

/-- cube roots of unity lie in Fp -/
theorem cube_root {t : F2} (h3 : t ^ 3 = 1) : ∃ c : Fe, c * c * c = 1 ∧ t = ofFe c := by
  have hp : t ^ p = t := by
    have e : p = 3 * ((p - 1) / 3) + 1 := by rw [p_eq]
    conv_lhs => rw [e]
    rw [pow_succ, pow_mul, h3, one_pow, one_mul]
  have hb : t.b = 0 := by
    rw [pow_p] at hp
    have h1 : -t.b = t.b := congrArg F2.b hp
    have h2 : t.b * 2 = 0 := by linear_combination -h1
    have h3 : (2 : Fe) ≠ 0 := by
      intro h; have := congrArg Fe.toZ h
      rw [Fe.two_toZ, Fe.toZ_zero] at this; exact two_ne this
    exact (mul_eq_zero.1 h2).resolve_right h3
  have htt : t = ofFe t.a := ext rfl hb
  refine ⟨t.a, ?_, htt⟩
  rw [htt, ← incl_apply, ← map_pow, ← map_one incl] at h3
  rw [← incl.injective h3]; ring

/-- the cube root of unity c with gamma^2 = c u -/
theorem gam2 : ∃ c : Fe, c * c * c = 1 ∧ gam ^ 2 = ofFe c * u := by
  have h6 := gam6
  have hu : u ^ 3 = -u := by rw [pow_succ, pow_two, u_mul_u]; ring
  have hu0 := u_ne
  generalize gam = g at *
  have h3 : (g ^ 2 / u) ^ 3 = 1 := by
    rw [div_pow, hu, show (g ^ 2) ^ 3 = g ^ 6 by ring, h6]
    exact div_self (neg_ne_zero.2 hu0)
  obtain ⟨c, h1, h2⟩ := cube_root h3
  exact ⟨c, h1, by rw [← h2, div_mul_cancel₀ _ hu0]⟩

end F2

/-! ### F12 -/

namespace F12

/-- the element with coefficients g_i of w^i over F2 -/
def mk6 (g0 g1 g2 g3 g4 g5 : F2) : F12 := ⟨⟨g0, g2, g4⟩, ⟨g1, g3, g5⟩⟩

/-- embedding of F2 -/
noncomputable def incl : F2 →+* F12 where
  toFun x := ⟨⟨x, 0, 0⟩, 0⟩
  map_one' := rfl
  map_zero' := rfl
  map_mul' x y := by
    ext1
    · simp only [mul_a]; ext1 <;> simp only [F6.mul_a, F6.mul_b, F6.mul_c, F6.add_a, F6.add_b, F6.add_c,
        F6.zero_a, F6.zero_b, F6.zero_c] <;> ring
    · simp only [mul_b]; ring
  map_add' x y := by
    ext1
    · simp only [add_a]; ext1 <;> simp only [F6.add_a, F6.add_b, F6.add_c] <;> ring
    · simp only [add_b]; ring

theorem incl_apply (x : F2) : incl x = ⟨⟨x, 0, 0⟩, 0⟩ := rfl

theorem w2 : w * w = mk6 0 0 1 0 0 0 := w_mul_w

theorem incl_mul_mk6 (x g0 g1 g2 g3 g4 g5 : F2) : incl x * mk6 g0 g1 g2 g3 g4 g5 =
    mk6 (x * g0) (x * g1) (x * g2) (x * g3) (x * g4) (x * g5) := by
  rw [incl_apply]
  ext1
  · simp only [mul_a, mk6]; ext1 <;> simp only [F6.mul_a, F6.mul_b, F6.mul_c, F6.add_a, F6.add_b, F6.add_c,
        F6.zero_a, F6.zero_b, F6.zero_c, F6.v] <;> ring
  · simp only [mul_b, mk6]; ext1 <;> simp only [F6.mul_a, F6.mul_b, F6.mul_c, F6.add_a, F6.add_b, F6.add_c,
        F6.zero_a, F6.zero_b, F6.zero_c, F6.v] <;> ring

theorem mk6_mul_w (g0 g1 g2 g3 g4 g5 : F2) : mk6 g0 g1 g2 g3 g4 g5 * w =
    mk6 (F2.xi * g5) g0 g1 g2 g3 g4 := by
  ext1
  · simp only [mul_a, mk6, w]; ext1 <;> simp only [F6.mul_a, F6.mul_b, F6.mul_c, F6.add_a, F6.add_b, F6.add_c,
        F6.zero_a, F6.zero_b, F6.zero_c, F6.one_a, F6.one_b, F6.one_c, F6.v] <;> ring
  · simp only [mul_b, mk6, w]; ext1 <;> simp only [F6.mul_a, F6.mul_b, F6.mul_c, F6.add_a, F6.add_b, F6.add_c,
        F6.zero_a, F6.zero_b, F6.zero_c, F6.one_a, F6.one_b, F6.one_c, F6.v] <;> ring

theorem mk6_add (g0 g1 g2 g3 g4 g5 h0 h1 h2 h3 h4 h5 : F2) :
    mk6 g0 g1 g2 g3 g4 g5 + mk6 h0 h1 h2 h3 h4 h5 =
    mk6 (g0 + h0) (g1 + h1) (g2 + h2) (g3 + h3) (g4 + h4) (g5 + h5) := rfl

theorem one_mk6 : (1 : F12) = mk6 1 0 0 0 0 0 := rfl

theorem w_pow0 : w ^ 0 = mk6 1 0 0 0 0 0 := by rw [pow_zero, one_mk6]
theorem w_pow1 : w ^ 1 = mk6 0 1 0 0 0 0 := by rw [pow_succ, w_pow0, mk6_mul_w, mul_zero]
theorem w_pow2 : w ^ 2 = mk6 0 0 1 0 0 0 := by rw [pow_succ, w_pow1, mk6_mul_w, mul_zero]
theorem w_pow3 : w ^ 3 = mk6 0 0 0 1 0 0 := by rw [pow_succ, w_pow2, mk6_mul_w, mul_zero]
theorem w_pow4 : w ^ 4 = mk6 0 0 0 0 1 0 := by rw [pow_succ, w_pow3, mk6_mul_w, mul_zero]
theorem w_pow5 : w ^ 5 = mk6 0 0 0 0 0 1 := by rw [pow_succ, w_pow4, mk6_mul_w, mul_zero]
theorem w_pow6 : w ^ 6 = incl F2.xi := by rw [pow_succ, w_pow5, mk6_mul_w, mul_one]; rfl

theorem mk6_eq (g0 g1 g2 g3 g4 g5 : F2) : mk6 g0 g1 g2 g3 g4 g5 =
    incl g0 + incl g1 * w + incl g2 * w ^ 2 + incl g3 * w ^ 3 + incl g4 * w ^ 4 + incl g5 * w ^ 5 := by
  rw [← pow_one w, ← pow_mul, ← pow_mul, ← pow_mul, ← pow_mul, one_mul, one_mul, one_mul, one_mul]
  conv_rhs => rw [← mul_one (incl g0), ← pow_zero w]
  rw [w_pow0, w_pow1, w_pow2, w_pow3, w_pow4, w_pow5]
  simp only [incl_mul_mk6, mk6_add, mul_zero, mul_one, add_zero, zero_add]

theorem eq_mk6 (x : F12) : x = mk6 x.a.a x.b.a x.a.b x.b.b x.a.c x.b.c := rfl

instance : CharP F12 p := (incl.charP_iff incl.injective p).1 inferInstance

theorem w_pow_p : w ^ p = incl F2.gam * w := by
  have e : p = 6 * ((p - 1) / 6) + 1 := by rw [p_eq]
  conv_lhs => rw [e, pow_succ, pow_mul, w_pow6, ← map_pow]
  rfl

/-- the p-th power in coordinates -/
theorem mk6_pow_p (g0 g1 g2 g3 g4 g5 : F2) : mk6 g0 g1 g2 g3 g4 g5 ^ p =
    mk6 g0.conj (g1.conj * F2.gam) (g2.conj * F2.gam ^ 2) (g3.conj * F2.gam ^ 3)
      (g4.conj * F2.gam ^ 4) (g5.conj * F2.gam ^ 5) := by
  rw [mk6_eq, mk6_eq]
  simp only [add_pow_char, mul_pow, ← pow_mul, mul_comm _ p]
  simp only [pow_mul, w_pow_p, ← map_pow, F2.pow_p, mul_pow]
  simp only [map_mul]
  ring

/-- `Fp12::Frobenius`, bn.h:1640-1667 (non-SNARK) -/
def frobenius (x : F12) : F12 :=
  let c (g : F2) : F2 := ⟨g.a, -g.b⟩
  ⟨⟨c x.a.a, (c x.a.b).mulFp1 (Param.gammar 1).b, (c x.a.c).mulFp0 (Param.gammar 3).a⟩,
   ⟨c x.b.a * Param.gammar 0, c x.b.b * Param.gammar 2, c x.b.c * Param.gammar 4⟩⟩

/-- `Fp12::Frobenius2`, bn.h:1678-1694 -/
def frobenius2 (x : F12) : F12 :=
  ⟨⟨x.a.a, x.a.b.mulFp0 (Param.gammar2 1).a, x.a.c.mulFp0 (Param.gammar2 3).a⟩,
   ⟨x.b.a.mulFp0 (Param.gammar2 0).a, x.b.b.mulFp0 (Param.gammar2 2).a,
    x.b.c.mulFp0 (Param.gammar2 4).a⟩⟩

/-- `Fp12::Frobenius3`, bn.h:1696-1726 (non-SNARK) -/
def frobenius3 (x : F12) : F12 :=
  let c (g : F2) : F2 := ⟨g.a, -g.b⟩
  ⟨⟨c x.a.a, (c x.a.b).mulX, (c x.a.c).mulFp0 (Param.gammar3 3).a⟩,
   ⟨c x.b.a * Param.gammar3 0, c x.b.b * Param.gammar3 2, c x.b.c * Param.gammar3 4⟩⟩

theorem gammar_gam (i : ℕ) : Param.gammar i = F2.gam ^ (i + 1) := F2.gammar_eq i

theorem gam1 : F2.gam ^ 2 = F2.ofFe (Param.gammar 1).b * F2.u := by
  obtain ⟨c, -, h⟩ := F2.gam2
  rw [gammar_gam, h]
  ext1 <;> simp only [F2.ofFe, F2.u, F2.mul_a, F2.mul_b] <;> ring
theorem gam4 : F2.gam ^ 4 = F2.ofFe (Param.gammar 3).a := by
  obtain ⟨c, -, h⟩ := F2.gam2
  have h4 : F2.gam ^ 4 = F2.ofFe (-(c * c)) := by
    rw [show F2.gam ^ 4 = F2.gam ^ 2 * F2.gam ^ 2 by ring, h]
    ext1 <;> simp only [F2.ofFe, F2.u, F2.mul_a, F2.mul_b] <;> ring
  rw [gammar_gam, h4]; rfl

theorem frobenius_eq (x : F12) : x.frobenius = x ^ p := by
  conv_rhs => rw [eq_mk6 x, mk6_pow_p]
  unfold frobenius
  simp only [F2.mulFp1_mul, F2.mulFp0_mul]
  rw [← gam1, ← gam4]
  simp only [gammar_gam]
  rw [zero_add, pow_one]
  rfl

theorem ofFe_norm (g : F2) : (⟨g.a, -g.b⟩ : F2) * g = F2.ofFe g.norm := by
  ext1 <;> simp only [F2.mul_a, F2.mul_b, F2.ofFe, F2.norm] <;> ring

theorem gammar2_eq (i : ℕ) : F2.ofFe (Param.gammar2 i).a = F2.conj (F2.gam ^ (i + 1)) * F2.gam ^ (i + 1) := by
  unfold Param.gammar2
  rw [ofFe_norm, gammar_gam, F2.conj, ofFe_norm]; rfl
theorem gammar2_eq' (i : ℕ) : Param.gammar2 i = F2.conj (F2.gam ^ (i + 1)) * F2.gam ^ (i + 1) := by
  unfold Param.gammar2; rw [gammar_gam]; rfl

theorem conj_conj (g : F2) : g.conj.conj = g := by
  unfold F2.conj; ext1 <;> simp

theorem mk6_pow_p2 (g0 g1 g2 g3 g4 g5 : F2) : mk6 g0 g1 g2 g3 g4 g5 ^ (p ^ 2) =
    mk6 g0 (g1 * (F2.gam.conj * F2.gam)) (g2 * ((F2.gam ^ 2).conj * F2.gam ^ 2))
      (g3 * ((F2.gam ^ 3).conj * F2.gam ^ 3))
      (g4 * ((F2.gam ^ 4).conj * F2.gam ^ 4)) (g5 * ((F2.gam ^ 5).conj * F2.gam ^ 5)) := by
  rw [pow_two, pow_mul, mk6_pow_p, mk6_pow_p]
  simp only [F2.conj_mul, conj_conj, mul_assoc]

theorem frobenius2_eq (x : F12) : x.frobenius2 = x ^ (p ^ 2) := by
  conv_rhs => rw [eq_mk6 x, mk6_pow_p2]
  unfold frobenius2
  simp only [F2.mulFp0_mul, gammar2_eq, zero_add, pow_one]
  rfl

theorem gam_norm2 : F2.gam ^ 2 * (F2.conj (F2.gam ^ 2) * F2.gam ^ 2) = F2.u := by
  obtain ⟨c, h3, h⟩ := F2.gam2
  rw [h, F2.conj_mul]
  have e : (F2.ofFe c * F2.u) * (F2.conj (F2.ofFe c) * F2.conj F2.u * (F2.ofFe c * F2.u)) =
      F2.ofFe (c * c * c) * F2.u := by
    ext1 <;> simp only [F2.conj, F2.ofFe, F2.u, F2.mul_a, F2.mul_b] <;> ring
  rw [e, h3]
  ext1 <;> simp only [F2.ofFe, F2.u, F2.mul_a, F2.mul_b] <;> ring

theorem gammar3_3 : F2.ofFe (Param.gammar3 3).a = F2.gam ^ 4 * (F2.conj (F2.gam ^ 4) * F2.gam ^ 4) := by
  unfold Param.gammar3
  rw [gammar2_eq', gammar_gam]
  rw [show F2.gam ^ (3 + 1) = _ from gam4]
  ext1 <;> simp only [F2.conj, F2.ofFe, F2.u, F2.mul_a, F2.mul_b] <;> ring

theorem frobenius3_eq (x : F12) : x.frobenius3 = x ^ (p ^ 3) := by
  conv_rhs => rw [eq_mk6 x, pow_succ, pow_mul, mk6_pow_p2, mk6_pow_p]
  unfold frobenius3 Param.gammar3
  simp only [F2.mulFp0_mul, F2.mulX_mul, gammar2_eq', gammar_gam, zero_add, pow_one]
  rw [show ∀ g : F2, g * F2.ofFe (F2.gam ^ (3 + 1) * (F2.conj (F2.gam ^ (3 + 1)) * F2.gam ^ (3 + 1))).a =
    g * (F2.gam ^ 4 * (F2.conj (F2.gam ^ 4) * F2.gam ^ 4)) from fun g => by
      rw [← gammar3_3]; unfold Param.gammar3; rw [gammar2_eq', gammar_gam] <;> rfl]
  rw [← gam_norm2]
  simp only [F2.conj_mul, conj_conj, mul_assoc]
  refine F12.ext (F6.ext ?_ ?_ ?_) (F6.ext ?_ ?_ ?_) <;> simp only [mk6, F2.conj] <;> ring
end F12
end Verif
