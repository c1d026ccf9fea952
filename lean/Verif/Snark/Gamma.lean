import Verif.Snark.Curve
import Verif.Snark.FinalDen
import Verif.Pairing.Abs

/-!
SNARK build: the lines evaluated at a point of the curve over Fp and raised to the final exponent, a symmetric cocycle on
the twist (the argument of `Pairing/Gamma.lean` for xi = 9 + u and b = 3 or 82).
-/

namespace Verif.Snark

open Verif.Hom Verif.Ec

namespace Pr

/-! ### No point of the curve over Fp has a zero coordinate -/

theorem pow_ne_one {a n : ℕ} (hn : n < 2 ^ 256) (h2 : ¬ powMod p 256 a n % p = 1 % p) : (a : ZMod p) ^ n ≠ 1 := by
  intro h
  have h4 : ((a ^ n % p : ℕ) : ZMod p) = ((1 : ℕ) : ZMod p) := by
    rw [ZMod.natCast_mod, Nat.cast_pow, h, Nat.cast_one]
  rw [← powMod_eq p 256 a n hn, ZMod.natCast_eq_natCast_iff] at h4
  exact h2 h4

theorem half_lt : (p - 1) / 2 < 2 ^ 256 := by rw [p_eq]; norm_num
theorem third_lt : (p - 1) / 3 < 2 ^ 256 := by rw [p_eq]; norm_num

/-- b as a natural number -/
def bN : Curve → ℕ | .snark1 => 3 | .snark2 => 82
theorem bN_eq (c : Curve) : c.b = (bN c : ℤ) := by cases c <;> rfl
theorem bN_cast (c : Curve) : (c.b : ZMod p) = ((bN c : ℕ) : ZMod p) := by rw [bN_eq, Int.cast_natCast]

theorem b_half (c : Curve) : (c.b : ZMod p) ^ ((p - 1) / 2) ≠ 1 := by
  rw [bN_cast]
  exact pow_ne_one half_lt (by cases c <;> decide +kernel)
theorem b_third (c : Curve) : (c.b : ZMod p) ^ ((p - 1) / 3) ≠ 1 := by
  rw [bN_cast]
  exact pow_ne_one third_lt (by cases c <;> decide +kernel)
theorem bq_third (c : Curve) : ((c.b : ZMod p) ^ 2 * 82 ^ 2) ^ ((p - 1) / 3) ≠ 1 := by
  have e : (c.b : ZMod p) ^ 2 * 82 ^ 2 = ((bN c ^ 2 * 82 ^ 2 : ℕ) : ZMod p) := by
    rw [bN_cast, Nat.cast_mul, Nat.cast_pow, Nat.cast_pow, Nat.cast_ofNat]
  rw [e]
  exact pow_ne_one third_lt (by cases c <;> decide +kernel)

theorem b_ne (c : Curve) : (c.b : ZMod p) ≠ 0 := by
  intro h
  have := c.b_ne
  rw [← map_intCast G2.incl, h, map_zero] at this
  exact this rfl

theorem sq_ne (c : Curve) (y : ZMod p) : y ^ 2 ≠ (c.b : ZMod p) := by
  intro h
  have hy : y ≠ 0 := by rintro rfl; exact b_ne c (by rw [← h]; ring)
  refine b_half c ?_
  rw [← h, ← pow_mul, show 2 * ((p - 1) / 2) = p - 1 by rw [p_eq]]
  exact pow_card_sub hy

theorem cube_pow {x d : ZMod p} (hd : d ≠ 0) (h : x ^ 3 = d) : d ^ ((p - 1) / 3) = 1 := by
  have hx : x ≠ 0 := by rintro rfl; exact hd (by rw [← h]; ring)
  rw [← h, ← pow_mul, show 3 * ((p - 1) / 3) = p - 1 by rw [p_eq]]
  exact pow_card_sub hx

theorem cube_ne (c : Curve) (x : ZMod p) : x ^ 3 ≠ -(c.b : ZMod p) := by
  intro h
  refine b_third c (cube_pow (x := -x) (b_ne c) ?_)
  rw [neg_pow, h]; ring

theorem OnE_x_ne (c : Curve) (x y : ZMod p) (h : y ^ 2 = x ^ 3 + (c.b : ZMod p)) : x ≠ 0 := by
  rintro rfl
  exact sq_ne c y (by linear_combination h)
theorem OnE_y_ne (c : Curve) (x y : ZMod p) (h : y ^ 2 = x ^ 3 + (c.b : ZMod p)) : y ≠ 0 := by
  rintro rfl
  exact cube_ne c x (by linear_combination -h)

theorem norm_cast (d : ZMod p) : G2.norm (G2.incl d) = d ^ 2 := by
  rw [G2.incl_apply]
  unfold G2.norm G2.ofZ
  ring

/-- no point of the twist has y = 0: the norm of -b/xi is no cube -/
theorem y_ne2 (c : Curve) (x y : G2) (h : y ^ 2 = x ^ 3 + c.twist) : y ≠ 0 := by
  rintro rfl
  have h1 : x ^ 3 * G2.xi = -(c.b : G2) := by
    have : x ^ 3 = -c.twist := by linear_combination -h
    rw [this]
    unfold Curve.twist
    rw [neg_mul, div_mul_cancel₀ _ xi_ne]
  have h2 : G2.norm x ^ 3 * 82 = (c.b : ZMod p) ^ 2 := by
    have := congrArg G2.norm h1
    rw [G2.norm_mul, pow_succ, pow_two, G2.norm_mul, G2.norm_mul, ← map_intCast G2.incl, ← map_neg, norm_cast, neg_sq] at this
    rw [G2.norm_xi] at this
    rw [← this]; ring
  have h82 : (82 : ZMod p) ≠ 0 := by decide +kernel
  refine bq_third c (cube_pow (x := G2.norm x * 82) (mul_ne_zero (pow_ne_zero _ (b_ne c)) (pow_ne_zero _ h82)) ?_)
  rw [← h2]; ring

/-! ### Final exponentiation of the values -/

theorem eN_ex : ∃ e : ℕ, (e : ℤ) = (((p ^ 12 - 1) / r : ℕ) : ℤ) * V12.mFacS := by
  refine ⟨(p ^ 12 - 1) / r * (2 * z * (6 * z ^ 2 + 3 * z + 1)), ?_⟩
  unfold V12.mFacS
  push_cast
  rfl
/-- the exponent of `final_exp` -/
noncomputable def eN : ℕ := Classical.choose eN_ex
theorem eN_spec : (eN : ℤ) = (((p ^ 12 - 1) / r : ℕ) : ℤ) * V12.mFacS := Classical.choose_spec eN_ex

theorem eN_ne : eN ≠ 0 := by
  intro h
  have := eN_spec
  rw [h] at this
  have h2 : (((p ^ 12 - 1) / r : ℕ) : ℤ) ≠ 0 := by
    intro h3
    have := V12.r_dvd
    rw [Int.natCast_eq_zero.1 h3, zero_mul] at this
    exact absurd this (by rw [p_eq]; norm_num)
  have h3 : V12.mFacS ≠ 0 := by unfold V12.mFacS z; norm_num
  exact mul_ne_zero h2 h3 this.symm

theorem eN_r : (p ^ 12 - 1) ∣ eN * r := by
  have h : ((p ^ 12 - 1 : ℕ) : ℤ) ∣ ((eN * r : ℕ) : ℤ) := by
    refine ⟨V12.mFacS, ?_⟩
    rw [Nat.cast_mul, eN_spec]
    have k := congrArg (Nat.cast : ℕ → ℤ) V12.r_dvd
    rw [Nat.cast_mul] at k
    rw [← k]; ring
  exact Int.natCast_dvd_natCast.1 h

theorem eN_p6 : (p ^ 6 - 1) ∣ eN := by
  have h : ((p ^ 6 - 1 : ℕ) : ℤ) ∣ (eN : ℤ) := by
    rw [eN_spec, ← V12.lamS_eq, Nat.cast_mul, mul_assoc]
    exact Dvd.intro _ rfl
  exact Int.natCast_dvd_natCast.1 h

/-- the final exponentiation as a homomorphism -/
noncomputable def FE : G12 →*₀ G12 where
  toFun x := x ^ eN
  map_zero' := zero_pow eN_ne
  map_one' := one_pow _
  map_mul' x y := mul_pow x y _

theorem FE_apply (x : G12) : FE x = x ^ eN := rfl
theorem FE_zpow (x : G12) : x ^ ((((p ^ 12 - 1) / r : ℕ) : ℤ) * V12.mFacS) = FE x := by
  rw [← eN_spec, zpow_natCast]; rfl

theorem FE_ne {x : G12} (h : x ≠ 0) : FE x ≠ 0 := pow_ne_zero _ h
theorem FE_pow_r {x : G12} (h : x ≠ 0) : FE x ^ r = 1 := by
  obtain ⟨k, hk⟩ := eN_r
  rw [FE_apply, ← pow_mul, hk, pow_mul, G12.pow_p12_sub h, one_pow]

theorem FE_even {x : G12} (h : x ≠ 0) (hb : x.b = 0) : FE x = 1 := by
  have h1 : x ^ (p ^ 6) = x := by
    rw [G12.pow_p6]
    unfold G12.conj
    exact G12.ext rfl (by rw [hb]; exact neg_zero)
  have h2 : x ^ (p ^ 6 - 1) = 1 := by
    have e : p ^ 6 = (p ^ 6 - 1) + 1 := by rw [p_eq]; norm_num
    generalize p ^ 6 - 1 = n at e
    rw [e, pow_succ] at h1
    exact mul_right_cancel₀ h (h1.trans (one_mul x).symm)
  obtain ⟨k, hk⟩ := eN_p6
  rw [FE_apply, hk, pow_mul, h2, one_pow]

/-! ### The pairing data of the SNARK build -/

theorem gam6_pow : G2.gam ^ 6 = G2.xi ^ (p - 1) := by
  rw [G2.gam_eq, ← pow_mul, show (p - 1) / 6 * 6 = p - 1 by rw [p_eq]]

theorem even_aux (a0 a2 a4 : G2) : G12.incl a0 + G12.incl a2 * G12.w ^ 2 + G12.incl a4 * G12.w ^ 4 =
    G12.mk6 a0 0 a2 0 a4 0 := by
  rw [G12.mk6_eq]; simp only [map_zero]; ring

theorem indep_aux (a0 a3 a4 a5 : G2) (h : G12.incl a0 + G12.incl a3 * G12.w ^ 3 + G12.incl a4 * G12.w ^ 4 +
    G12.incl a5 * G12.w ^ 5 = 0) : a0 = 0 ∧ a3 = 0 ∧ a4 = 0 ∧ a5 = 0 := by
  have e : G12.mk6 a0 0 0 a3 a4 a5 = 0 := by
    rw [← h, G12.mk6_eq]; simp only [map_zero]; ring
  exact ⟨congrArg (fun x : G12 => x.a.a) e, congrArg (fun x : G12 => x.b.b) e, congrArg (fun x : G12 => x.a.c) e,
    congrArg (fun x : G12 => x.b.c) e⟩

/-- 6z + 2 -/
noncomputable def sN : ℕ := 6 * z + 2

theorem rel_aux : ∃ n : ℕ, p ^ 3 + (sN + p) = n * r + p ^ 2 := by
  refine ⟨(p ^ 3 + (sN + p) - p ^ 2) / r, ?_⟩
  unfold sN z
  rw [p_eq]; decide +kernel

theorem good0 (c : Curve) : Good ((c.b : ZMod p)) where
  two := by decide +kernel
  three := by decide +kernel
  b := b_ne c

theorem FE_even6 (a0 a2 a4 : G2)
    (h : G12.incl a0 + G12.incl a2 * G12.w ^ 2 + G12.incl a4 * G12.w ^ 4 ≠ 0) :
    FE (G12.incl a0 + G12.incl a2 * G12.w ^ 2 + G12.incl a4 * G12.w ^ 4) = 1 := by
  rw [even_aux] at h ⊢
  exact FE_even h rfl

/-- the tower, the curves and the exponentiation -/
noncomputable def setup (c : Curve) : Abs.Setup (ZMod p) G2 G12 where
  j := G2.incl
  ι := G12.incl
  w := G12.w
  xi := G2.xi
  b := (c.b : ZMod p)
  tw := c.twist
  g := G2.gam
  q := p
  r := r
  s := sN
  FE := FE
  tw_eq := by unfold Curve.twist; rw [map_intCast]
  xi_ne := xi_ne
  w6 := G12.w_pow6
  good0 := good0 c
  good := c.good
  prime := inferInstance
  charK := inferInstance
  charL := inferInstance
  g6 := gam6_pow
  wq := G12.w_pow_p
  fixk x := ZMod.pow_card x
  x_ne := OnE_x_ne c
  y_ne := OnE_y_ne c
  y_ne2 := y_ne2 c
  FE_r _ h := FE_pow_r h
  even := FE_even6
  indep := indep_aux
  rel := rel_aux

end Pr
end Verif.Snark
