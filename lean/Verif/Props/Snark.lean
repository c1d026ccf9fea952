import Verif.Snark.Modp
import Verif.Snark.Witness

/-!
Property theorems C65-C72: the library built with `BN_SUPPORT_SNARK` (`CurveSNARK1`, `CurveSNARK2`).

Vocabulary of the statements (Snark/Spec.lean, Snark/Ring.lean, Snark/Den*.lean): `p`, `r`, `z` are the SNARK
parameters; `Canon`, `residue`, `residueD` as for the default curve; `G2`, `G6`, `G12` are the rings
(Z/pZ)[u]/(u²+1), G2[v]/(v³-ξ), G6[w]/(w²-v) with ξ = 9 + u; `SCan` says that every buffer is canonical, `SRed`
that every 512-bit buffer is below p·2^256, `sden` (`sdenD`) is the element that the buffers denote.
-/

namespace Verif.Snark
open Verif.Hom Verif.Ec

/-! ### C65 -/

/-- **C65** parameters -/
theorem C65_params :
    (p : ℤ) = 36 * 4965661367192848881 ^ 4 + 36 * 4965661367192848881 ^ 3 + 24 * 4965661367192848881 ^ 2
      + 6 * 4965661367192848881 + 1 ∧
    (r : ℤ) = p + 1 - (6 * 4965661367192848881 ^ 2 + 1) ∧
    Nat.Prime p ∧ Nat.Prime r ∧ p % 4 = 3 ∧ 2 ^ 253 < p ∧ p < 2 ^ 254 := by
  refine ⟨by decide +kernel, by decide +kernel, p_prime, r_prime, by decide +kernel, by decide +kernel,
    by decide +kernel⟩

/-- **C65** `Fp::add`, `sub`, `neg` -/
theorem C65_add_sub {x y : ℕ} (hx : Canon x) (hy : Canon y) :
    (Canon (add x y) ∧ residue (add x y) = residue x + residue y) ∧
    (Canon (sub x y) ∧ residue (sub x y) = residue x - residue y) ∧
    (Canon (neg x) ∧ residue (neg x) = -residue x) :=
  ⟨⟨add_lt hx hy, residue_add hx hy⟩, ⟨sub_lt hx hy, residue_sub hx hy⟩, neg_lt hx, residue_neg hx⟩

/-- **C65** `Fp::mul` -/
theorem C65_mul {x y : ℕ} (hx : Canon x) (hy : Canon y) :
    Canon (mul x y) ∧ residue (mul x y) = residue x * residue y := ⟨mul_lt hx hy, residue_mul hx hy⟩

/-- **C65** `Fp::divBy2`, `divBy4` -/
theorem C65_div {x : ℕ} (hx : Canon x) :
    (Canon (divBy2 x) ∧ residue (divBy2 x) = residue x / 2) ∧
    (Canon (divBy4 x) ∧ residue (divBy4 x) = residue x / 4) :=
  ⟨⟨(divBy2_spec hx).1, residue_divBy2 hx⟩, (divBy4_spec hx).1, residue_divBy4 hx⟩

/-- **C65** `Fp::inv`: no table index out of range, the inverse for every non-zero x, 0 for 0 -/
theorem C65_inv {x : ℕ} (hx : Canon x) :
    ∃ y, inv x = .ok y ∧ Canon y ∧ residue y = (residue x)⁻¹ := by
  by_cases h0 : x = 0
  · subst h0
    exact ⟨0, inv_zero, p_pos, by rw [residue_zero, _root_.inv_zero]⟩
  · obtain ⟨y, e, hy, h⟩ := inv_spec hx h0
    exact ⟨y, e, hy, eq_inv_of_mul_eq_one_right h⟩

/-- **C65** `Fp::set(Vuint)`, `Fp::set(int)`, `Fp::get` -/
theorem C65_set_get :
    (∀ x : List ℕ, WF x → x.length ≤ 5 → ∃ y, set x = .ok y ∧ Canon y ∧ residue y = (val x : ZMod p)) ∧
    (∀ x : ℤ, -2 ^ 31 < x → x < 2 ^ 31 → ∃ y, setInt x = .ok y ∧ Canon y ∧ residue y = (x : ZMod p)) ∧
    ∀ x : ℕ, Canon x → ∃ l, get x = .ok l ∧ WF l ∧ val l < p ∧ (val l : ZMod p) = residue x :=
  ⟨fun _ h1 h2 => set_spec h1 h2, fun _ h1 h2 => setInt_spec h1 h2, fun _ h => get_spec h⟩

/-- **C65** `Dbl::add`, `sub`, `mod` -/
theorem C65_dbl {x y : ℕ} (hx : x < p * 2 ^ 256) (hy : y < p * 2 ^ 256) :
    (dblAdd x y < p * 2 ^ 256 ∧ residueD (dblAdd x y) = residueD x + residueD y) ∧
    (dblSub x y < p * 2 ^ 256 ∧ residueD (dblSub x y) = residueD x - residueD y) ∧
    (Canon (dblMod x) ∧ residue (dblMod x) = residueD x) := by
  have e : p * 2 ^ 256 = pN := by rw [pN_def]; norm_num only
  rw [e] at hx hy ⊢
  exact ⟨dadd hx hy, dsub hx hy.le, dmod hx⟩

example : Canon (p - 1) ∧ Canon 5 ∧ add (p - 1) 5 = 4 ∧ sub 5 (p - 1) = 6 ∧ neg 0 = 0 ∧ neg 5 = p - 5 ∧
    divBy2 (p - 1) = (p - 1) / 2 ∧ mul montR 5 = 5 ∧ inv montR = .ok montR ∧ inv 0 = .ok 0 ∧
    set [7] = .ok (7 * montR % p) ∧ get (7 * montR % p) = .ok [7] ∧ setInt (-1) = .ok (p - montR) ∧
    dblAdd (p * 2 ^ 256 - 1) 5 = 4 ∧ dblMod (2 ^ 256) = 1 := by decide +kernel

/-! ### C66 -/

/-- **C66** the generated `Fp2::mul_xi` never reads beyond its table of multiples of p, is canonical and multiplies
by 9 + u; the portable version agrees with it. -/
theorem C66_mul_xi {x : R2} (hx : x.SCan) :
    ∃ y, S2.mulXi x = .ok y ∧ y.SCan ∧ y.sden = G2.xi * x.sden ∧ S2.mulXiC x = y := by
  obtain ⟨y, e, h1, h2⟩ := S2.mulXi_den hx
  refine ⟨y, e, h1, h2, ?_⟩
  have := S2.mulXi_eq hx
  rw [e] at this
  exact (Res.ok.inj this).symm

/-- **C66** for an unreduced operand (below 1.2p, as `Fp6::mul` can produce) the quotient estimate loses its top bit
and the result is wrong. -/
theorem C66_unreduced : ∃ x : R2, x.a < p ∧ 5 * x.b < 6 * p ∧ ∃ y, S2.mulXi x = .ok y ∧
    y.b % p ≠ (9 * x.b + x.a) % p := by
  have h : okAnd (S2.mulXi ⟨p - 1, 6 * p / 5⟩) (fun y => decide (y.b % p ≠ (9 * (6 * p / 5) + (p - 1)) % p)) = true := by
    decide +kernel
  obtain ⟨y, e, h⟩ := okAnd_iff h
  exact ⟨⟨p - 1, 6 * p / 5⟩, by decide +kernel, by decide +kernel, y, e, of_decide_eq_true h⟩

example : (⟨p - 1, p - 2⟩ : R2).SCan ∧ S2.mulXi ⟨p - 1, p - 2⟩ = .ok ⟨p - 7, p - 19⟩ := by decide +kernel

/-! ### C67 -/

/-- **C67** `Fp2::mul` and both squarings -/
theorem C67_mul {x y : R2} (hx : x.SCan) (hy : y.SCan) :
    ((S2.mul x y).SCan ∧ (S2.mul x y).sden = x.sden * y.sden) ∧
    ((S2.square x).SCan ∧ (S2.square x).sden = x.sden * x.sden) ∧ S2.squareC x = S2.square x := by
  obtain ⟨h1, h2⟩ := S2.square_den hx
  obtain ⟨h3, h4⟩ := S2.squareC_den hx
  exact ⟨S2.mul_den hx hy, ⟨h1, h2⟩, sden_inj h3 h1 (h4.trans h2.symm)⟩

/-- **C67** `Fp2::add`, `sub`, `neg`, `divBy2`, `divBy4`, `mul_Fp_0` -/
theorem C67_linear {x y : R2} {k : ℕ} (hx : x.SCan) (hy : y.SCan) (hk : Canon k) :
    ((S2.add x y).SCan ∧ (S2.add x y).sden = x.sden + y.sden) ∧
    ((S2.sub x y).SCan ∧ (S2.sub x y).sden = x.sden - y.sden) ∧
    ((S2.neg x).SCan ∧ (S2.neg x).sden = -x.sden) ∧
    ((S2.divBy2 x).SCan ∧ 2 * (S2.divBy2 x).sden = x.sden) ∧
    ((S2.divBy4 x).SCan ∧ 4 * (S2.divBy4 x).sden = x.sden) ∧
    (S2.mulFp0 x k).SCan ∧ (S2.mulFp0 x k).sden = ⟨x.sden.a * residue k, x.sden.b * residue k⟩ := by
  obtain ⟨h1, h2⟩ := S2.mulFp0_den hx hk
  refine ⟨S2.add_den hx hy, S2.sub_den hx hy, S2.neg_den hx, S2.divBy2_den hx, S2.divBy4_den hx, h1, ?_⟩
  rw [h2]
  refine G2.ext ?_ ?_
  · rw [G2.mul_a]; ring
  · rw [G2.mul_b]; ring

/-- **C67** `Fp2::inverse` -/
theorem C67_inverse {x : R2} (hx : x.SCan) (h0 : x ≠ ⟨0, 0⟩) :
    ∃ y, S2.inverse x = .ok y ∧ y.SCan ∧ y.sden * x.sden = 1 := by
  refine S2.inverse_den hx fun h => h0 (sden_inj hx ⟨p_pos, p_pos⟩ ?_)
  rw [h, sden_zero]

/-- **C67** `Fp2Dbl`: `mulOpt1`, `mulOpt2`, `square`, `mul_xi`, `mod` -/
theorem C67_dbl {x y T : R2} (hx : x.SCan) (hy : y.SCan) (hT : T.SRed) :
    ((S2.mulOpt1 x y).SRed ∧ (S2.mulOpt1 x y).sdenD = x.sden * y.sden) ∧
    ((S2.mulOpt2 x y).SRed ∧ (S2.mulOpt2 x y).sdenD = x.sden * y.sden) ∧
    ((S2.dSquare x).SRed ∧ (S2.dSquare x).sdenD = x.sden * x.sden) ∧
    ((S2.dMulXi T).SRed ∧ (S2.dMulXi T).sdenD = G2.xi * T.sdenD) ∧
    (S2.dMod T).SCan ∧ (S2.dMod T).sden = T.sdenD :=
  ⟨S2.mulOpt1_den hx hy, S2.mulOpt2_den hx hy, S2.dSquare_den hx, S2.dMulXi_den hT, S2.dMod_den hT⟩

example : (⟨p - 1, p - 2⟩ : R2).SCan ∧ S2.square ⟨montR, montR⟩ = ⟨0, 2 * montR % p⟩ ∧
    S2.inverse ⟨0, montR⟩ = .ok ⟨0, p - montR⟩ ∧ S2.mul ⟨montR, p - 1⟩ ⟨0, montR⟩ = ⟨1, montR⟩ := by decide +kernel

/-! ### C68 -/

/-- the integer that `Fp6Dbl::mul` leaves unreduced, the u-part of the v² coefficient, is below p·2^256 -/
def Fits (x y : R6) : Prop :=
  x.a.a * y.c.b + x.a.b * y.c.a + (x.b.a * y.b.b + x.b.b * y.b.a) + (x.c.a * y.a.b + x.c.b * y.a.a) < p * 2 ^ 256

instance (x y : R6) : Decidable (Fits x y) := by unfold Fits; infer_instance

theorem sden6_inj {x y : R6} (hx : x.SCan) (hy : y.SCan) (h : x.sden = y.sden) : x = y := by
  obtain ⟨xa, xb, xc⟩ := x
  obtain ⟨ya, yb, yc⟩ := y
  have h1 := sden_inj hx.1 hy.1 (congrArg G6.a h)
  have h2 := sden_inj hx.2.1 hy.2.1 (congrArg G6.b h)
  have h3 := sden_inj hx.2.2 hy.2.2 (congrArg G6.c h)
  dsimp only at h1 h2 h3
  rw [h1, h2, h3]

theorem fits {x y : R6} (h : Fits x y) : cb x y < pN := by rw [pN_def]; exact h

/-- **C68** `Fp6::mul`: always the right value; every component canonical except the last, which is below 1.2p -/
theorem C68_mul {x y : R6} (hx : x.SCan) (hy : y.SCan) :
    (S6.mul x y).sden = x.sden * y.sden ∧ (S6.mul x y).a.SCan ∧ (S6.mul x y).b.SCan ∧ (S6.mul x y).c.a < p ∧
      5 * (S6.mul x y).c.b < 6 * p := S6.mul_den hx hy

/-- **C68** canonical whenever the unreduced sum fits -/
theorem C68_canonical {x y : R6} (hx : x.SCan) (hy : y.SCan) (h : Fits x y) : (S6.mul x y).SCan :=
  (S6.mul_den' hx hy (fits h)).1

/-- **C68** the result is not always canonical -/
theorem C68_unreduced : ∃ x y : R6, x.SCan ∧ y.SCan ∧ ¬ (S6.mul x y).SCan :=
  ⟨bad6X, bad6Y, bad6.1, bad6.2.1, fun h => absurd h.2.2.2 (Nat.not_lt.2 bad6.2.2)⟩

example : (⟨⟨p / 2, p / 3⟩, ⟨1, 2⟩, ⟨p / 5, 7⟩⟩ : R6).SCan ∧
    Fits ⟨⟨p / 2, p / 3⟩, ⟨1, 2⟩, ⟨p / 5, 7⟩⟩ ⟨⟨p - 1, p - 1⟩, ⟨p - 1, p - 1⟩, ⟨p - 1, p - 1⟩⟩ := by decide +kernel

/-! ### C69 -/

/-- **C69** `Fp12::mul`: the right value when the two half products fit; canonical when the third one fits as well
(s, t are the canonical forms of x.a + x.b and y.a + y.b). -/
theorem C69_mul_fits {x y : R12} (hx : x.SCan) (hy : y.SCan) (ha : Fits x.a y.a) (hb : Fits x.b y.b) :
    (S12.mul x y).sden = x.sden * y.sden ∧
    ∀ s t : R6, s.SCan → t.SCan → s.sden = x.a.sden + x.b.sden → t.sden = y.a.sden + y.b.sden → Fits s t →
      (S12.mul x y).SCan := by
  obtain ⟨h1, h2, h3, h4, h5, h6⟩ := S12.mul_den hx hy (fits ha) (fits hb)
  refine ⟨h1, fun s t hs ht es et h => ⟨h2, h3, h4, h5, h6 ?_⟩⟩
  obtain ⟨k1, k2⟩ := S6.add_den hx.1 hx.2
  obtain ⟨k3, k4⟩ := S6.add_den hy.1 hy.2
  rw [← sden6_inj hs k1 (es.trans k2.symm), ← sden6_inj ht k3 (et.trans k4.symm)]
  exact fits h

theorem sum6 {a b c d e f s q : ℕ} (h1 : 100 * a ≤ 81 * s) (h2 : 100 * b ≤ 81 * s) (h3 : 100 * c ≤ 81 * s)
    (h4 : 100 * d ≤ 81 * s) (h5 : 100 * e ≤ 81 * s) (h6 : 100 * f ≤ 81 * s) (h7 : 486 * s < 100 * q) :
    a + b + (c + d) + (e + f) < q := by omega

/-- all six coordinates are at most 0.9p -/
def Small (x : R6) : Prop := 10 * x.a.a ≤ 9 * p ∧ 10 * x.a.b ≤ 9 * p ∧ 10 * x.b.a ≤ 9 * p ∧ 10 * x.b.b ≤ 9 * p ∧
  10 * x.c.a ≤ 9 * p ∧ 10 * x.c.b ≤ 9 * p

instance (x : R6) : Decidable (Small x) := by unfold Small; infer_instance

/-- **C69** coordinates up to 0.9p always fit, so `Fp12::mul` has the right value for them -/
theorem C69_mul_small {x y : R12} (hx : Small x.a ∧ Small x.b) (hy : Small y.a ∧ Small y.b) :
    (S12.mul x y).sden = x.sden * y.sden := by
  have hp : 486 * p < 100 * 2 ^ 256 := by rw [p_eq]; norm_num only
  have key : ∀ {x y : R6}, Small x → Small y → Fits x y := by
    rintro x y ⟨a1, a2, a3, a4, a5, a6⟩ ⟨b1, b2, b3, b4, b5, b6⟩
    have m : ∀ {a b : ℕ}, 10 * a ≤ 9 * p → 10 * b ≤ 9 * p → 100 * (a * b) ≤ 81 * (p * p) := by
      intro a b ha hb
      calc 100 * (a * b) = 10 * a * (10 * b) := by ring
        _ ≤ 9 * p * (9 * p) := Nat.mul_le_mul ha hb
        _ = _ := by ring
    have h1 := m a1 b6
    have h2 := m a2 b5
    have h3 := m a3 b4
    have h4 := m a4 b3
    have h5 := m a5 b2
    have h6 := m a6 b1
    have h7 : 486 * (p * p) < 100 * (p * 2 ^ 256) := by
      calc 486 * (p * p) = p * (486 * p) := by ring
        _ < p * (100 * 2 ^ 256) := Nat.mul_lt_mul_of_pos_left hp p_pos
        _ = _ := by ring
    exact sum6 h1 h2 h3 h4 h5 h6 h7
  have can : ∀ {x : R6}, Small x → x.SCan := by
    rintro x ⟨a1, a2, a3, a4, a5, a6⟩
    have h0 := p_pos
    exact ⟨⟨by omega, by omega⟩, ⟨by omega, by omega⟩, by omega, by omega⟩
  exact (C69_mul_fits ⟨can hx.1, can hx.2⟩ ⟨can hy.1, can hy.2⟩ (key hx.1 hy.1) (key hx.2 hy.2)).1

/-- **C69** `Fp12::mul` is wrong for some canonical operands -/
theorem C69_mul_wrong : ∃ x y : R12, x.SCan ∧ y.SCan ∧ (S12.mul x y).sden ≠ x.sden * y.sden :=
  ⟨badX, badY, badX_can, badY_can, fun h => bad_mul (exact_of_eq h).1⟩

/-- **C69** `Fp12::square`: canonical and right when the two inner products fit (s, t are the canonical forms of
a + b and a + vb). -/
theorem C69_square_fits {x : R12} (hx : x.SCan) (h1 : Fits x.b x.a) {s t : R6} (hs : s.SCan) (ht : t.SCan)
    (es : s.sden = x.a.sden + x.b.sden) (et : t.sden = x.a.sden + G6.v * x.b.sden) (h2 : Fits s t) :
    ∃ y, S12.square x = .ok y ∧ y.SCan ∧ y.sden = x.sden * x.sden := by
  refine S12.square_den hx (fits h1) fun t' e => ?_
  obtain ⟨k1, k2⟩ := S6.add_den hx.1 hx.2
  obtain ⟨t'', e', k3, k4⟩ := S6.mulGammaAdd_den hx.2 hx.1
  rw [e] at e'
  obtain rfl := Res.ok.inj e'
  rw [← sden6_inj hs k1 (es.trans k2.symm), ← sden6_inj ht k3 (et.trans (by rw [k4]; ring))]
  exact fits h2

/-- **C69** `Fp12::square` is wrong for some canonical operand -/
theorem C69_square_wrong : ∃ x : R12, x.SCan ∧ ∃ y, S12.square x = .ok y ∧ y.sden ≠ x.sden * x.sden := by
  obtain ⟨y, e, h⟩ := okAnd_iff bad_square
  exact ⟨badZ, badZ_can, y, e, fun h' => of_decide_eq_true h (exact_of_eq h').2⟩

example : (⟨⟨⟨p / 2, p / 3⟩, ⟨1, 2⟩, ⟨p / 5, 7⟩⟩, ⟨⟨p - 1, 0⟩, ⟨5, 3⟩, ⟨2, p / 7⟩⟩⟩ : R12).SCan ∧
    Fits ⟨⟨p - 1, 0⟩, ⟨5, 3⟩, ⟨2, p / 7⟩⟩ ⟨⟨p / 2, p / 3⟩, ⟨1, 2⟩, ⟨p / 5, 7⟩⟩ ∧ Small ⟨⟨p / 2, p / 3⟩, ⟨1, 2⟩, ⟨p / 5, 7⟩⟩ ∧
    ¬ Fits badX.b badY.b := by decide +kernel

/-! ### C70 -/

/-- **C70** `fast_modp` reduces n < 2^256 exactly when the estimate by the top three bits is at most one too large -/
theorem C70_fast_modp {n : ℕ} (hn : n < 2 ^ 256) :
    (Canon (fastModp n) ∧ residue (fastModp n) = residue n) ↔ n / 2 ^ 253 * p ≤ n + p :=
  fastModp_iff (by norm_num at hn ⊢; exact hn)

/-- **C70** `Fp::_2z_add_3x` on canonical operands -/
theorem C70_2z_add_3x {z x : ℕ} (hz : Canon z) (hx : Canon x) :
    (Canon (add2z3x z x) ∧ residue (add2z3x z x) = 2 * residue z + 3 * residue x) ↔
      (2 * z + 3 * x) / 2 ^ 253 * p ≤ 2 * z + 3 * x + p := add2z3x_iff hz hx

/-- **C70** neither is always right -/
theorem C70_wrong : (∃ z x, Canon z ∧ Canon x ∧ residue (add2z3x z x) ≠ 2 * residue z + 3 * residue x) ∧
    ∀ n, 5 * 2 ^ 253 ≤ n → n < 2 ^ 256 → residue (fastModp n) ≠ residue n := by
  have hne : ∀ {n}, n < 2 ^ 256 → ¬ Est n → residue (fastModp n) ≠ residue n := by
    intro n hn he h
    apply (fastModp_spec (by norm_num only at hn ⊢; exact hn)).2 he
    rw [cast_eq_residue, h, ← cast_eq_residue]
  refine ⟨⟨0, p - 1, p_pos, by decide +kernel, ?_⟩, fun n h1 h2 => hne h2 ?_⟩
  · rw [add2z3x_eq p_pos (by decide +kernel)]
    have : residue (2 * 0 + 3 * (p - 1)) = 2 * residue 0 + 3 * residue (p - 1) := by
      unfold residue; push_cast; ring
    rw [← this]
    exact hne (by decide +kernel) (by decide +kernel)
  · have hp := p_eq
    unfold Est
    norm_num only at h1 h2 ⊢
    generalize ht : n / 14474011154664524427946373126085988481658748083205070504932198000989141204992 = t
    rw [hp]
    rcases (show t = 5 ∨ t = 6 ∨ t = 7 by omega) with rfl | rfl | rfl <;> omega

example : fastModp (p + 5) = 5 ∧ Canon (p - 1) ∧ Canon 3 ∧ add2z3x (p - 1) 3 = 7 ∧ fastModp (3 * p - 1) ≠ p - 1 := by
  decide +kernel

/-! ### C71 -/

/-- **C71** the sparse multiplications of the Miller loop; `G6.line l` is (l.a + l.c v²) + l.b v w -/
theorem C71_sparse {f : R12} {l l' : R6} (hf : f.SCan) (hl : l.SCan) (hl' : l'.SCan) :
    ((S12.mul024 f l).SCan ∧ (S12.mul024 f l).sden = f.sden * l.sden.line) ∧
    (S12.mul024_024 l l').SCan ∧ (S12.mul024_024 l l').sden = l.sden.line * l'.sden.line :=
  ⟨S12.mul024_den hf hl, S12.mul024_024_den hl hl'⟩

/-- **C71** `sq_Fp4UseDbl` squares x0 + x1 s with s² = ξ -/
theorem C71_sq_Fp4 {x y : R2} (hx : x.SCan) (hy : y.SCan) :
    (S12.sqFp4 x y).1.SCan ∧ (S12.sqFp4 x y).2.SCan ∧
    (S12.sqFp4 x y).1.sden = x.sden * x.sden + G2.xi * (y.sden * y.sden) ∧
    (S12.sqFp4 x y).2.sden = 2 * (x.sden * y.sden) := S12.sqFp4_den hx hy

/-- **C71** the doubling step: with the factor b/ξ the new triple stands for A + A on the twist y² = x³ + b/ξ, and the
coefficients are, up to a common factor, those of the tangent. -/
theorem C71_dbl (c : Curve) {b82 : Bool} {binv X Y Z : R2} (hb : binv.SCan) (hX : X.SCan) (hY : Y.SCan)
    (hZ : Z.SCan) (hf : G2.xi * beta b82 binv = (c.b : G2)) {A : (curve c.twist).Point}
    (hA : RepH c.twist ⟨X.sden, Y.sden, Z.sden⟩ A) :
    ∃ e, pointDblLineEvalWithoutP b82 binv X Y Z = .ok e ∧
    (e.x.SCan ∧ e.y.SCan ∧ e.z.SCan) ∧ RepH c.twist ⟨e.x.sden, e.y.sden, e.z.sden⟩ (A + A) ∧
    Prop3 (e.l.a.sden / G2.xi, e.l.b.sden, e.l.c.sden) (lin A A) := by
  obtain ⟨e, h1, -, h2, h3, h4⟩ := dbl_group c hb hX hY hZ hf hA
  exact ⟨e, h1, h2, h3, h4⟩

/-- affine coordinates of the usual generator of the second group of `CurveSNARK1` (Montgomery form) -/
def gX : R2 := ⟨11461925177900819176832270005713103520318409907105193817603008068482420711462, 9496696083199853777875401760424613833161720860855390556979200160215841136960⟩
def gY : R2 := ⟨18540402224736191443939503902445128293982106376239432540843647066670759668214, 6170940445994484564222204938066213705353407449799250191249554538140978927342⟩

theorem gen_on : gX.SCan ∧ gY.SCan ∧ (curve Curve.snark1.twist).Nonsingular gX.sden gY.sden := by
  have hX : gX.SCan := by decide +kernel
  have hY : gY.SCan := by decide +kernel
  refine ⟨hX, hY, (curve_nonsingular Curve.snark1.good _ _).2 ?_⟩
  have e : S2.mulXi (S2.sub (S2.square gY) (S2.mul (S2.square gX) gX)) = .ok ⟨3 * montR % p, 0⟩ := by decide +kernel
  obtain ⟨a1, a2⟩ := S2.square_den hX
  obtain ⟨b1, b2⟩ := S2.square_den hY
  obtain ⟨c1, c2⟩ := S2.mul_den a1 hX
  obtain ⟨d1, d2⟩ := S2.sub_den b1 c1
  obtain ⟨t, e1, -, e2⟩ := S2.mulXi_den d1
  rw [e] at e1
  obtain rfl := Res.ok.inj e1
  have h3 : (⟨3 * montR % p, 0⟩ : R2).sden = (Curve.snark1.b : G2) := by
    refine G2.ext ?_ ?_
    · rw [R2.sden_a, G2.intCast_a]
      show residue (3 * montR % p) = _
      rw [S2.residue_mod]
      have : residue (3 * montR) = 3 * residue montR := by unfold residue; push_cast; ring
      rw [this, residue_montR]; simp [Curve.b]
    · rw [R2.sden_b, G2.intCast_b]; exact residue_zero
  rw [d2, b2, c2, a2, h3] at e2
  unfold Curve.twist
  rw [e2, mul_div_cancel_left₀ _ xi_ne]; ring

example : ∃ hn : (curve Curve.snark1.twist).Nonsingular gX.sden gY.sden,
    RepH Curve.snark1.twist ⟨gX.sden, gY.sden, (⟨montR, 0⟩ : R2).sden⟩ (.some _ _ hn) ∧ gX.SCan ∧ gY.SCan ∧
    (⟨montR, 0⟩ : R2).SCan := by
  obtain ⟨h1, h2, h3⟩ := gen_on
  have hz : (⟨montR, 0⟩ : R2).sden = 1 := G2.ext residue_montR residue_zero
  exact ⟨h3, by rw [hz]; exact repH_affine h3, h1, h2, by decide +kernel⟩

/-- **C71** the addition step, for A ≠ 0 different from Q -/
theorem C71_add (c : Curve) {X Y Z Qx Qy : R2} (hX : X.SCan) (hY : Y.SCan) (hZ : Z.SCan) (hx : Qx.SCan)
    (hy : Qy.SCan) {A : (curve c.twist).Point} (hA : RepH c.twist ⟨X.sden, Y.sden, Z.sden⟩ A)
    (hQ : (curve c.twist).Nonsingular Qx.sden Qy.sden) (h0 : A ≠ 0) (hne : A ≠ .some _ _ hQ) :
    ∃ e, pointAddLineEvalWithoutP X Y Z Qx Qy = .ok e ∧
    (e.x.SCan ∧ e.y.SCan ∧ e.z.SCan) ∧ RepH c.twist ⟨e.x.sden, e.y.sden, e.z.sden⟩ (A + .some _ _ hQ) ∧
    Prop3 (e.l.a.sden / G2.xi, e.l.b.sden, e.l.c.sden) (lin A (.some _ _ hQ)) := by
  obtain ⟨e, h1, -, h2, h3, h4⟩ := add_group c hX hY hZ hx hy hA hQ h0 hne
  exact ⟨e, h1, h2, h3, h4⟩

/-! ### C72 -/

/-- **C72** for every history of `init` calls the doubling step multiplies by b/ξ of the curve in force exactly when
the first curve was SNARK1 or the last one is SNARK2. -/
theorem C72_factor (l : List Curve) (hl : l ≠ []) : ∃ s, St.start.run l = .ok s ∧
    (G2.xi * s.factor = ((l.getLast hl).b : G2) ↔ l.head hl = .snark1 ∨ l.getLast hl = .snark2) := by
  obtain ⟨s, h1, -, h2⟩ := factor_iff l hl
  exact ⟨s, h1, h2⟩

/-- **C72** what the doubling step does after such a history: right for every point in the good cases, wrong for every
point with xy ≠ 0 in the others. -/
theorem C72_dbl (l : List Curve) (hl : l ≠ []) : ∃ s, St.start.run l = .ok s ∧
    ∀ X Y Z : R2, X.SCan → Y.SCan → Z.SCan → ∀ x y, ∀ hn : (curve (l.getLast hl).twist).Nonsingular x y,
    RepH (l.getLast hl).twist ⟨X.sden, Y.sden, Z.sden⟩ (.some x y hn) → x ≠ 0 → y ≠ 0 →
    ∃ e, pointDblLineEvalWithoutP s.b82 s.binv X Y Z = .ok e ∧
      (RepH (l.getLast hl).twist ⟨e.x.sden, e.y.sden, e.z.sden⟩ (.some x y hn + .some x y hn) ↔
        l.head hl = .snark1 ∨ l.getLast hl = .snark2) := by
  obtain ⟨s, h1, hb, h2⟩ := factor_iff l hl
  refine ⟨s, h1, fun X Y Z hX hY hZ x y hn hA hx hy => ?_⟩
  by_cases hf : G2.xi * s.factor = ((l.getLast hl).b : G2)
  · obtain ⟨e, e1, -, -, e2, -⟩ := dbl_group _ hb hX hY hZ hf hA
    exact ⟨e, e1, fun _ => h2.1 hf, fun _ => e2⟩
  · obtain ⟨e, e1, e2⟩ := dbl_wrong _ hb hX hY hZ hf hn hx hy hA
    exact ⟨e, e1, fun h => absurd h e2, fun h => absurd (h2.2 h) hf⟩

example : ([.snark2, .snark1] : List Curve).head (by simp) ≠ .snark1 ∧
    ([.snark2, .snark1] : List Curve).getLast (by simp) ≠ .snark2 ∧ gX.sden ≠ 0 ∧ gY.sden ≠ 0 := by
  refine ⟨by decide, by decide, ?_, ?_⟩
  · intro h
    exact absurd (sden_inj gen_on.1 zero_can (h.trans sden_zero.symm)) (by decide +kernel)
  · intro h
    exact absurd (sden_inj gen_on.2.1 zero_can (h.trans sden_zero.symm)) (by decide +kernel)

end Verif.Snark
