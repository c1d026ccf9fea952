import Verif.Pairing.Bilinear
import Verif.Pairing.Comp
import Verif.Pairing.NonDeg
import Verif.Props.Ec

/-! The pairing functions of the library in terms of the group elements their arguments stand for. -/

namespace Verif
open Fp Hom Ec WeierstrassCurve.Affine

namespace Pairing
open Miller

theorem affine_of {K : Type} [Field K] {b : K} {P : J K} {A : (curve b).Point} (h : Rep b P A) (hz : P.z = 1) :
    ∃ hn : (curve b).Nonsingular P.x P.y, A = .some P.x P.y hn := by
  rcases h.elim with ⟨h0, -⟩ | ⟨x, y, hn, -, hx, hy, e⟩
  · rw [hz] at h0; exact absurd h0 one_ne_zero
  · rw [hz] at hx hy
    have e1 : x = P.x := by rw [hx]; ring
    have e2 : y = P.y := by rw [hy]; ring
    subst e1 e2
    exact ⟨hn, e⟩

theorem zero_of {K : Type} [Field K] {b : K} {P : J K} {A : (curve b).Point} (h : Rep b P A) (hz : P.z = 0) : A = 0 := by
  rcases h.elim with ⟨-, e⟩ | ⟨_, _, _, h0, -⟩
  · exact e
  · exact absurd hz h0

theorem nonzero_of {K : Type} [Field K] {b : K} {P : J K} {A : (curve b).Point} (h : Rep b P A) (hz : P.z ≠ 0) : A ≠ 0 := by
  rcases h.elim with ⟨h0, -⟩ | ⟨_, _, hn, -, -, -, e⟩
  · exact absurd h0 hz
  · rw [e]; exact Point.some_ne_zero hn

theorem affine_pair {x y : F2} (hn : (curve (2 / F2.xi : F2)).Nonsingular x y) {x' y' : Fe}
    (hn' : (curve (2 : Fe)).Nonsingular x' y') :
    optAteAffine (x, y) (x', y') = (pair (.some x y hn) (.some x' y' hn') : F12) :=
  ate_eq (OnE.of hn') hn

/-- `opt_atePairing(f, Q, P)` -/
theorem optAte_rep {Q : J F2} {B : E'} (hQ : Rep (2 / F2.xi) Q B) {P : J Fe} {A : E0} (hP : Rep 2 P A) :
    optAte Q P = (pair B A : F12) := by
  obtain ⟨hQ', zQ⟩ := normalize_spec hQ
  obtain ⟨hP', zP⟩ := normalize_spec hP
  unfold optAte
  dsimp only
  generalize Ec.normalize Q = Q' at hQ' zQ ⊢
  generalize Ec.normalize P = P' at hP' zP ⊢
  by_cases h0 : Q'.z = 0
  · have : isInf Q' = true := (LawfulFF.isZero_iff _).2 h0
    rw [this, Bool.true_or, if_pos rfl, zero_of hQ' h0, pair_zero_left]; rfl
  by_cases h1 : P'.z = 0
  · have : isInf P' = true := (LawfulFF.isZero_iff _).2 h1
    rw [this, Bool.or_true, if_pos rfl, zero_of hP' h1, pair_zero]; rfl
  have e1 : isInf Q' = false := isZero_false.2 h0
  have e2 : isInf P' = false := isZero_false.2 h1
  obtain ⟨k1, e3⟩ := affine_of hQ' (zQ.resolve_right h0)
  obtain ⟨k2, e4⟩ := affine_of hP' (zP.resolve_right h1)
  rw [e1, e2, Bool.or_false, if_neg Bool.false_ne_true, e3, e4]
  exact affine_pair k1 k2

/-- `opt_atePairingJac(f, Q, P)` -/
theorem optAteJac_rep {Q : J F2} {B : E'} (hQ : Rep (2 / F2.xi) Q B) {P : J Fe} {A : E0} (hP : Rep 2 P A) :
    optAteJac Q P = (pair B A : F12) := by
  unfold optAteJac
  by_cases h0 : Q.z = 0
  · have : FF.eqb Q.z 0 = true := (LawfulFF.eqb_iff _ _).2 h0
    rw [this, Bool.true_or, if_pos rfl, zero_of hQ h0, pair_zero_left]; rfl
  by_cases h1 : P.z = 0
  · have : FF.eqb P.z 0 = true := (LawfulFF.eqb_iff _ _).2 h1
    rw [this, Bool.or_true, if_pos rfl, zero_of hP h1, pair_zero]; rfl
  have e1 : FF.eqb Q.z 0 = false := eqb_false.2 h0
  have e2 : FF.eqb P.z 0 = false := eqb_false.2 h1
  rw [e1, e2, Bool.or_false, if_neg Bool.false_ne_true]
  dsimp only
  obtain ⟨hQ', zQ⟩ := normalizeJac_spec hQ
  obtain ⟨hP', zP⟩ := normalizeJac_spec hP
  have zQ' : (Ec.normalizeJac Q).z = 1 := zQ.resolve_right (fun h => nonzero_of hQ h0 (zero_of hQ' (by rw [h])))
  have zP' : (Ec.normalizeJac P).z = 1 := zP.resolve_right (fun h => nonzero_of hP h1 (zero_of hP' (by rw [h])))
  generalize Ec.normalizeJac Q = Q' at hQ' zQ' ⊢
  generalize Ec.normalizeJac P = P' at hP' zP' ⊢
  obtain ⟨k1, e3⟩ := affine_of hQ' zQ'
  obtain ⟨k2, e4⟩ := affine_of hP' zP'
  rw [e3, e4]
  exact affine_pair k1 k2

theorem pair_pow_r (B : E') (A : E0) : pair B A ^ r = 1 := by
  cases A with
  | zero => exact one_pow r
  | some x' y' hn' =>
    cases B with
    | zero => rw [show (Point.zero : E') = 0 from rfl, pair_zero_left]; exact one_pow r
    | some x y hn =>
      apply Units.ext
      rw [Units.val_pow_eq_pow_val, ← affine_pair hn hn']
      refine FE_pow_r (x := miller Param.siTbl (x, y) (x', y')) (fun h0 => ?_)
      have e := affine_pair hn hn'
      unfold optAteAffine at e
      rw [h0, F12.finalExp_zero] at e
      exact (pair _ _).ne_zero e.symm

/-! ### Non-degeneracy -/

theorem g_points : ∃ (A : E0) (B : E'), Rep 2 g1 A ∧ Rep (2 / F2.xi) g2 B ∧ A ≠ 0 ∧ B ≠ 0 ∧ r • A = 0 ∧ r • B = 0 ∧
    pair B A ≠ 1 := by
  obtain ⟨hn, hr⟩ := rep_affine good1 (valid1 g1_valid) rfl
  obtain ⟨hn2, hr2⟩ := rep_affine good2 (valid2 g2_valid) rfl
  have h2 := ord_aux good2 hr2 w_spec.2.2.2.2.2.1 g2_ord
  rw [w_spec.2.2.2.2.2.2] at h2
  refine ⟨_, _, hr, hr2, Point.some_ne_zero hn, Point.some_ne_zero hn2, r_smul _, h2, ?_⟩
  intro h
  refine g_ne_one ?_
  rw [optAte_rep hr2 hr, h]; rfl

theorem pow_dvd {G : Type} [Group G] {g : G} {q : ℕ} (hq : q.Prime) (h : g ^ q = 1) (h1 : g ≠ 1) (n : ℕ) :
    g ^ n = 1 ↔ q ∣ n := by
  have := Fact.mk hq
  rw [← orderOf_eq_prime h h1, orderOf_dvd_iff_pow_eq_one]

theorem r_sq_ndvd : ¬ r * r ∣ ordN := by unfold ordN r; rw [p_eq]; norm_num

theorem zsmul_nat {G : Type} [AddCommGroup G] {q : ℕ} (hq : 0 < q) {A : G} (h : q • A = 0) (n : ℤ) :
    ∃ k : ℕ, n • A = k • A := by
  refine ⟨(n % q).toNat, ?_⟩
  have h1 : 0 ≤ n % q := Int.emod_nonneg _ (by exact_mod_cast hq.ne')
  rw [← natCast_zsmul _ (n % q).toNat, Int.toNat_of_nonneg h1]
  conv_lhs => rw [← Int.emod_add_mul_ediv n q, add_zsmul, mul_comm, mul_zsmul, natCast_zsmul, h, smul_zero, add_zero]

/-- the pairing of two points is 1 only if one of them is 0 -/
theorem pair_eq_one {B : E'} (hB : r • B = 0) {A : E0} (h : pair B A = 1) : B = 0 ∨ A = 0 := by
  obtain ⟨A0, B0, -, -, hA0, hB0, hrA, hrB, hne⟩ := g_points
  obtain ⟨n, rfl⟩ := Count.torsion_cyclic r_prime (by rw [card_E']; exact r_sq_ndvd) hB0 hrB hB
  obtain ⟨m, rfl⟩ := Count.torsion_cyclic r_prime (by
    rw [card_E0]; exact fun h => absurd (Nat.le_of_dvd r_prime.pos h) (not_le.2 (Nat.lt_mul_self_iff.2 r_prime.one_lt)))
    hA0 hrA (r_smul A)
  obtain ⟨k, e1⟩ := zsmul_nat r_prime.pos hrB n
  obtain ⟨j, e2⟩ := zsmul_nat r_prime.pos hrA m
  rw [e1, e2] at h ⊢
  rw [pair_bilinear hrB, pow_dvd r_prime (pair_pow_r B0 A0) hne, r_prime.dvd_mul] at h
  refine h.imp ?_ ?_
  · rintro ⟨c, rfl⟩
    rw [mul_comm, mul_nsmul', hrB, nsmul_zero]
  · rintro ⟨c, rfl⟩
    rw [mul_comm, mul_nsmul', hrA, nsmul_zero]

end Pairing
end Verif
