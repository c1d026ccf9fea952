import Verif.Pairing.Abs
import Verif.Pairing.Count

/-! One pair of points with value ≠ 1 gives the order of the curve and non-degeneracy. -/

namespace Verif
open Ec Hom
namespace Abs
namespace Setup

variable {k K L : Type} [Field k] [DecidableEq k] [Field K] [DecidableEq K] [Field L] {S : Setup k K L}

theorem r_of {B : S.E'} {A : S.E0} (hr : S.r.Prime) (hB : Tor S B) (h : pair B A ≠ 1) : orderOf (pair B A) = S.r := by
  have := Fact.mk hr
  exact orderOf_eq_prime (pair_pow_r hB A) h

theorem r_dvd_E0 [Finite k] {B : S.E'} {A : S.E0} (hr : S.r.Prime) (hB : Tor S B) (h : pair B A ≠ 1) :
    S.r ∣ Nat.card S.E0 := by
  have hfin : Finite S.E0 := Count.finite S.good0
  have h1 : pair B A ^ Nat.card S.E0 = 1 := by
    rw [← pair_nsmul hB, card_nsmul_eq_zero', pair_zero]
  rw [← r_of hr hB h]
  exact orderOf_dvd_of_pow_eq_one h1

theorem card_E0 [Finite k] {B : S.E'} {A : S.E0} (hr : S.r.Prime) (hk : 2 * Nat.card k + 1 < 3 * S.r) (hB : Tor S B)
    (h : pair B A ≠ 1) : Nat.card S.E0 = S.r := by
  have hfin : Finite S.E0 := Count.finite S.good0
  obtain ⟨m, hm⟩ := r_dvd_E0 hr hB h
  have hle : Nat.card S.E0 ≤ 2 * Nat.card k + 1 := Count.card_le S.good0
  have hodd : ¬ 2 ∣ Nat.card S.E0 := Count.odd S.good0 (fun x h => S.y_ne x 0 (by rw [h]; ring) rfl)
  have hpos : 0 < Nat.card S.E0 := Nat.card_pos
  have hm3 : m < 3 := by
    by_contra h3
    have : S.r * 3 ≤ S.r * m := Nat.mul_le_mul_left _ (by omega)
    omega
  have : m = 0 ∨ m = 1 ∨ m = 2 := by omega
  rcases this with rfl | rfl | rfl
  · rw [mul_zero] at hm; omega
  · rw [hm, mul_one]
  · exact absurd ⟨S.r, by rw [hm, mul_comm]⟩ hodd

theorem nsmul_of_zsmul {G : Type} [AddCommGroup G] {q : ℕ} (hq : 0 < q) {A B : G} (hA : q • A = 0) {n : ℤ}
    (h : B = n • A) : ∃ m : ℕ, B = m • A := by
  refine ⟨(n % q).toNat, ?_⟩
  have h1 : ((n % q).toNat : ℤ) = n % q := Int.toNat_of_nonneg (Int.emod_nonneg _ (by omega))
  rw [← natCast_zsmul, h1, h]
  conv_lhs => rw [← Int.emod_add_mul_ediv n q, add_zsmul, mul_comm, mul_zsmul, natCast_zsmul, hA, smul_zero, add_zero]

theorem nondeg [Finite k] [Finite K] {B0 : S.E'} {A0 : S.E0} (hr : S.r.Prime) (hk : 2 * Nat.card k + 1 < 3 * S.r)
    (hK : ¬ S.r * S.r ∣ Nat.card S.E') (hB0 : Tor S B0) (h0 : pair B0 A0 ≠ 1) {B : S.E'} (hB : Tor S B) (A : S.E0) :
    pair B A = 1 ↔ B = 0 ∨ A = 0 := by
  constructor
  · intro h
    have hfin : Finite S.E0 := Count.finite S.good0
    have hfin' : Finite S.E' := Count.finite S.good
    have hc := card_E0 hr hk hB0 h0
    have hA : ∀ A : S.E0, S.r • A = 0 := fun A => by rw [← hc]; exact card_nsmul_eq_zero'
    have nB : B0 ≠ 0 := by rintro rfl; exact h0 (pair_zero_left _)
    have nA : A0 ≠ 0 := by rintro rfl; exact h0 (pair_zero _)
    obtain ⟨n, hn⟩ := Count.torsion_cyclic hr hK nB hB0.r hB.r
    obtain ⟨m, hm⟩ := Count.torsion_cyclic hr (by
      rw [hc]
      intro hd
      have h1 : S.r * S.r ≤ S.r * 1 := by rw [mul_one]; exact Nat.le_of_dvd hr.pos hd
      have := Nat.le_of_mul_le_mul_left h1 hr.pos
      exact absurd hr.two_le (by omega)) nA (hA A0) (hA A)
    obtain ⟨n, rfl⟩ := nsmul_of_zsmul hr.pos hB0.r hn
    obtain ⟨m, rfl⟩ := nsmul_of_zsmul hr.pos (hA A0) hm
    rw [pair_bilinear hB0] at h
    have hd := orderOf_dvd_of_pow_eq_one h
    rw [r_of hr hB0 h0] at hd
    rcases hr.dvd_mul.1 hd with ⟨t, rfl⟩ | ⟨t, rfl⟩
    · left; rw [mul_comm, mul_nsmul', hB0.r, smul_zero]
    · right; rw [mul_comm, mul_nsmul', hA, smul_zero]
  · rintro (rfl | rfl)
    · exact pair_zero_left A
    · exact pair_zero B

end Setup
end Abs
end Verif
