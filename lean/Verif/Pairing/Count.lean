import Verif.Pairing.Gamma
import Mathlib.GroupTheory.OrderOfElement
import Mathlib.GroupTheory.Perm.Cycle.Type
import Mathlib.Data.ZMod.Basic
import Mathlib.Data.ZMod.QuotientGroup
import Mathlib.SetTheory.Cardinal.Finite

/-! Counting points: upper bound by fibres over x, lower bound by elements of prime order. -/

namespace Verif
namespace Count
open WeierstrassCurve.Affine Ec

section Bound
variable {K : Type} [Field K] [DecidableEq K] {b : K}

open Classical in
/-- a chosen root of y² = x³ + b -/
noncomputable def root (b x : K) : K := if h : ∃ y, y ^ 2 = x ^ 3 + b then h.choose else 0

omit [DecidableEq K] in
theorem root_spec {x y : K} (h : y ^ 2 = x ^ 3 + b) : root b x ^ 2 = x ^ 3 + b := by
  unfold root
  rw [dif_pos ⟨y, h⟩]
  exact Exists.choose_spec (⟨y, h⟩ : ∃ y, y ^ 2 = x ^ 3 + b)

/-- code of a point: x and which root -/
noncomputable def code : (curve b).Point → Option (K × Bool)
  | .zero => none
  | .some x y _ => some (x, decide (y = root b x))

theorem code_inj (hb : Good b) : Function.Injective (code (b := b)) := by
  intro A B h
  cases A with
  | zero =>
    cases B with
    | zero => rfl
    | some x y hn => exact absurd h (by simp [code])
  | some x y hn =>
    cases B with
    | zero => exact absurd h (by simp [code])
    | some x' y' hn' =>
      simp only [code, Option.some.injEq, Prod.mk.injEq] at h
      obtain ⟨rfl, h2⟩ := h
      have e := (curve_nonsingular hb x y).1 hn
      have e' := (curve_nonsingular hb x y').1 hn'
      have er := root_spec e
      have hroot : ∀ y, y ^ 2 = x ^ 3 + b → y ≠ root b x → y = -root b x := by
        intro y he hne
        have h5 : (y - root b x) * (y + root b x) = 0 := by linear_combination he - er
        exact eq_neg_of_add_eq_zero_left ((mul_eq_zero.1 h5).resolve_left (sub_ne_zero.2 hne))
      have : y = y' := by
        by_cases h3 : y = root b x
        · have h4 : y' = root b x := by
            rw [decide_eq_true h3] at h2; exact of_decide_eq_true h2.symm
          rw [h3, h4]
        · have h4 : y' ≠ root b x := by
            rw [decide_eq_false h3] at h2; exact of_decide_eq_false h2.symm
          rw [hroot y e h3, hroot y' e' h4]
      subst this
      rfl

theorem finite [Finite K] (hb : Good b) : Finite (curve b).Point := Finite.of_injective _ (code_inj hb)

theorem card_le [Finite K] (hb : Good b) : Nat.card (curve b).Point ≤ 2 * Nat.card K + 1 := by
  refine (Nat.card_le_card_of_injective _ (code_inj hb)).trans ?_
  rw [Finite.card_option, Nat.card_prod, Nat.card_eq_fintype_card (α := Bool), Fintype.card_bool, mul_comm]

/-- without a root of x³ = -b the order is odd -/
theorem odd [Finite K] (hb : Good b) (h3 : ∀ x : K, x ^ 3 ≠ -b) : ¬ 2 ∣ Nat.card (curve b).Point := by
  intro hd
  have := finite hb
  have : Fact (Nat.Prime 2) := ⟨Nat.prime_two⟩
  obtain ⟨A, hA⟩ := exists_prime_addOrderOf_dvd_card' 2 hd
  have h2 : A + A = 0 := by
    have := addOrderOf_nsmul_eq_zero A
    rwa [hA, two_nsmul] at this
  have hA0 : A ≠ 0 := by
    rintro rfl
    rw [addOrderOf_zero] at hA; omega
  cases A with
  | zero => exact hA0 rfl
  | some x y hn =>
    have e := (curve_nonsingular hb x y).1 hn
    by_cases hy : y = 0
    · subst hy
      exact h3 x (by linear_combination -e)
    · obtain ⟨h', e'⟩ := add_self_aux hb hn hy
      rw [e'] at h2
      exact Point.some_ne_zero _ h2

end Bound

section Grp
variable {G : Type} [AddCommGroup G]

theorem dvd_card [Finite G] {q : ℕ} (hq : q.Prime) {A : G} (h0 : A ≠ 0) (h : q • A = 0) : q ∣ Nat.card G := by
  have := Fact.mk hq
  rw [← addOrderOf_eq_prime h h0]
  exact addOrderOf_dvd_natCard A

theorem zsmul_prime {q : ℕ} (hq : q.Prime) {A : G} (h0 : A ≠ 0) (h : q • A = 0) (n : ℤ) :
    n • A = 0 ↔ (q : ℤ) ∣ n := by
  have := Fact.mk hq
  rw [← addOrderOf_eq_prime h h0]
  exact addOrderOf_dvd_iff_zsmul_eq_zero.symm

/-- if q² does not divide the order, the q-torsion is cyclic -/
theorem torsion_cyclic [Finite G] {q : ℕ} (hq : q.Prime) (hc : ¬ q * q ∣ Nat.card G) {A B : G} (h0 : A ≠ 0)
    (hA : q • A = 0) (hB : q • B = 0) : ∃ n : ℤ, B = n • A := by
  by_contra hn
  apply hc
  have := Fact.mk hq
  have hz : ∀ C : G, q • C = 0 → (zmultiplesHom G C) (q : ℤ) = 0 := by
    intro C hC
    rw [zmultiplesHom_apply, natCast_zsmul]; exact hC
  let f : ZMod q →+ G := ZMod.lift q ⟨zmultiplesHom G A, hz A hA⟩
  let g : ZMod q →+ G := ZMod.lift q ⟨zmultiplesHom G B, hz B hB⟩
  have hf : ∀ n : ℤ, f n = n • A := fun n => by
    show ZMod.lift q _ (n : ZMod q) = _
    rw [ZMod.lift_coe]; rfl
  have hg : ∀ n : ℤ, g n = n • B := fun n => by
    show ZMod.lift q _ (n : ZMod q) = _
    rw [ZMod.lift_coe]; rfl
  have hinj : Function.Injective (f.coprod g) := by
    rw [injective_iff_map_eq_zero]
    rintro ⟨a, b⟩ hab
    obtain ⟨a, rfl⟩ := ZMod.intCast_surjective a
    obtain ⟨b, rfl⟩ := ZMod.intCast_surjective b
    rw [AddMonoidHom.coprod_apply, hf, hg] at hab
    have hb : (q : ℤ) ∣ b := by
      by_contra hb
      have hcop : IsCoprime (q : ℤ) b :=
        (Nat.prime_iff_prime_int.1 hq).coprime_iff_not_dvd.2 hb
      obtain ⟨u, v, huv⟩ := hcop
      apply hn
      refine ⟨-(v * a), ?_⟩
      have h1 : (v * a) • A + (v * b) • B = 0 := by
        rw [mul_zsmul, mul_zsmul, ← smul_add, hab, smul_zero]
      have h2 : B = (v * b) • B := by
        conv_lhs => rw [← one_zsmul B, ← huv, add_zsmul, mul_zsmul, natCast_zsmul, hB, smul_zero, zero_add]
      rw [neg_zsmul, h2]
      exact (neg_eq_of_add_eq_zero_right h1).symm
    have hb0 : b • B = 0 := by
      obtain ⟨c, rfl⟩ := hb
      rw [mul_comm, mul_zsmul, natCast_zsmul, hB, smul_zero]
    rw [hb0, add_zero, zsmul_prime hq h0 hA] at hab
    rw [Prod.mk_eq_zero]
    exact ⟨(ZMod.intCast_zmod_eq_zero_iff_dvd _ _).2 hab, (ZMod.intCast_zmod_eq_zero_iff_dvd _ _).2 hb⟩
  have := AddSubgroup.card_dvd_of_injective (f.coprod g) hinj
  rwa [Nat.card_prod, Nat.card_zmod] at this

theorem smul_gcd {n N : ℤ} {B : G} (hN : N • B = 0) (h : n • B = 0) : Int.gcd n N • B = 0 := by
  have e := Int.gcd_eq_gcd_ab n N
  have : ((Int.gcd n N : ℕ) : ℤ) • B = 0 := by
    rw [e, add_zsmul, mul_comm, mul_zsmul, h, mul_comm, mul_zsmul, hN, smul_zero, smul_zero, add_zero]
  rwa [natCast_zsmul] at this

theorem smul_coprime {n N : ℤ} {B : G} (hN : N • B = 0) (h : n • B = 0) (hg : Int.gcd n N = 1) : B = 0 := by
  have := smul_gcd hN h
  rwa [hg, one_nsmul] at this

end Grp
end Count
end Verif
