import Verif.PowerInt
import Verif.PowerLemmas
import Verif.Props.Pairing

/-! Property theorems C18 and C38: negative `int` exponents and scalars, exact conditions. -/

namespace Verif
open Fp Ec

/-! ### C18 -/

/-- **C18** `power(x, y)` with an `int` y of either sign: a negative y is used as 2^32 + y. -/
theorem C18_int {M : Type} [Monoid M] (x : M) {y : ℤ} (h1 : -2 ^ 31 ≤ y) (h2 : y < 2 ^ 31) :
    (0 ≤ y → powerIntZ x y = x ^ y.toNat) ∧ (y < 0 → powerIntZ x y = x ^ (2 ^ 32 + y).toNat) := by
  unfold powerIntZ
  rw [powerInt_eq x (by omega)]
  constructor <;> intro h
  · rw [show y % 2 ^ 32 = y by omega]
  · rw [show y % 2 ^ 32 = 2 ^ 32 + y by omega]

/-- **C18** so in a group it is the y-th power, for a negative y, exactly if x^(2^32) = 1. -/
theorem C18_negative_iff {G : Type} [Group G] (x : G) {y : ℤ} (h1 : -2 ^ 31 ≤ y) (h2 : y < 0) :
    powerIntZ x y = x ^ y ↔ x ^ (2 ^ 32) = 1 := by
  rw [(C18_int x h1 (by omega)).2 h2, ← zpow_natCast, Int.toNat_of_nonneg (by omega), zpow_add]
  constructor
  · intro h
    have := mul_eq_right.1 h
    exact_mod_cast this
  · intro h
    have : x ^ (2 ^ 32 : ℤ) = 1 := by exact_mod_cast h
    rw [this, one_mul]

/-- **C18** the deviation is real: modulo 7, 3^(-1) = 5 and `power(3, -1)` is 6. -/
theorem C18_negative_wrong : powerIntZ (3 : ZMod 7) (-1) = 6 ∧ (3 : ZMod 7) * 5 = 1 := by decide +kernel

example : powerIntZ (2 : ZMod 1000003) 20 = 48573 := by decide +kernel

/-! ### C38 -/

theorem smul32 {A : Type} [AddCommGroup A] {N : ℕ} (hN : Nat.Coprime (2 ^ 32) N) {a : A} (h : N • a = 0) (m : ℤ) :
    ((2 ^ 32 + m) • a = m • a ↔ a = 0) := by
  rw [add_smul, add_eq_right]
  constructor
  · intro h'
    have h1 : (2 ^ 32 : ℕ) • a = 0 := by rw [← natCast_zsmul]; exact_mod_cast h'
    have d := Nat.dvd_gcd (addOrderOf_dvd_of_nsmul_eq_zero h1) (addOrderOf_dvd_of_nsmul_eq_zero h)
    rw [hN] at d
    exact AddMonoid.addOrderOf_eq_one_iff.1 (Nat.dvd_one.1 d)
  · rintro rfl; rw [smul_zero]

/-- **C38** a negative `int` scalar on the twist, as on G1 (`C38_negative_int`): used as 2^32 + m. -/
theorem C38_negative_int_twist {m : ℤ} (h1 : -2 ^ 31 ≤ m) (h2 : m < 0) {Q : J F2} {B : E2.Point} (hQ : Rep b2 Q B) :
    Rep b2 (scalarMultInt Q m) ((2 ^ 32 + m) • B) := by
  unfold scalarMultInt
  rw [if_neg (by omega), show m % 2 ^ 32 = 2 ^ 32 + m by omega]
  have := int_aux good2 hQ (W := 32) (by norm_num) (2 ^ 32 + m).toNat (by omega) (by omega)
  rw [← natCast_zsmul] at this
  rwa [Int.toNat_of_nonneg (by omega)] at this

/-- **C38** for a negative `int` the multiple is right for the point at infinity only, on both curves. -/
theorem C38_negative_int_iff {m : ℤ} (h1 : -2 ^ 31 ≤ m) (h2 : m < 0) {P : J Fe} {A : E1.Point} (hP : Rep b1 P A) {Q : J F2}
    {B : E2.Point} (hQ : Rep b2 Q B) :
    (Rep b1 (scalarMultInt P m) (m • A) ↔ A = 0) ∧ (Rep b2 (scalarMultInt Q m) (m • B) ↔ B = 0) := by
  have c1 : r • A = 0 := by rw [← C54_orders.1]; exact card_nsmul_eq_zero'
  have c2 : (r * (2 * p - r)) • B = 0 := by rw [← C54_orders.2]; exact card_nsmul_eq_zero'
  have g1 := C38_negative_int h1 h2 hP
  have g2 := C38_negative_int_twist h1 h2 hQ
  constructor
  · rw [← smul32 (by decide +kernel) c1 m]
    exact ⟨fun h => g1.unique h, fun h => h ▸ g1⟩
  · rw [← smul32 (by decide +kernel) c2 m]
    exact ⟨fun h => g2.unique h, fun h => h ▸ g2⟩

example : ∃ A : E1.Point, ∃ B : E2.Point, Rep b1 g1 A ∧ Rep b2 g2 B ∧ A ≠ 0 ∧ ¬ Rep b1 (scalarMultInt g1 (-3)) ((-3 : ℤ) • A) := by
  obtain ⟨A, hA⟩ := rep1 (P := g1) (by decide +kernel)
  obtain ⟨B, hB⟩ := rep2 (Q := g2) (by decide +kernel)
  have h : A ≠ 0 := by rw [Ne, ← inf_iff hA]; decide +kernel
  exact ⟨A, B, hA, hB, h, fun e => h ((C38_negative_int_iff (by norm_num) (by norm_num) hA hB).1.1 e)⟩

end Verif
