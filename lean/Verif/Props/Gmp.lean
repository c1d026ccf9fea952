import Verif.Fp.Gmp

/-! Property theorems C84: `Fp::toMpz` and `Fp::fromMpz`. -/

namespace Verif
open Fp

/-- **C84** `fromMpz` of `toMpz` restores the buffer, whatever its content and the old content of the destination. -/
theorem C84_round_trip {x y : List ℕ} (hx : x.length = 4) (wx : Words x) (hy : y.length = 4) : fromMpz y (toMpz x) = .ok x := by
  have e : (toMpz x).natAbs = val x := by rw [toMpz, mpzImport_val, Int.natAbs_natCast]
  have hv := val_lt wx
  rw [hx] at hv
  obtain ⟨v, h1, h2, h3, h4⟩ := fromMpz_ok hy (x := toMpz x) (by rw [e]; exact lt_of_lt_of_eq hv (by norm_num))
  rw [h1, val_inj h3 wx (by rw [h2, hx]) (by rw [h4, e])]

/-- **C84** `toMpz` of a canonical element is the number below p that the buffer holds: the element times 2^256, not converted
from Montgomery form. -/
theorem C84_toMpz {x : List ℕ} (hc : Canon (val x)) :
    0 ≤ toMpz x ∧ toMpz x < p ∧ (toMpz x : ZMod p) = residue (val x) * 2 ^ 256 := by
  rw [toMpz, mpzImport_val]
  refine ⟨Int.natCast_nonneg _, by exact_mod_cast hc, ?_⟩
  rw [Int.cast_natCast, cast_eq_residue]

/-- **C84** so it is the value of the element only for zero. -/
theorem C84_toMpz_value_iff {x : List ℕ} (hc : Canon (val x)) : (toMpz x : ZMod p) = residue (val x) ↔ val x = 0 := by
  rw [(C84_toMpz hc).2.2]
  constructor
  · intro h
    by_contra h0
    have hr : residue (val x) ≠ 0 := fun e => h0 (residue_inj hc p_pos (by rw [e, residue_zero]))
    have h1 : ((2 ^ 256 : ℕ) : ZMod p) = ((1 : ℕ) : ZMod p) := by
      rw [Nat.cast_pow, Nat.cast_ofNat, Nat.cast_one]
      exact mul_left_cancel₀ hr (by rw [h, mul_one])
    rw [ZMod.natCast_eq_natCast_iff] at h1
    exact absurd h1 (by unfold Nat.ModEq; decide +kernel)
  · intro h; rw [h, residue_zero, zero_mul]

/-- **C84** `fromMpz` stores |z| when it has at most 256 bits; a longer z is stored beyond the buffer. -/
theorem C84_fromMpz {y : List ℕ} (hy : y.length = 4) (z : ℤ) :
    (|z| < 2 ^ 256 → ∃ v, fromMpz y z = .ok v ∧ v.length = 4 ∧ Words v ∧ (val v : ℤ) = |z|) ∧
    (2 ^ 256 ≤ |z| → fromMpz y z = .ub) := by
  rw [Int.abs_eq_natAbs]
  constructor
  · intro h
    obtain ⟨v, h1, h2, h3, h4⟩ := fromMpz_ok hy (x := z) (by exact_mod_cast h)
    exact ⟨v, h1, h2, h3, by rw [h4]⟩
  · intro h; exact fromMpz_ub hy (by exact_mod_cast h)

/-- **C84** the stored element is canonical exactly for |z| < p, and represents |z| / 2^256. -/
theorem C84_fromMpz_element {y v : List ℕ} (hy : y.length = 4) {z : ℤ} (h : fromMpz y z = .ok v) :
    (Canon (val v) ↔ |z| < p) ∧ residue (val v) = ((|z| : ℤ) : ZMod p) / 2 ^ 256 := by
  rcases lt_or_ge |z| (2 ^ 256) with hz | hz
  · obtain ⟨v', h1, -, -, h4⟩ := (C84_fromMpz hy z).1 hz
    obtain rfl := Res.ok.inj (h.symm.trans h1)
    rw [← h4]
    exact ⟨by unfold Canon; exact_mod_cast Iff.rfl, by rw [Int.cast_natCast]; rfl⟩
  · rw [(C84_fromMpz hy z).2 hz] at h; cases h

/-- **C84** `toMpz` of `fromMpz` returns z exactly when z is not negative: the sign is lost. -/
theorem C84_sign {y v : List ℕ} (hy : y.length = 4) {z : ℤ} (h : fromMpz y z = .ok v) : toMpz v = |z| ∧ (toMpz v = z ↔ 0 ≤ z) := by
  rcases lt_or_ge |z| (2 ^ 256) with hz | hz
  · obtain ⟨v', h1, -, -, h4⟩ := (C84_fromMpz hy z).1 hz
    obtain rfl := Res.ok.inj (h.symm.trans h1)
    have e : toMpz v = |z| := by rw [toMpz, mpzImport_val, h4]
    exact ⟨e, by rw [e, abs_eq_self]⟩
  · rw [(C84_fromMpz hy z).2 hz] at h; cases h

/-- **C84** the element 1 is converted to 2^256 mod p. -/
theorem C84_one_wrong : ∃ x : List ℕ, x.length = 4 ∧ Words x ∧ Canon (val x) ∧ residue (val x) = 1 ∧ toMpz x ≠ 1 ∧
    toMpz x = 2 ^ 256 % (p : ℤ) := by
  have hv : val montRV = montR := by decide +kernel
  exact ⟨montRV, rfl, by decide +kernel, by rw [hv]; decide +kernel, by rw [hv, residue_montR], by decide +kernel, by decide +kernel⟩

example : fromMpz [7, 7, 7, 7] (-(5 + 2 ^ 64 * 9)) = .ok [5, 9, 0, 0] := by
  obtain ⟨v, h1, h2, h3, h4⟩ := (C84_fromMpz (y := [7, 7, 7, 7]) rfl (-(5 + 2 ^ 64 * 9))).1 (by decide)
  rw [h1, val_inj (y := [5, 9, 0, 0]) h3 (by decide) h2 (Int.ofNat_inj.1 (h4.trans (by decide)))]
example : fromMpz [0, 0, 0, 0] (2 ^ 256) = .ub := (C84_fromMpz rfl _).2 (by decide)
example : toMpz [5, 9, 0, 0] = 5 + 2 ^ 64 * 9 ∧ Canon (val [5, 9, 0, 0]) := by decide

end Verif
