import Verif.PowerLemmas
import Verif.Vuint.Spec
import Mathlib.Algebra.Group.Nat.Even
import Mathlib.Data.ZMod.Basic

/-! Property theorems C18: `mie::power`. -/

namespace Verif

/-- **C18** `power(x, y)` with a `Vuint` exponent is the y-th power, in every monoid. -/
theorem C18_power {M : Type} [Monoid M] (x : M) {y : List ℕ} (hy : WF y) :
    power x y = x ^ val y :=
  power_eq x hy.words

/-- **C18** `power(x, y)` with an `int` (non-negative) or `size_t` exponent. -/
theorem C18_powerBuiltin {M : Type} [Monoid M] (x : M) (y : ℕ) :
    (y < 2 ^ 31 → powerInt x y = x ^ y) ∧ (y < 2 ^ 64 → powerSize x y = x ^ y) :=
  ⟨fun h => powerInt_eq x (by omega), fun h => powerSize_eq x h⟩

/-- **C18** the zeroth power is 1. -/
theorem C18_powerZero {M : Type} [Monoid M] (x : M) :
    power x [0] = 1 ∧ powerInt x 0 = 1 ∧ powerSize x 0 = 1 :=
  ⟨rfl, rfl, rfl⟩

-- a two-word exponent 2^64 + 3 whose middle bits are all zero
example : WF [3, 1] ∧ val [3, 1] = 2 ^ 64 + 3 ∧ power (3 : ZMod 7) [3, 1] = 3 := by decide +kernel

end Verif
