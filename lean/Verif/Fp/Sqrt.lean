import Verif.Fp.Field
import Mathlib.FieldTheory.Finite.Basic

/-! `Fp::squareRoot`. -/

namespace Verif

open Fp

/-- `Fp::squareRoot`, zm2.h:297-304; `none` is `return false` (y untouched), `some y` is `true`. -/
def Fp.squareRoot (x : Fe) : Option Fe :=
  let t := power x pAdd1Div4V
  if Fp.eq (t * t).n x.n then some t else none

/-- How `y` is written: only on success. -/
def Fp.storeRoot (y : Fe) : Option Fe → Bool × Fe
  | some t => (true, t)
  | none => (false, y)

/-- A caller's `y` after `squareRoot(y, x)`, with the returned boolean. -/
def Fp.squareRootInto (y x : Fe) : Bool × Fe := Fp.storeRoot y (Fp.squareRoot x)

namespace Fe

theorem eq_iff (x y : Fe) : Fp.eq x.n y.n = true ↔ x = y := by
  rw [Fp.eq_iff (lt_W x.lt) (lt_W y.lt)]
  exact ⟨fun h => ext h, fun h => by rw [h]⟩

theorem pow_p (x : Fe) : x ^ p = x := by
  apply toZ_inj
  rw [show (x ^ p).toZ = x.toZ ^ p from toZ_npow x p]
  exact ZMod.pow_card _

theorem sqrt_eq (x : Fe) : power x pAdd1Div4V = x ^ ((p + 1) / 4) := by
  rw [power_eq x pAdd1Div4V_wf.1.isWords, pAdd1Div4V_wf.2]

theorem squareRoot_some {x y : Fe} (h : Fp.squareRoot x = some y) : y * y = x := by
  unfold Fp.squareRoot at h
  dsimp only at h
  generalize power x pAdd1Div4V = t at h
  split at h
  · rename_i h1; rw [← Option.some.inj h]; exact (eq_iff _ _).1 h1
  · exact absurd h (by simp)

theorem squareRoot_of_square (s : Fe) : (Fp.squareRoot (s * s)).isSome := by
  unfold Fp.squareRoot
  dsimp only
  rw [sqrt_eq]
  have h4 : 2 * ((p + 1) / 4) + 2 * ((p + 1) / 4) = p + 1 := by rw [p_eq]
  have : (s * s) ^ ((p + 1) / 4) * (s * s) ^ ((p + 1) / 4) = s * s := by
    rw [← pow_two s, ← pow_mul, ← pow_add, h4, pow_succ, pow_p, pow_two]
  rw [if_pos ((eq_iff _ _).2 this)]
  rfl

theorem storeRoot_cases (y : Fe) (o : Option Fe) :
    (∃ t, o = some t ∧ Fp.storeRoot y o = (true, t)) ∨
    (o = none ∧ Fp.storeRoot y o = (false, y)) := by
  cases o with
  | none => exact Or.inr ⟨rfl, rfl⟩
  | some t => exact Or.inl ⟨t, rfl, rfl⟩

theorem squareRootInto_cases (y x : Fe) :
    (∃ t, Fp.squareRoot x = some t ∧ Fp.squareRootInto y x = (true, t)) ∨
    (Fp.squareRoot x = none ∧ Fp.squareRootInto y x = (false, y)) :=
  storeRoot_cases y (Fp.squareRoot x)

end Fe
end Verif
