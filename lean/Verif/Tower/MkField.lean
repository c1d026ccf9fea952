import Mathlib.Algebra.Field.Basic
import Mathlib.Algebra.Field.Defs

/-! A field from a commutative ring and an inversion function. -/

namespace Verif

/-- The field structure with the given inversion. -/
@[reducible] noncomputable def mkField {K : Type} [CommRing K] [Nontrivial K] (inv : K → K)
    (h1 : ∀ x, x ≠ 0 → x * inv x = 1) (h0 : inv 0 = 0) : Field K where
  inv := inv
  mul_inv_cancel := h1
  inv_zero := h0
  nnqsmul := _
  nnqsmul_def := fun _ _ => rfl
  qsmul := _
  qsmul_def := fun _ _ => rfl

end Verif
