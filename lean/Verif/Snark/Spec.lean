import Verif.Snark.Prime
import Mathlib.Algebra.Field.ZMod

/-!
Specification vocabulary for `Fp` in the SNARK build: which buffers are canonical and which residue a
buffer represents.
-/

namespace Verif.Snark

/-- A canonical `Fp` buffer holds a number below p. -/
def Canon (x : ℕ) : Prop := x < p

instance (x : ℕ) : Decidable (Canon x) := by unfold Canon; infer_instance

/-- The residue modulo p represented by a buffer (Montgomery form: the buffer holds
residue * 2^256 mod p). -/
noncomputable def residue (x : ℕ) : ZMod p := (x : ZMod p) / 2 ^ 256

/-- The residue represented by a double-width buffer (scale 2^512). -/
noncomputable def residueD (x : ℕ) : ZMod p := (x : ZMod p) / 2 ^ 512

end Verif.Snark
