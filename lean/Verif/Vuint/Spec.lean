import Verif.Vuint.Model

/-! Specification vocabulary for `Vuint`: a well-formed value. -/

namespace Verif

/-- A well-formed `Vuint`: 1 to 9 words, each below 2^64, no leading zero word except for the
single-word zero. -/
structure WF (x : List ℕ) : Prop where
  pos : 0 < x.length
  len : x.length ≤ 9
  words : ∀ w ∈ x, w < 2 ^ 64
  top : x.length = 1 ∨ x.getLast? ≠ some 0

instance (x : List ℕ) : Decidable (WF x) :=
  decidable_of_iff (0 < x.length ∧ x.length ≤ 9 ∧ (∀ w ∈ x, w < 2 ^ 64) ∧
    (x.length = 1 ∨ x.getLast? ≠ some 0))
    ⟨fun ⟨a, b, c, d⟩ => ⟨a, b, c, d⟩, fun ⟨a, b, c, d⟩ => ⟨a, b, c, d⟩⟩

end Verif
