import Mathlib.AlgebraicGeometry.EllipticCurve.Affine.Point

/-!
Chord-and-tangent functions on a Weierstrass curve as a symmetric 2-cocycle.

For points A, B the line through them (`ell A B`, a vertical line if the sum is 0 or one of them is 0) and the
vertical line `V` satisfy (V(A+B)) I(A) I(B) = (ell A B) I(A+B) as ideals of the coordinate ring.  Since the
units of that ring are the constants, ell(A,B) ell(A+B,C) V(B+C) and ell(B,C) ell(A,B+C) V(A+B) differ by a constant.
-/

namespace Verif.Cocycle
open WeierstrassCurve.Affine WeierstrassCurve.Affine.CoordinateRing Polynomial Ideal

variable {k : Type} [Field k] {W : WeierstrassCurve.Affine k}

/-- the ideal of functions vanishing at a point -/
noncomputable def I : W.Point → Ideal W.CoordinateRing
  | .zero => ⊤
  | .some x y _ => XYIdeal W x (C y)

/-- vertical line -/
noncomputable def V : W.Point → W.CoordinateRing
  | .zero => 1
  | .some x _ _ => XClass W x

theorem V_ne (A : W.Point) : V A ≠ 0 := by
  cases A with
  | zero => exact one_ne_zero
  | some x y h => exact XClass_ne_zero x

theorem I_neg_mul (A : W.Point) : I (-A) * I A = span {V A} := by
  cases A with
  | zero => exact (top_mul _).trans (by simp [I, V])
  | some x y h => exact XYIdeal_neg_mul h

variable [DecidableEq k]

/-- the line through A and B -/
noncomputable def ell : W.Point → W.Point → W.CoordinateRing
  | .zero, B => V B
  | .some x y h, .zero => V (.some x y h)
  | .some x₁ y₁ _, .some x₂ y₂ _ =>
    if x₁ = x₂ ∧ y₁ = W.negY x₂ y₂ then XClass W x₁
    else YClass W (linePolynomial x₁ y₁ (W.slope x₁ x₂ y₁ y₂))

theorem ell_ne (A B : W.Point) : ell A B ≠ 0 := by
  cases A with
  | zero => exact V_ne (W := W) B
  | some x₁ y₁ h₁ =>
    cases B with
    | zero => exact V_ne (W := W) (.some x₁ y₁ h₁)
    | some x₂ y₂ h₂ =>
      show (if x₁ = x₂ ∧ y₁ = W.negY x₂ y₂ then XClass W x₁
        else YClass W (linePolynomial x₁ y₁ (W.slope x₁ x₂ y₁ y₂))) ≠ 0
      split_ifs
      · exact XClass_ne_zero _
      · exact YClass_ne_zero _

theorem ideal_add (A B : W.Point) : span {V (A + B)} * (I A * I B) = span {ell A B} * I (A + B) := by
  cases A with
  | zero =>
    have e : (.zero : W.Point) + B = B := zero_add B
    rw [e]
    show span {V B} * (⊤ * I B) = span {V B} * I B
    rw [top_mul]
  | some x₁ y₁ h₁ =>
    cases B with
    | zero =>
      have e : (.some x₁ y₁ h₁ : W.Point) + .zero = .some x₁ y₁ h₁ := add_zero _
      rw [e]
      show _ * (_ * ⊤) = span {V (.some x₁ y₁ h₁)} * _
      rw [mul_top]
    | some x₂ y₂ h₂ =>
      by_cases hxy : x₁ = x₂ ∧ y₁ = W.negY x₂ y₂
      · have e : (.some x₁ y₁ h₁ : W.Point) + .some x₂ y₂ h₂ = 0 := Point.add_of_Y_eq hxy.1 hxy.2
        rw [e]
        have e2 : (ell (.some x₁ y₁ h₁) (.some x₂ y₂ h₂) : W.CoordinateRing) = XClass W x₁ := if_pos hxy
        rw [e2]
        show span {1} * _ = span {XClass W x₁} * ⊤
        rw [span_singleton_one, top_mul, mul_top]
        have e3 : (.some x₁ y₁ h₁ : W.Point) = -.some x₂ y₂ h₂ := by
          rw [eq_neg_iff_add_eq_zero]; exact e
        rw [e3, I_neg_mul, hxy.1]; rfl
      · rw [Point.add_some hxy]
        have e2 : (ell (.some x₁ y₁ h₁) (.some x₂ y₂ h₂) : W.CoordinateRing) =
          YClass W (linePolynomial x₁ y₁ (W.slope x₁ x₂ y₁ y₂)) := if_neg hxy
        rw [e2]
        exact XYIdeal_mul_XYIdeal h₁.1 h₂.1 hxy

omit [DecidableEq k] in
theorem I_cancel (A : W.Point) {f g : W.CoordinateRing} (h : span {f} * I A = span {g} * I A) :
    span {f} = span {g} := by
  have h2 : span {f} * span {V A} = span {g} * span {V A} := by
    rw [← I_neg_mul, mul_comm (I (-A)), ← mul_assoc, h, mul_assoc]
  rw [span_singleton_mul_span_singleton, span_singleton_mul_span_singleton,
    span_singleton_eq_span_singleton] at h2
  rw [span_singleton_eq_span_singleton]
  exact Associated.of_mul_right h2 (Associated.refl _) (V_ne A)

omit [DecidableEq k] in
/-- units of the coordinate ring are constants -/
theorem unit_const {x : W.CoordinateRing} (hx : IsUnit x) : ∃ c : k, c ≠ 0 ∧ x = mk W (C (C c)) := by
  obtain ⟨p, q, rfl⟩ := exists_smul_basis_eq x
  have h := hx.map (Algebra.norm k[X])
  have hd := degree_eq_zero_of_isUnit h
  rw [degree_norm_smul_basis] at hd
  have hq : q = 0 := by
    by_contra hq
    rw [degree_eq_natDegree hq] at hd
    have h1 : (2 • (q.natDegree : WithBot ℕ) + 3) ≤ 0 := hd ▸ le_max_right _ _
    have h2 : ((2 • q.natDegree + 3 : ℕ) : WithBot ℕ) ≤ ((0 : ℕ) : WithBot ℕ) := by
      push_cast; exact h1
    have := WithBot.coe_le_coe.1 h2
    exact absurd this (by simp)
  subst hq
  have hp0 : p ≠ 0 := by
    rintro rfl
    simp at hx
  have hp : p.natDegree = 0 := by
    rw [degree_eq_natDegree hp0] at hd
    have h1 : (2 • (p.natDegree : WithBot ℕ)) ≤ 0 := hd ▸ le_max_left _ _
    have h2 : ((2 • p.natDegree : ℕ) : WithBot ℕ) ≤ ((0 : ℕ) : WithBot ℕ) := by
      push_cast; exact h1
    have := WithBot.coe_le_coe.1 h2
    have e : 2 • p.natDegree = 2 * p.natDegree := rfl
    rw [e] at this
    exact Nat.eq_zero_of_le_zero (by linarith)
  obtain ⟨c, rfl⟩ := natDegree_eq_zero.1 hp
  refine ⟨c, fun h => hp0 (by rw [h, C_0]), ?_⟩
  rw [zero_smul, add_zero, CoordinateRing.smul, mul_one]

/-- the cocycle relation in the coordinate ring -/
theorem cocycle_ring (A B D : W.Point) : ∃ c : k, c ≠ 0 ∧
    ell A B * ell (A + B) D * V (B + D) = mk W (C (C c)) * (ell B D * ell A (B + D) * V (A + B)) := by
  have h1 := ideal_add A B
  have h2 := ideal_add (A + B) D
  have h3 := ideal_add B D
  have h4 := ideal_add A (B + D)
  rw [← add_assoc] at h4
  have key : span {ell A B * ell (A + B) D * V (B + D)} * I (A + B + D) =
      span {ell B D * ell A (B + D) * V (A + B)} * I (A + B + D) := by
    simp only [← span_singleton_mul_span_singleton]
    calc span {ell A B} * span {ell (A + B) D} * span {V (B + D)} * I (A + B + D)
        = span {ell A B} * span {V (B + D)} * (span {ell (A + B) D} * I (A + B + D)) := by ring
      _ = (span {ell A B} * I (A + B)) * span {V (B + D)} * span {V (A + B + D)} * I D := by
          rw [← h2]; ring
      _ = span {V (A + B)} * span {V (A + B + D)} * I A * (span {V (B + D)} * (I B * I D)) := by
          rw [← h1]; ring
      _ = span {V (A + B)} * span {ell B D} * (span {V (A + B + D)} * (I A * I (B + D))) := by
          rw [h3]; ring
      _ = _ := by rw [h4]; ring
  have h5 := I_cancel _ key
  rw [span_singleton_eq_span_singleton] at h5
  obtain ⟨u, hu⟩ := h5.symm
  obtain ⟨c, hc, hcu⟩ := unit_const u.isUnit
  refine ⟨c, hc, ?_⟩
  rw [← hcu, ← hu, mul_comm]

theorem symm_aux (A B : W.Point) : ∃ c : k, c ≠ 0 ∧ ell A B = mk W (C (C c)) * ell B A := by
  have h1 := ideal_add A B
  have h2 := ideal_add B A
  rw [mul_comm (I A), add_comm A B, h2] at h1
  have h5 := I_cancel _ h1
  rw [span_singleton_eq_span_singleton] at h5
  obtain ⟨u, hu⟩ := h5
  obtain ⟨c, hc, hcu⟩ := unit_const u.isUnit
  exact ⟨c, hc, by rw [← hcu, ← hu, mul_comm]⟩

/-! ### Extension of the group by a symmetric cocycle -/

/-- symmetric normalised 2-cocycle with value 1 on opposite points -/
structure Coc (E M : Type) [AddCommGroup E] [CommGroup M] where
  γ : E → E → M
  zero_left : ∀ B, γ 0 B = 1
  symm : ∀ A B, γ A B = γ B A
  neg : ∀ A, γ A (-A) = 1
  assoc : ∀ A B D, γ A B * γ (A + B) D = γ B D * γ A (B + D)

/-- pairs (value, point) -/
@[ext] structure Ext {E M : Type} [AddCommGroup E] [CommGroup M] (c : Coc E M) where
  u : M
  A : E

namespace Ext
variable {E M : Type} [AddCommGroup E] [CommGroup M] {c : Coc E M}

instance : Zero (Ext c) := ⟨⟨1, 0⟩⟩
instance : Add (Ext c) := ⟨fun a b => ⟨a.u * b.u * c.γ a.A b.A, a.A + b.A⟩⟩
instance : Neg (Ext c) := ⟨fun a => ⟨a.u⁻¹, -a.A⟩⟩

theorem add_u (a b : Ext c) : (a + b).u = a.u * b.u * c.γ a.A b.A := rfl
theorem add_A (a b : Ext c) : (a + b).A = a.A + b.A := rfl
theorem neg_u (a : Ext c) : (-a).u = a.u⁻¹ := rfl
theorem neg_A (a : Ext c) : (-a).A = -a.A := rfl
theorem zero_u : (0 : Ext c).u = 1 := rfl
theorem zero_A : (0 : Ext c).A = 0 := rfl

instance : AddCommGroup (Ext c) where
  add_assoc a b d := by
    ext
    · simp only [add_u, add_A]
      have := c.assoc a.A b.A d.A
      calc a.u * b.u * c.γ a.A b.A * d.u * c.γ (a.A + b.A) d.A
          = a.u * b.u * d.u * (c.γ a.A b.A * c.γ (a.A + b.A) d.A) := by
            simp only [mul_assoc, mul_left_comm]
        _ = _ := by rw [this]; simp only [mul_assoc, mul_left_comm]
    · simp only [add_A, add_assoc]
  zero_add a := by
    ext
    · rw [add_u, zero_u, zero_A, c.zero_left, one_mul, mul_one]
    · rw [add_A, zero_A, zero_add]
  add_zero a := by
    ext
    · rw [add_u, zero_u, zero_A, c.symm, c.zero_left, mul_one, mul_one]
    · rw [add_A, zero_A, add_zero]
  add_comm a b := by
    ext
    · rw [add_u, add_u, c.symm, mul_comm a.u]
    · rw [add_A, add_A, add_comm]
  neg_add_cancel a := by
    ext
    · rw [add_u, neg_u, neg_A, c.symm, c.neg, inv_mul_cancel, one_mul]; rfl
    · rw [add_A, neg_A, neg_add_cancel]; rfl
  nsmul := nsmulRec
  zsmul := zsmulRec

/-- projection to the point -/
def proj : Ext c →+ E where
  toFun := A
  map_zero' := rfl
  map_add' _ _ := rfl

theorem nsmul_A (n : ℕ) (a : Ext c) : (n • a).A = n • a.A := map_nsmul proj n a
theorem zsmul_A (n : ℤ) (a : Ext c) : (n • a).A = n • a.A := map_zsmul proj n a

/-- elements over 0 -/
def fib (u : M) : Ext c := ⟨u, 0⟩

theorem fib_add (u v : M) : (fib u + fib v : Ext c) = fib (u * v) := by
  ext
  · show u * v * c.γ 0 0 = u * v
    rw [c.zero_left, mul_one]
  · exact add_zero 0

theorem fib_add_u (u : M) (a : Ext c) : (fib u + a).u = u * a.u := by
  show u * a.u * c.γ 0 a.A = _
  rw [c.zero_left, mul_one]

end Ext
end Verif.Cocycle
