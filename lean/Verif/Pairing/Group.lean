import Verif.Pairing.Cocycle
import Verif.Ec.Lemmas

/-!
Homogeneous coordinates and the line coefficients of the Miller loop, over any field.
-/

namespace Verif
namespace Hom
open WeierstrassCurve.Affine Ec

variable {K : Type} [Field K]

/-- The homogeneous triple `T` stands for `A`: (0 : y : 0) for 0, otherwise A = (X/Z, Y/Z). -/
def RepH (b : K) (T : J K) (A : (curve b).Point) : Prop :=
  (T.z = 0 ∧ T.x = 0 ∧ T.y ≠ 0 ∧ A = 0) ∨
  ∃ x y, ∃ hn : (curve b).Nonsingular x y, T.z ≠ 0 ∧ T.x = x * T.z ∧ T.y = y * T.z ∧ A = .some x y hn

theorem RepH.unique {b : K} {T : J K} {A B : (curve b).Point} (h : RepH b T A) (h' : RepH b T B) : A = B := by
  rcases h with ⟨h1, -, -, h2⟩ | ⟨x, y, hn, h1, h2, h3, h4⟩ <;>
    rcases h' with ⟨g1, -, -, g2⟩ | ⟨x', y', hn', g1, g2, g3, g4⟩
  · rw [h2, g2]
  · exact absurd h1 g1
  · exact absurd g1 h1
  · have e1 : x = x' := mul_right_cancel₀ h1 (h2.symm.trans g2)
    have e2 : y = y' := mul_right_cancel₀ h1 (h3.symm.trans g3)
    subst e1 e2
    rw [h4, g4]

theorem repH_affine {b : K} {x y : K} (hn : (curve b).Nonsingular x y) : RepH b ⟨x, y, 1⟩ (.some x y hn) :=
  .inr ⟨x, y, hn, one_ne_zero, (mul_one _).symm, (mul_one _).symm, rfl⟩

theorem neg_some {b : K} {x y : K} (hn : (curve b).Nonsingular x y) :
    ∃ h' : (curve b).Nonsingular x (-y), -(Point.some x y hn : (curve b).Point) = .some x (-y) h' := by
  have e : (curve b).negY x y = -y := by simp [negY, curve]
  have h := (nonsingular_neg x y).2 hn
  rw [Point.neg_some]
  rw [e] at h
  refine ⟨h, ?_⟩
  congr 1

theorem repH_neg {b : K} {T : J K} {A : (curve b).Point} (h : RepH b T A) : RepH b ⟨T.x, -T.y, T.z⟩ (-A) := by
  rcases h with ⟨h1, h2, h3, h4⟩ | ⟨x, y, hn, h1, h2, h3, h4⟩
  · exact .inl ⟨h1, h2, neg_ne_zero.2 h3, by rw [h4]; rfl⟩
  · obtain ⟨h', e⟩ := neg_some hn
    exact .inr ⟨x, -y, h', h1, h2, by show -T.y = _; rw [h3]; ring, by rw [h4, e]⟩

/-- coefficients (c0, cy, cx) of the function c0 + cy Y + cx X -/
abbrev Lin (K : Type) := K × K × K

/-- the vertical line through a point (the constant 1 for the point at infinity) -/
def vert {b : K} : (curve b).Point → Lin K
  | .zero => (1, 0, 0)
  | .some x _ _ => (-x, 0, 1)

variable [DecidableEq K]

/-- the line through two points: the vertical line at the other if one is infinite, the common vertical of opposite
points, otherwise Y - y₁ - λ(X - x₁) with the slope λ of the chord or tangent -/
def lin {b : K} : (curve b).Point → (curve b).Point → Lin K
  | .zero, B => vert B
  | .some x y h, .zero => vert (.some x y h)
  | .some x₁ y₁ _, .some x₂ y₂ _ =>
    if x₁ = x₂ ∧ y₁ = (curve b).negY x₂ y₂ then (-x₁, 0, 1)
    else (-(y₁ - (curve b).slope x₁ x₂ y₁ y₂ * x₁), 1, -(curve b).slope x₁ x₂ y₁ y₂)

/-- equal up to a non-zero factor -/
def Prop3 (l m : Lin K) : Prop := ∃ c : K, c ≠ 0 ∧ l.1 = c * m.1 ∧ l.2.1 = c * m.2.1 ∧ l.2.2 = c * m.2.2

theorem slope_self {b : K} (hb : Good b) {x y : K} (hy : y ≠ 0) :
    ¬ (x = x ∧ y = (curve b).negY x y) ∧ (curve b).slope x x y y = 3 * x ^ 2 / (2 * y) := by
  have hne : y ≠ (curve b).negY x y := by
    intro he
    simp only [curve, negY] at he
    have : 2 * y = 0 := by linear_combination he
    exact (mul_eq_zero.1 this).elim hb.two hy
  refine ⟨fun h => hne h.2, ?_⟩
  rw [slope_of_Y_ne rfl hne]
  simp only [curve, negY]
  congr 1 <;> ring

/-- The doubling step in homogeneous coordinates is complete: whatever point T stands for, the new triple stands for
its double and the coefficients are those of the tangent. -/
theorem dbl_step {b : K} (hb : Good b) {T T' : J K} {A : (curve b).Point} (h : RepH b T A)
    (hx : 2 * T'.x = (T.y ^ 2 - 9 * b * T.z ^ 2) * T.x * T.y)
    (hy : 4 * T'.y = (T.y ^ 2 + 9 * b * T.z ^ 2) ^ 2 - 108 * b ^ 2 * T.z ^ 4)
    (hz : T'.z = 2 * T.y ^ 3 * T.z) :
    RepH b T' (A + A) ∧
    Prop3 (3 * b * T.z ^ 2 - T.y ^ 2, -(2 * T.y * T.z), 3 * T.x ^ 2) (lin A A) := by
  have h2 := hb.two
  have h3 := hb.three
  have h4 : (4 : K) ≠ 0 := by rw [show (4 : K) = 2 * 2 by norm_num]; exact mul_ne_zero h2 h2
  rcases h with ⟨z0, x0, y0, rfl⟩ | ⟨x, y, hn, z0, ex, ey, rfl⟩
  · rw [z0, x0] at hx
    rw [z0] at hy hz
    rw [add_zero]
    refine ⟨.inl ⟨by rw [hz]; ring, ?_, ?_, rfl⟩, -T.y ^ 2, ?_, ?_, ?_, ?_⟩
    · exact (mul_eq_zero.1 (by rw [hx]; ring : 2 * T'.x = 0)).resolve_left h2
    · intro h0
      rw [h0] at hy
      exact pow_ne_zero 4 y0 (by linear_combination -hy)
    · exact neg_ne_zero.2 (pow_ne_zero 2 y0)
    · show 3 * b * T.z ^ 2 - T.y ^ 2 = -T.y ^ 2 * 1; rw [z0]; ring
    · show -(2 * T.y * T.z) = -T.y ^ 2 * 0; rw [z0]; ring
    · show 3 * T.x ^ 2 = -T.y ^ 2 * 0; rw [x0]; ring
  · have heq := (curve_nonsingular hb x y).1 hn
    by_cases hy0 : y = 0
    · subst hy0
      have x0 : x ≠ 0 := by
        rintro rfl
        exact hb.b (by linear_combination -heq)
      rw [add_self_zero hn rfl]
      rw [ex, ey] at hx
      rw [ey] at hy hz
      refine ⟨.inl ⟨by rw [hz]; ring, ?_, ?_, rfl⟩, 3 * x ^ 2 * T.z ^ 2, ?_, ?_, ?_, ?_⟩
      · exact (mul_eq_zero.1 (by rw [hx]; ring : 2 * T'.x = 0)).resolve_left h2
      · intro h0
        rw [h0] at hy
        have h27 : (27 : K) * (b ^ 2 * T.z ^ 4) = 0 := by linear_combination hy
        have : (27 : K) ≠ 0 := by rw [show (27 : K) = 3 * 3 * 3 by norm_num]; exact mul_ne_zero (mul_ne_zero h3 h3) h3
        exact mul_ne_zero this (mul_ne_zero (pow_ne_zero 2 hb.b) (pow_ne_zero 4 z0)) h27
      · exact mul_ne_zero (mul_ne_zero h3 (pow_ne_zero 2 x0)) (pow_ne_zero 2 z0)
      all_goals
        have hl : lin (b := b) (.some x 0 hn) (.some x 0 hn) = (-x, 0, 1) :=
          if_pos ⟨rfl, by simp [negY, curve]⟩
        rw [hl]
        dsimp only
        simp only [ex, ey]
      · linear_combination -3 * T.z ^ 2 * heq
      · ring
      · ring
    · obtain ⟨h', e⟩ := add_self_aux hb hn hy0
      have hT : T'.z ≠ 0 := by
        rw [hz, ey]
        exact mul_ne_zero (mul_ne_zero h2 (pow_ne_zero 3 (mul_ne_zero hy0 z0))) z0
      have hyb : b = y ^ 2 - x ^ 3 := by linear_combination -heq
      refine ⟨.inr ⟨_, _, h', hT, ?_, ?_, e⟩, -(2 * y) * T.z ^ 2, ?_, ?_, ?_, ?_⟩
      · apply mul_left_cancel₀ h2
        rw [hx, hz, ex, ey, hyb]
        field_simp
        ring
      · apply mul_left_cancel₀ h4
        rw [hy, hz, ey, hyb]
        field_simp
        ring
      · exact mul_ne_zero (neg_ne_zero.2 (mul_ne_zero h2 hy0)) (pow_ne_zero 2 z0)
      all_goals
        obtain ⟨s1, s2⟩ := slope_self (b := b) hb (x := x) hy0
        have hl : lin (b := b) (.some x y hn) (.some x y hn) =
          (-(y - (curve b).slope x x y y * x), 1, -(curve b).slope x x y y) := if_neg s1
        rw [hl, s2]
        dsimp only
      · rw [ey, hyb]; field_simp; ring
      · rw [ey]; ring
      · rw [ex]; field_simp

/-- The addition step, for a running point that is neither infinite nor equal to the (affine) second point. -/
theorem add_step {b : K} (hb : Good b) {T T' : J K} {A : (curve b).Point} (h : RepH b T A) {x₂ y₂ : K}
    (hn₂ : (curve b).Nonsingular x₂ y₂) (hA0 : A ≠ 0) (hA : A ≠ .some x₂ y₂ hn₂)
    (hx : T'.x = (T.x - T.z * x₂) * ((T.y - T.z * y₂) ^ 2 * T.z + (T.x - T.z * x₂) ^ 3 - 2 * ((T.x - T.z * x₂) ^ 2 * T.x)))
    (hy : T'.y = (T.y - T.z * y₂) * ((T.x - T.z * x₂) ^ 2 * T.x - ((T.y - T.z * y₂) ^ 2 * T.z + (T.x - T.z * x₂) ^ 3
      - 2 * ((T.x - T.z * x₂) ^ 2 * T.x))) - (T.x - T.z * x₂) ^ 3 * T.y)
    (hz : T'.z = (T.x - T.z * x₂) ^ 3 * T.z) :
    RepH b T' (A + .some x₂ y₂ hn₂) ∧
    Prop3 ((T.y - T.z * y₂) * x₂ - (T.x - T.z * x₂) * y₂, T.x - T.z * x₂, -(T.y - T.z * y₂))
      (lin A (.some x₂ y₂ hn₂)) := by
  have h2 := hb.two
  rcases h with ⟨z0, x0, y0, rfl⟩ | ⟨x, y, hn, z0, ex, ey, rfl⟩
  · exact absurd rfl hA0
  · have heq := (curve_nonsingular hb x y).1 hn
    have heq₂ := (curve_nonsingular hb x₂ y₂).1 hn₂
    by_cases hxx : x = x₂
    · subst hxx
      have hyy : y ≠ y₂ := by rintro rfl; exact hA rfl
      have hy2 : y = -y₂ := by
        have h5 : (y - y₂) * (y + y₂) = 0 := by linear_combination heq - heq₂
        exact eq_neg_of_add_eq_zero_left ((mul_eq_zero.1 h5).resolve_left (sub_ne_zero.2 hyy))
      have hc : x = x ∧ y = (curve b).negY x y₂ := ⟨rfl, by rw [hy2]; simp [negY, curve]⟩
      have e0 : T.x - T.z * x = 0 := by rw [ex]; ring
      have e1 : T.y - T.z * y₂ = T.z * (y - y₂) := by rw [ey]; ring
      have e1' : T.z * (y - y₂) ≠ 0 := mul_ne_zero z0 (sub_ne_zero.2 hyy)
      rw [Point.add_of_Y_eq hc.1 hc.2]
      rw [e0] at hx hy hz
      rw [e1] at hx hy
      refine ⟨.inl ⟨by rw [hz]; ring, by rw [hx]; ring, ?_, rfl⟩, -(T.z * (y - y₂)), neg_ne_zero.2 e1', ?_⟩
      · rw [hy]
        have : T.z * (y - y₂) * ((0 ^ 2 * T.x) - ((T.z * (y - y₂)) ^ 2 * T.z + 0 ^ 3 - 2 * (0 ^ 2 * T.x))) - 0 ^ 3 * T.y
          = -((T.z * (y - y₂)) ^ 3 * T.z) := by ring
        rw [this]
        exact neg_ne_zero.2 (mul_ne_zero (pow_ne_zero 3 e1') z0)
      · have hl : lin (b := b) (.some x y hn) (.some x y₂ hn₂) = (-x, 0, 1) := if_pos hc
        rw [hl, e0, e1]
        dsimp only
        refine ⟨by ring, by ring, by ring⟩
    · obtain ⟨h', e⟩ := add_aux hn hn₂ hxx
      have hd := sub_ne_zero.2 hxx
      have e0 : T.x - T.z * x₂ = T.z * (x - x₂) := by rw [ex]; ring
      have e1 : T.y - T.z * y₂ = T.z * (y - y₂) := by rw [ey]; ring
      have e0' : T.z * (x - x₂) ≠ 0 := mul_ne_zero z0 hd
      rw [e0] at hx hy hz
      rw [e1] at hx hy
      refine ⟨.inr ⟨_, _, h', ?_, ?_, ?_, e⟩, T.z * (x - x₂), e0', ?_⟩
      · rw [hz]; exact mul_ne_zero (pow_ne_zero 3 e0') z0
      · rw [hx, hz, ex]; field_simp; ring
      · rw [hy, hz, ex, ey]; field_simp; ring
      · have hl : lin (b := b) (.some x y hn) (.some x₂ y₂ hn₂) =
          (-(y - (curve b).slope x x₂ y y₂ * x), 1, -(curve b).slope x x₂ y y₂) := if_neg (fun h => hxx h.1)
        rw [hl, slope_of_X_ne hxx, e0, e1]
        dsimp only
        refine ⟨by field_simp; ring, by ring, by field_simp⟩

/-! ### Evaluation at a point over an extension field -/

section Eval
open Polynomial Cocycle
variable {L : Type} [Field L] (ι : K →+* L) (X0 Y0 : L)

/-- the value of a linear function -/
def evl (l : Lin K) : L := ι l.1 + ι l.2.1 * Y0 + ι l.2.2 * X0

omit [DecidableEq K] in
theorem ev_aux {b : K} (h : Y0 ^ 2 = X0 ^ 3 + ι b) :
    ((curve b).polynomial.eval₂ (eval₂RingHom ι X0) Y0 : L) = 0 := by
  unfold WeierstrassCurve.Affine.polynomial
  simp only [curve]
  rw [eval₂_sub, eval₂_add, eval₂_pow, eval₂_X, eval₂_mul, eval₂_C, eval₂_C]
  simp [h]

/-- evaluation of functions on the curve -/
noncomputable def ev {b : K} (h : Y0 ^ 2 = X0 ^ 3 + ι b) : (curve b).CoordinateRing →+* L :=
  AdjoinRoot.lift (eval₂RingHom ι X0) Y0 (ev_aux ι X0 Y0 h)

omit [DecidableEq K] in
theorem ev_mk {b : K} (h : Y0 ^ 2 = X0 ^ 3 + ι b) (f : K[X][X]) :
    ev ι X0 Y0 h (CoordinateRing.mk (curve b) f) = f.eval₂ (eval₂RingHom ι X0) Y0 := AdjoinRoot.lift_mk _ _

omit [DecidableEq K] in
theorem ev_V {b : K} (h : Y0 ^ 2 = X0 ^ 3 + ι b) (A : (curve b).Point) :
    ev ι X0 Y0 h (V A) = evl ι X0 Y0 (vert A) := by
  cases A with
  | zero => show ev ι X0 Y0 h 1 = _; rw [map_one]; simp [evl, vert]
  | some x y hn =>
    show ev ι X0 Y0 h (CoordinateRing.XClass _ x) = _
    unfold CoordinateRing.XClass
    rw [ev_mk]; simp [evl, vert]; ring

theorem ev_ell {b : K} (h : Y0 ^ 2 = X0 ^ 3 + ι b) (A B : (curve b).Point) :
    ev ι X0 Y0 h (ell A B) = evl ι X0 Y0 (lin A B) := by
  cases A with
  | zero => exact ev_V ι X0 Y0 h B
  | some x y hn =>
    cases B with
    | zero => exact ev_V ι X0 Y0 h (.some x y hn)
    | some x₂ y₂ hn₂ =>
      by_cases hc : x = x₂ ∧ y = (curve b).negY x₂ y₂
      · have e1 : ell (W := curve b) (.some x y hn) (.some x₂ y₂ hn₂) = CoordinateRing.XClass _ x := if_pos hc
        have e2 : lin (b := b) (.some x y hn) (.some x₂ y₂ hn₂) = (-x, 0, 1) := if_pos hc
        rw [e1, e2]
        unfold CoordinateRing.XClass
        rw [ev_mk]; simp [evl]; ring
      · have e1 : ell (W := curve b) (.some x y hn) (.some x₂ y₂ hn₂) = _ := if_neg hc
        have e2 : lin (b := b) (.some x y hn) (.some x₂ y₂ hn₂) = _ := if_neg hc
        rw [e1, e2]
        unfold CoordinateRing.YClass linePolynomial
        rw [ev_mk]; simp [evl]; ring

/-- the cocycle relation between the values of the lines -/
theorem cocycle_val {b : K} (h : Y0 ^ 2 = X0 ^ 3 + ι b) (A B D : (curve b).Point) : ∃ c : K, c ≠ 0 ∧
    evl ι X0 Y0 (lin A B) * evl ι X0 Y0 (lin (A + B) D) * evl ι X0 Y0 (vert (B + D)) =
    ι c * (evl ι X0 Y0 (lin B D) * evl ι X0 Y0 (lin A (B + D)) * evl ι X0 Y0 (vert (A + B))) := by
  obtain ⟨c, hc, e⟩ := cocycle_ring A B D
  refine ⟨c, hc, ?_⟩
  have := congrArg (ev ι X0 Y0 h) e
  simp only [map_mul, ev_ell, ev_V, ev_mk] at this
  simpa using this

theorem symm_val {b : K} (h : Y0 ^ 2 = X0 ^ 3 + ι b) (A B : (curve b).Point) : ∃ c : K, c ≠ 0 ∧
    evl ι X0 Y0 (lin A B) = ι c * evl ι X0 Y0 (lin B A) := by
  obtain ⟨c, hc, e⟩ := symm_aux A B
  refine ⟨c, hc, ?_⟩
  have := congrArg (ev ι X0 Y0 h) e
  simp only [map_mul, ev_ell, ev_mk] at this
  simpa using this

omit [DecidableEq K] in
theorem evl_prop3 {l m : Lin K} (h : Prop3 l m) : ∃ c : K, c ≠ 0 ∧ evl ι X0 Y0 l = ι c * evl ι X0 Y0 m := by
  obtain ⟨c, hc, h1, h2, h3⟩ := h
  refine ⟨c, hc, ?_⟩
  unfold evl
  rw [h1, h2, h3, map_mul, map_mul, map_mul]; ring

/-- no line is the zero function, and a line without Y term has X coefficient 0 only if constant -/
theorem lin_cases {b : K} (A B : (curve b).Point) :
    (lin A B).2.1 = 1 ∨ ((lin A B).2.1 = 0 ∧ ((lin A B).2.2 = 1 ∨ (lin A B) = (1, 0, 0))) := by
  have hv : ∀ A : (curve b).Point, (vert A).2.1 = 0 ∧ ((vert A).2.2 = 1 ∨ vert A = (1, 0, 0)) := by
    intro A
    cases A with
    | zero => exact ⟨rfl, .inr rfl⟩
    | some x y h => exact ⟨rfl, .inl rfl⟩
  cases A with
  | zero => exact .inr (hv B)
  | some x y hn =>
    cases B with
    | zero => exact .inr (hv (.some x y hn))
    | some x₂ y₂ hn₂ =>
      unfold lin
      dsimp only
      split_ifs
      · exact .inr ⟨rfl, .inl rfl⟩
      · exact .inl rfl

end Eval
end Hom
end Verif
