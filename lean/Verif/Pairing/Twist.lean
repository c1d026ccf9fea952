import Verif.Pairing.Group

/-! Semilinear endomorphisms (x, y) ↦ (g² σ x, g³ σ y) of y² = x³ + b with g⁶ σ b = b. -/

namespace Verif
namespace Hom
open WeierstrassCurve.Affine Ec

variable {K : Type} [Field K]

theorem some_ext {b : K} {x y x' y' : K} {h : (curve b).Nonsingular x y} {h' : (curve b).Nonsingular x' y'}
    (hx : x = x') (hy : y = y') : (Point.some x y h : (curve b).Point) = .some x' y' h' := by
  subst hx hy; rfl

/-- data of a semilinear endomorphism -/
structure Semi (b : K) where
  good : Good b
  σ : K →+* K
  g : K
  g_ne : g ≠ 0
  fix : g ^ 6 * σ b = b

namespace Semi
variable {b : K} (s : Semi b)

theorem nons {x y : K} (h : (curve b).Nonsingular x y) :
    (curve b).Nonsingular (s.g ^ 2 * s.σ x) (s.g ^ 3 * s.σ y) := by
  rw [curve_nonsingular s.good] at h ⊢
  have h1 := congrArg s.σ h
  rw [map_add, map_pow, map_pow] at h1
  have h2 := s.fix
  linear_combination s.g ^ 6 * h1 + h2

/-- the map on points -/
def fn : (curve b).Point → (curve b).Point
  | .zero => 0
  | .some _ _ h => .some _ _ (s.nons h)

theorem fn_some {x y : K} (h : (curve b).Nonsingular x y) : s.fn (.some x y h) = .some _ _ (s.nons h) := rfl

variable [DecidableEq K]

theorem fn_add (A B : (curve b).Point) : s.fn (A + B) = s.fn A + s.fn B := by
  have hg := s.g_ne
  cases A with
  | zero => exact (congrArg s.fn (zero_add B)).trans (zero_add (s.fn B)).symm
  | some x y h =>
    cases B with
    | zero => exact (congrArg s.fn (add_zero (Point.some x y h))).trans (add_zero _).symm
    | some x₂ y₂ h₂ =>
      by_cases hx : x = x₂
      · subst hx
        have e1 := (curve_nonsingular s.good x y).1 h
        have e2 := (curve_nonsingular s.good x y₂).1 h₂
        by_cases hy : y = -y₂
        · rw [Point.add_of_Y_eq rfl (by rw [hy]; simp [negY, curve]), fn_some, fn_some,
            Point.add_of_Y_eq rfl (by rw [hy]; simp [negY, curve])]
          rfl
        · have hyy : y = y₂ := by
            have h5 : (y - y₂) * (y + y₂) = 0 := by linear_combination e1 - e2
            exact sub_eq_zero.1 ((mul_eq_zero.1 h5).resolve_right (fun h0 => hy (eq_neg_of_add_eq_zero_left h0)))
          subst hyy
          have hy0 : y ≠ 0 := by rintro rfl; exact hy neg_zero.symm
          have hsy : s.σ y ≠ 0 := fun h0 => hy0 (s.σ.injective (h0.trans (map_zero s.σ).symm))
          obtain ⟨h', e⟩ := add_self_aux s.good h hy0
          obtain ⟨h'', e'⟩ := add_self_aux s.good (s.nons h) (mul_ne_zero (pow_ne_zero 3 hg) hsy)
          rw [e, fn_some, fn_some, e']
          have h2 := s.good.two
          apply some_ext
          · simp only [map_sub, map_mul, map_pow, map_div₀, map_ofNat]; field_simp
          · simp only [map_neg, map_add, map_sub, map_mul, map_pow, map_div₀, map_ofNat]; field_simp
      · obtain ⟨h', e⟩ := add_aux h h₂ hx
        have hd : s.σ x - s.σ x₂ ≠ 0 := by
          rw [sub_ne_zero]; exact fun h0 => hx (s.σ.injective h0)
        have hsx : s.g ^ 2 * s.σ x ≠ s.g ^ 2 * s.σ x₂ := by
          intro h0
          exact hd (sub_eq_zero.2 (mul_left_cancel₀ (pow_ne_zero 2 hg) h0))
        obtain ⟨h'', e'⟩ := add_aux (s.nons h) (s.nons h₂) hsx
        rw [e, fn_some, fn_some, fn_some, e']
        have hq : (s.g ^ 3 * s.σ y - s.g ^ 3 * s.σ y₂) / (s.g ^ 2 * s.σ x - s.g ^ 2 * s.σ x₂)
            = s.g * ((s.σ y - s.σ y₂) / (s.σ x - s.σ x₂)) := by
          rw [← mul_sub, ← mul_sub]; field_simp
        apply some_ext
        · rw [hq]
          simp only [map_sub, map_pow, map_div₀]; ring
        · rw [hq]
          simp only [map_neg, map_add, map_mul, map_sub, map_pow, map_div₀]; ring

/-- the endomorphism -/
def hom : (curve b).Point →+ (curve b).Point where
  toFun := s.fn
  map_zero' := rfl
  map_add' := s.fn_add

theorem hom_some {x y : K} (h : (curve b).Nonsingular x y) : s.hom (.some x y h) = .some _ _ (s.nons h) := rfl

/-- the line through the images -/
theorem lin_hom (A B : (curve b).Point) :
    Prop3 (s.g ^ 3 * s.σ (lin A B).1, s.σ (lin A B).2.1, s.g * s.σ (lin A B).2.2) (lin (s.hom A) (s.hom B)) := by
  have hg := s.g_ne
  have hv : ∀ A : (curve b).Point, Prop3 (s.g ^ 3 * s.σ (vert A).1, s.σ (vert A).2.1, s.g * s.σ (vert A).2.2)
      (vert (s.hom A)) := by
    intro A
    cases A with
    | zero =>
      refine ⟨s.g ^ 3, pow_ne_zero 3 hg, ?_, ?_, ?_⟩
      · show s.g ^ 3 * s.σ 1 = s.g ^ 3 * 1; rw [map_one]
      · show s.σ 0 = s.g ^ 3 * 0; rw [map_zero, mul_zero]
      · show s.g * s.σ 0 = s.g ^ 3 * 0; rw [map_zero, mul_zero, mul_zero]
    | some x y h =>
      refine ⟨s.g, hg, ?_, ?_, ?_⟩
      · show s.g ^ 3 * s.σ (-x) = s.g * -(s.g ^ 2 * s.σ x); rw [map_neg]; ring
      · show s.σ 0 = s.g * 0; rw [map_zero, mul_zero]
      · show s.g * s.σ 1 = s.g * 1; rw [map_one]
  cases A with
  | zero => exact hv B
  | some x y h =>
    cases B with
    | zero => exact hv (.some x y h)
    | some x₂ y₂ h₂ =>
      by_cases hc : x = x₂ ∧ y = (curve b).negY x₂ y₂
      · have hn : (curve b).negY x₂ y₂ = -y₂ := by simp [negY, curve]
        have hn' : (curve b).negY (s.g ^ 2 * s.σ x₂) (s.g ^ 3 * s.σ y₂) = -(s.g ^ 3 * s.σ y₂) := by simp [negY, curve]
        have e1 : lin (b := b) (.some x y h) (.some x₂ y₂ h₂) = (-x, 0, 1) := if_pos hc
        have e2 : lin (s.hom (.some x y h)) (s.hom (.some x₂ y₂ h₂)) = (-(s.g ^ 2 * s.σ x), 0, 1) :=
          if_pos ⟨by rw [hc.1], by rw [hn', hc.2, hn, map_neg]; ring⟩
        rw [e1, e2]
        refine ⟨s.g, hg, ?_, ?_, ?_⟩
        · show s.g ^ 3 * s.σ (-x) = s.g * -(s.g ^ 2 * s.σ x); rw [map_neg]; ring
        · show s.σ 0 = s.g * 0; rw [map_zero, mul_zero]
        · show s.g * s.σ 1 = s.g * 1; rw [map_one]
      · have hn : (curve b).negY x₂ y₂ = -y₂ := by simp [negY, curve]
        have hn' : (curve b).negY (s.g ^ 2 * s.σ x₂) (s.g ^ 3 * s.σ y₂) = -(s.g ^ 3 * s.σ y₂) := by simp [negY, curve]
        have hc' : ¬ (s.g ^ 2 * s.σ x = s.g ^ 2 * s.σ x₂ ∧
            s.g ^ 3 * s.σ y = (curve b).negY (s.g ^ 2 * s.σ x₂) (s.g ^ 3 * s.σ y₂)) := by
          rintro ⟨h1, h2⟩
          refine hc ⟨s.σ.injective (mul_left_cancel₀ (pow_ne_zero 2 hg) h1), ?_⟩
          rw [hn'] at h2
          rw [hn]
          apply s.σ.injective
          rw [map_neg]
          exact mul_left_cancel₀ (pow_ne_zero 3 hg) (by rw [h2]; ring)
        have hsl : (curve b).slope (s.g ^ 2 * s.σ x) (s.g ^ 2 * s.σ x₂) (s.g ^ 3 * s.σ y) (s.g ^ 3 * s.σ y₂)
            = s.g * s.σ ((curve b).slope x x₂ y y₂) := by
          by_cases hx : x = x₂
          · subst hx
            have e1 := (curve_nonsingular s.good x y).1 h
            have e2 := (curve_nonsingular s.good x y₂).1 h₂
            have hy : y ≠ -y₂ := fun h0 => hc ⟨rfl, h0.trans hn.symm⟩
            have hyy : y = y₂ := by
              have h5 : (y - y₂) * (y + y₂) = 0 := by linear_combination e1 - e2
              exact sub_eq_zero.1 ((mul_eq_zero.1 h5).resolve_right (fun h0 => hy (eq_neg_of_add_eq_zero_left h0)))
            subst hyy
            have hy0 : y ≠ 0 := by rintro rfl; exact hy neg_zero.symm
            have hsy : s.σ y ≠ 0 := fun h0 => hy0 (s.σ.injective (h0.trans (map_zero s.σ).symm))
            have h2 := s.good.two
            rw [(slope_self s.good hy0).2, (slope_self s.good (mul_ne_zero (pow_ne_zero 3 hg) hsy)).2]
            simp only [map_mul, map_pow, map_div₀, map_ofNat]
            field_simp
          · have hd : s.σ x - s.σ x₂ ≠ 0 := by
              rw [sub_ne_zero]; exact fun h0 => hx (s.σ.injective h0)
            have hsx : s.g ^ 2 * s.σ x ≠ s.g ^ 2 * s.σ x₂ := by
              intro h0
              exact hd (sub_eq_zero.2 (mul_left_cancel₀ (pow_ne_zero 2 hg) h0))
            rw [slope_of_X_ne hx, slope_of_X_ne hsx, ← mul_sub, ← mul_sub]
            simp only [map_sub, map_div₀]
            field_simp
        have e1 : lin (b := b) (.some x y h) (.some x₂ y₂ h₂) =
          (-(y - (curve b).slope x x₂ y y₂ * x), 1, -(curve b).slope x x₂ y y₂) := if_neg hc
        have e2 : lin (s.hom (.some x y h)) (s.hom (.some x₂ y₂ h₂)) = _ := if_neg hc'
        rw [e1, e2, hsl]
        generalize (curve b).slope x x₂ y y₂ = l
        refine ⟨1, one_ne_zero, ?_, ?_, ?_⟩
        · dsimp only; rw [map_neg, map_sub, map_mul]; ring
        · dsimp only; rw [map_one, one_mul]
        · dsimp only; rw [map_neg]; ring

end Semi
end Hom
end Verif
