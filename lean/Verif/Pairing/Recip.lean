import Verif.Pairing.Ate

/-!
Additivity of the pairing in the first group: reciprocity between the lines on the two curves.
-/

namespace Verif
open Fp Hom Ec WeierstrassCurve.Affine

namespace Hom
variable {K : Type} [Field K] [DecidableEq K]

open Polynomial in
/-- the chord or tangent through two points whose sum is not 0 -/
theorem chord {b : K} {x₁ y₁ x₂ y₂ : K} (h₁ : (curve b).Nonsingular x₁ y₁) (h₂ : (curve b).Nonsingular x₂ y₂)
    (hs : (Point.some _ _ h₁ : (curve b).Point) + .some _ _ h₂ ≠ 0) :
    ∃ s n x₃ y₃, ∃ h₃ : (curve b).Nonsingular x₃ y₃,
      (Point.some _ _ h₁ : (curve b).Point) + .some _ _ h₂ = .some _ _ h₃ ∧
      lin (b := b) (.some _ _ h₁) (.some _ _ h₂) = (-n, 1, -s) ∧
      y₁ = s * x₁ + n ∧ y₂ = s * x₂ + n ∧ -y₃ = s * x₃ + n ∧
      ∀ {L : Type} [Field L] (ι : K →+* L) (t : L),
        t ^ 3 + ι b - (ι s * t + ι n) ^ 2 = (t - ι x₁) * (t - ι x₂) * (t - ι x₃) := by
  have hc : ¬ (x₁ = x₂ ∧ y₁ = (curve b).negY x₂ y₂) := fun h => hs (Point.add_of_Y_eq h.1 h.2)
  have hp := addPolynomial_slope h₁.1 h₂.1 hc
  have e1 := Point.add_some hc (h₁ := h₁) (h₂ := h₂)
  have e2 : lin (b := b) (.some _ _ h₁) (.some _ _ h₂) = _ := if_neg hc
  have hy2 : y₂ = (curve b).slope x₁ x₂ y₁ y₂ * x₂ + (y₁ - (curve b).slope x₁ x₂ y₁ y₂ * x₁) := by
    by_cases hx : x₁ = x₂
    · have := Y_eq_of_Y_ne h₁.1 h₂.1 hx (fun h => hc ⟨hx, h⟩)
      rw [← this, hx]; ring
    · rw [slope_of_X_ne hx]
      have : x₁ - x₂ ≠ 0 := sub_ne_zero.2 hx
      field_simp
      ring
  refine ⟨_, _, _, _, _, e1, e2, by ring, hy2, ?_, ?_⟩
  · simp only [curve, addY, negY, negAddY]; ring
  · intro L _ ι t
    generalize (curve b).addX x₁ x₂ ((curve b).slope x₁ x₂ y₁ y₂) = x₃ at hp ⊢
    generalize (curve b).slope x₁ x₂ y₁ y₂ = s at hp ⊢
    have := congrArg (eval₂ ι t) hp
    rw [addPolynomial_eq] at this
    simp only [Cubic.toPoly, curve] at this
    simp only [eval₂_neg, eval₂_add, eval₂_mul, eval₂_sub, eval₂_pow, eval₂_C, eval₂_X, map_sub, map_neg, map_mul,
      map_add, map_pow, map_zero, map_one, map_ofNat, eval₂_zero, eval₂_one, eval₂_ofNat] at this
    simp only [map_sub, map_mul]
    linear_combination -this

omit [DecidableEq K] in
/-- product of the values of one line at the points of the other -/
theorem recip {b s c l n x1 x2 x3 X1 X2 X3 : K}
    (h1 : ∀ t, t ^ 3 + b - (l * t + n) ^ 2 = (t - x1) * (t - x2) * (t - x3))
    (h2 : ∀ t, t ^ 3 + b - (s * t + c) ^ 2 = (t - X1) * (t - X2) * (t - X3)) :
    ((l * x1 + n) - s * x1 - c) * ((l * x2 + n) - s * x2 - c) * ((l * x3 + n) - s * x3 - c) =
    -(((s * X1 + c) - l * X1 - n) * ((s * X2 + c) - l * X2 - n) * ((s * X3 + c) - l * X3 - n)) := by
  by_cases hd : l - s = 0
  · have : l = s := sub_eq_zero.1 hd
    subst this; ring
  · have g1 := h1 (-(n - c) / (l - s))
    have g2 := h2 (-(n - c) / (l - s))
    have ht : (l - s) * (-(n - c) / (l - s)) = -(n - c) := mul_div_cancel₀ _ hd
    generalize -(n - c) / (l - s) = t at g1 g2 ht
    have e : l * t + n = s * t + c := by linear_combination ht
    rw [e] at g1
    have g3 := g1.symm.trans g2
    have hn : n - c = -((l - s) * t) := by linear_combination ht
    have hn' : n = c - (l - s) * t := by linear_combination hn
    rw [hn']
    linear_combination -(l - s) ^ 3 * g3

omit [DecidableEq K] in
/-- the same for a line on the curve and one on the twist -/
theorem recip_twist {w X b s c l n x1 x2 x3 X1 X2 X3 : K} (hX : X ≠ 0) (hw : w ^ 6 = X)
    (h1 : ∀ t, t ^ 3 + b - (l * t + n) ^ 2 = (t - x1) * (t - x2) * (t - x3))
    (h2 : ∀ t, t ^ 3 + b / X - (s * t + c) ^ 2 = (t - X1) * (t - X2) * (t - X3)) :
    ((l * x1 + n) / X * w ^ 3 - s * (x1 / X * w ^ 4) - c) * ((l * x2 + n) / X * w ^ 3 - s * (x2 / X * w ^ 4) - c) *
      ((l * x3 + n) / X * w ^ 3 - s * (x3 / X * w ^ 4) - c) =
    -(((s * X1 + c) - l / X * w ^ 5 * X1 - n / X * w ^ 3) * ((s * X2 + c) - l / X * w ^ 5 * X2 - n / X * w ^ 3) *
      ((s * X3 + c) - l / X * w ^ 5 * X3 - n / X * w ^ 3)) := by
  have hy : ∀ x, (l * x + n) / X * w ^ 3 = (l / X * w ^ 5) * (x / X * w ^ 4) + n / X * w ^ 3 := by
    intro x
    have : l / X * w ^ 5 * (x / X * w ^ 4) = l * x / X ^ 2 * w ^ 3 * w ^ 6 := by ring
    rw [this, hw]; field_simp
  rw [hy, hy, hy]
  refine recip (b := b / X) ?_ h2
  intro t
  have g := h1 (t * w ^ 2)
  have hk : ∀ x, t * w ^ 2 - x = w ^ 2 * (t - x / X * w ^ 4) := by
    intro x
    have : w ^ 2 * (t - x / X * w ^ 4) = t * w ^ 2 - x / X * w ^ 6 := by ring
    rw [this, hw]; field_simp
  rw [hk, hk, hk] at g
  have e1 : w ^ 2 * (t - x1 / X * w ^ 4) * (w ^ 2 * (t - x2 / X * w ^ 4)) * (w ^ 2 * (t - x3 / X * w ^ 4)) =
    w ^ 6 * ((t - x1 / X * w ^ 4) * (t - x2 / X * w ^ 4) * (t - x3 / X * w ^ 4)) := by ring
  have e2 : l * (t * w ^ 2) + n = w ^ 3 * (l / X * w ^ 5 * t + n / X * w ^ 3) := by
    have : w ^ 3 * (l / X * w ^ 5 * t + n / X * w ^ 3) = l / X * w ^ 2 * t * w ^ 6 + n / X * w ^ 6 := by ring
    rw [this, hw]; field_simp
  have e3 : (t * w ^ 2) ^ 3 + b = w ^ 6 * (t ^ 3 + b / X) := by
    have : (t * w ^ 2) ^ 3 = t ^ 3 * w ^ 6 := by ring
    rw [this, hw]; field_simp
  have e4 : (w ^ 3 * (l / X * w ^ 5 * t + n / X * w ^ 3)) ^ 2 = w ^ 6 * (l / X * w ^ 5 * t + n / X * w ^ 3) ^ 2 := by ring
  rw [e1, e2, e3, e4, ← mul_sub, hw] at g
  exact mul_left_cancel₀ hX g

end Hom

namespace Pairing
open Cocycle

/-! ### The line of G1 on the twist -/

/-- the value of y - l x - n, moved to the twist, at a point of the twist -/
noncomputable def mv (l n : Fe) : E' → F12
  | .zero => 1
  | .some x y _ => F12.mk6 y 0 0 (-(F2.ofFe n / F2.xi)) 0 (-(F2.ofFe l / F2.xi * x))

theorem y_ne2 {x y : F2} (hn : (curve (2 / F2.xi : F2)).Nonsingular x y) : y ≠ 0 := by
  rintro rfl
  have := (curve_nonsingular good2 x 0).1 hn
  exact cube_ne2 x (by linear_combination -this)

theorem mv_ne (l n : Fe) (A : E') : mv l n A ≠ 0 := by
  cases A with
  | zero => exact one_ne_zero
  | some x y hn => exact fun h0 => y_ne2 hn (congrArg (fun x : F12 => x.a.a) h0)

theorem mv_some (l n : Fe) {x y : F2} (hn : (curve (2 / F2.xi : F2)).Nonsingular x y) : mv l n (.some x y hn) =
    F12.incl y - F12.incl (F2.ofFe l) / F12.incl F2.xi * F12.w ^ 5 * F12.incl x
      - F12.incl (F2.ofFe n) / F12.incl F2.xi * F12.w ^ 3 := by
  show F12.mk6 _ _ _ _ _ _ = _
  rw [F12.mk6_eq]
  simp only [map_neg, map_mul, map_zero, map_div₀]
  ring

/-- M(A) -/
noncomputable def M (l n : Fe) (A : E') : F12ˣ := Units.mk0 (FE (mv l n A)) (FE_ne (mv_ne l n A))

theorem M_coe (l n : Fe) (A : E') : (M l n A : F12) = FE (mv l n A) := rfl

theorem M_zero (l n : Fe) : M l n 0 = 1 := Units.ext (map_one FE)

theorem M_pow_r (l n : Fe) (A : E') : M l n A ^ r = 1 :=
  Units.ext (by rw [Units.val_pow_eq_pow_val, M_coe]; exact FE_pow_r (mv_ne l n A))

theorem M_neg (l n : Fe) (A : E') : M l n A * M l n (-A) = 1 := by
  apply Units.ext
  rw [Units.val_mul, M_coe, M_coe, ← map_mul]
  cases A with
  | zero => exact (congrArg FE (mul_one (1 : F12))).trans (map_one FE)
  | some x y hn =>
    obtain ⟨h', e⟩ := neg_some hn
    rw [e]
    refine FE_even (mul_ne_zero (mv_ne _ _ _) (mv_ne _ _ _)) ?_
    unfold mv
    rw [F12.mul_b]
    unfold F12.mk6
    dsimp only
    have e2 : (⟨-y, 0, 0⟩ : F6) = -⟨y, 0, 0⟩ := F6.ext rfl neg_zero.symm neg_zero.symm
    rw [e2]; ring

theorem mv_phi (l n : Fe) (A : E') : ∃ c : F2, c ≠ 0 ∧ F12.incl c * mv l n A ^ p = mv l n (phi A) := by
  cases A with
  | zero =>
    refine ⟨1, one_ne_zero, ?_⟩
    have : phi (.zero : E') = .zero := map_zero phi
    rw [this, map_one, one_mul]; exact one_pow p
  | some x y hn =>
    refine ⟨F2.gam ^ 3, pow_ne_zero 3 gam_ne, ?_⟩
    have e : phi (.some x y hn) = .some _ _ (frobS.nons hn) := rfl
    rw [e, mv_some, mv_some]
    have p1 := powp_aux F12.incl (m := 5) p_pos F2.xi_ne gam6_pow F12.w_pow_p (ofFe_pow_p l) (by norm_num)
    have p2 := powp_aux F12.incl (m := 3) p_pos F2.xi_ne gam6_pow F12.w_pow_p (ofFe_pow_p n) (by norm_num)
    rw [← map_div₀, ← map_div₀]
    generalize F12.incl (F2.ofFe l / F2.xi) * F12.w ^ 5 = a at p1 ⊢
    generalize F12.incl (F2.ofFe n / F2.xi) * F12.w ^ 3 = d at p2 ⊢
    have ex : frobS.g ^ 2 * frobS.σ x = F2.gam ^ 2 * x ^ p := rfl
    have ey : frobS.g ^ 3 * frobS.σ y = F2.gam ^ 3 * y ^ p := rfl
    rw [ex, ey, sub_pow_char, sub_pow_char, mul_pow]
    simp only [map_mul, map_pow]
    linear_combination -F12.incl F2.gam ^ 2 * F12.incl x ^ p * p1 - p2

theorem M_phi (l n : Fe) (A : E') : M l n (phi A) = M l n A ^ p := by
  apply Units.ext
  obtain ⟨c, hc, e⟩ := mv_phi l n A
  rw [Units.val_pow_eq_pow_val, M_coe, M_coe, ← e, map_mul, FE_const hc, one_mul, map_pow]

/-! ### The relation between the cocycles of three collinear points -/

theorem val_conj (P : Fe × Fe) (l : Lin F2) : val (P.1, -P.2) l = Miller.negB (val P l) := by
  rw [val_mk6, val_mk6]
  have : F2.ofFe (-P.2) = -F2.ofFe P.2 := by
    rw [← F2.incl_apply, ← F2.incl_apply, map_neg]
  dsimp only
  rw [this, neg_div, mul_neg]
  refine F12.ext rfl (F6.ext neg_zero.symm rfl neg_zero.symm)

theorem gamma_conj {P : Fe × Fe} (h : OnE P) (A B : E') : gamma h.neg A B = (gamma h A B)⁻¹ := by
  apply Units.ext
  rw [gamma_coe, val_conj, FE_negB (val_ne h (lin_ne A B)), Units.val_inv_eq_inv_val, gamma_coe]

/-- P1, P2 and -P3 lie on y = l x + n -/
structure Coll (l n : Fe) (P1 P2 P3 : Fe × Fe) : Prop where
  y1 : P1.2 = l * P1.1 + n
  y2 : P2.2 = l * P2.1 + n
  y3 : -P3.2 = l * P3.1 + n
  id : ∀ t : F12, t ^ 3 + F12.incl 2 - (F12.incl (F2.ofFe l) * t + F12.incl (F2.ofFe n)) ^ 2 =
    (t - F12.incl (F2.ofFe P1.1)) * (t - F12.incl (F2.ofFe P2.1)) * (t - F12.incl (F2.ofFe P3.1))

theorem incl_xi_ne : F12.incl F2.xi ≠ 0 := fun h => F2.xi_ne (F12.incl.injective (h.trans (map_zero _).symm))

theorem gamma_coll {l n : Fe} {P1 P2 P3 : Fe × Fe} (h1 : OnE P1) (h2 : OnE P2) (h3 : OnE P3) (hc : Coll l n P1 P2 P3)
    (A B : E') : gamma h1 A B * gamma h2 A B * M l n (A + B) = gamma h3 A B * M l n A * M l n B := by
  have hz1 : ∀ {P : Fe × Fe} (h : OnE P) (A : E'), gamma h A 0 = 1 := fun h A =>
    ((coc h).symm A 0).trans ((coc h).zero_left A)
  have hz2 : ∀ {P : Fe × Fe} (h : OnE P) (A : E'), gamma h 0 A = 1 := fun h A => (coc h).zero_left A
  have hz3 : ∀ {P : Fe × Fe} (h : OnE P) (A : E'), gamma h A (-A) = 1 := fun h A => (coc h).neg A
  by_cases hA : A = 0
  · subst hA; rw [hz2, hz2, hz2, M_zero, zero_add, one_mul, one_mul]
  by_cases hB : B = 0
  · subst hB; rw [hz1, hz1, hz1, M_zero, add_zero, one_mul, one_mul, mul_one]
  by_cases hAB : A + B = 0
  · obtain rfl := eq_neg_of_add_eq_zero_right hAB
    rw [hz3, hz3, hz3, add_neg_cancel, M_zero, mul_assoc, mul_assoc, M_neg, one_mul]
  cases A with
  | zero => exact absurd rfl hA
  | some xA yA hnA =>
  cases B with
  | zero => exact absurd rfl hB
  | some xB yB hnB =>
  obtain ⟨s, c, x3, y3, hn3, e1, e2, ey1, ey2, ey3, hid⟩ := chord hnA hnB hAB
  obtain ⟨hn3', e3⟩ := neg_some hn3
  have key := recip_twist (w := F12.w) incl_xi_ne F12.w_pow6 hc.id (by
    intro t
    have := hid F12.incl t
    rw [map_div₀] at this
    exact this)
  have hv : ∀ P : Fe × Fe, P.2 = l * P.1 + n → val P (-c, 1, -s) =
      (F12.incl (F2.ofFe l) * F12.incl (F2.ofFe P.1) + F12.incl (F2.ofFe n)) / F12.incl F2.xi * F12.w ^ 3 -
      F12.incl s * (F12.incl (F2.ofFe P.1) / F12.incl F2.xi * F12.w ^ 4) - F12.incl c := by
    intro P hP
    unfold val evl PX PY
    dsimp only
    rw [hP, map_div₀, map_div₀, map_neg, map_neg, map_one]
    have : F12.incl (F2.ofFe (l * P.1 + n)) =
        F12.incl (F2.ofFe l) * F12.incl (F2.ofFe P.1) + F12.incl (F2.ofFe n) := by
      simp only [← F2.incl_apply, map_add, map_mul]
    rw [this]; ring
  have hm : ∀ {x y : F2} (hn : (curve (2 / F2.xi : F2)).Nonsingular x y), y = s * x + c → mv l n (.some x y hn) =
      (F12.incl s * F12.incl x + F12.incl c) - F12.incl (F2.ofFe l) / F12.incl F2.xi * F12.w ^ 5 * F12.incl x -
      F12.incl (F2.ofFe n) / F12.incl F2.xi * F12.w ^ 3 := by
    intro x y hn hy
    rw [mv_some, ← map_mul, ← map_add, ← hy]
  have key2 := congrArg FE key
  have hneg : FE (-1) = 1 := by
    have := FE_const (c := -1) (neg_ne_zero.2 one_ne_zero)
    rwa [map_neg, map_one] at this
  rw [neg_eq_neg_one_mul, map_mul FE (-1), hneg, one_mul] at key2
  rw [← hv P1 hc.y1, ← hv P2 hc.y2, ← hv (P3.1, -P3.2) hc.y3, ← hm hnA ey1, ← hm hnB ey2, ← hm hn3' ey3, ← e2,
    ← e3, ← e1] at key2
  have key3 : gamma h1 (.some _ _ hnA) (.some _ _ hnB) * gamma h2 (.some _ _ hnA) (.some _ _ hnB) *
      gamma h3.neg (.some _ _ hnA) (.some _ _ hnB) =
      M l n (.some _ _ hnA) * M l n (.some _ _ hnB) * M l n (-(.some _ _ hnA + .some _ _ hnB)) := by
    apply Units.ext
    simp only [Units.val_mul, M_coe, gamma_coe, ← map_mul]
    exact key2
  have hM := M_neg l n (.some _ _ hnA + .some _ _ hnB)
  rw [gamma_conj] at key3
  rw [eq_inv_of_mul_eq_one_right hM] at key3
  rw [← div_eq_mul_inv, ← div_eq_mul_inv, div_eq_div_iff_mul_eq_mul] at key3
  rw [key3, mul_assoc (gamma h3 _ _), mul_comm (gamma h3 _ _)]

end Pairing
end Verif
