import Verif.Pairing.Group
import Verif.Pairing.Model
import Verif.Ec.Const
import Mathlib.NumberTheory.LegendreSymbol.QuadraticReciprocity

/-!
The lines evaluated at a point of G1 and raised to the final exponent: a symmetric cocycle on the twist.
-/

namespace Verif
open Fp Hom

namespace Pairing

/-! ### G1 has no point with a zero coordinate -/

theorem sq_ne_two (y : Fe) : y ^ 2 ≠ 2 := by
  intro h
  have h1 : y.toZ ^ 2 = 2 := by
    have := congrArg Fe.toZ h
    rwa [Fe.two_toZ, show (y ^ 2).toZ = y.toZ ^ 2 from Fe.toZ_npow y 2] at this
  have h2 : IsSquare (2 : ZMod p) := ⟨y.toZ, by rw [← h1, pow_two]⟩
  rw [ZMod.exists_sq_eq_two_iff (by rw [p_eq]; norm_num)] at h2
  rw [p_eq] at h2
  omega

theorem cube_ne (x : Fe) : x ^ 3 ≠ -2 := by
  intro h
  have h1 : x.toZ ^ 3 = -2 := by
    have := congrArg Fe.toZ h
    rwa [Fe.toZ_neg, Fe.two_toZ, show (x ^ 3).toZ = x.toZ ^ 3 from Fe.toZ_npow x 3] at this
  have hx : x.toZ ≠ 0 := by
    intro h0
    rw [h0] at h1
    exact Fp.two_ne (by linear_combination h1)
  have h2 : (2 : ZMod p) ^ ((p - 1) / 3) = 1 := by
    have e : 3 * ((p - 1) / 3) = p - 1 := by rw [p_eq]
    have e2 : (p - 1) / 3 = 2 * ((p - 1) / 6) := by rw [p_eq]
    have h3 : (-2 : ZMod p) ^ ((p - 1) / 3) = 1 := by
      rw [← h1, ← pow_mul, e]; exact ZMod.pow_card_sub_one_eq_one hx
    rw [← h3, e2, pow_mul, pow_mul, neg_sq]
  have h4 : ((2 ^ ((p - 1) / 3) % p : ℕ) : ZMod p) = ((1 : ℕ) : ZMod p) := by
    rw [ZMod.natCast_mod]; push_cast; exact h2
  rw [← powMod_eq p 256 2 ((p - 1) / 3) (by rw [p_eq]; norm_num)] at h4
  rw [ZMod.natCast_eq_natCast_iff] at h4
  have h5 : ¬ powMod p 256 2 ((p - 1) / 3) % p = 1 % p := by decide +kernel
  exact h5 h4

/-- affine points of y² = x³ + 2 -/
structure OnE (P : Fe × Fe) : Prop where
  eq : P.2 ^ 2 = P.1 ^ 3 + 2

theorem OnE.x_ne {P : Fe × Fe} (h : OnE P) : P.1 ≠ 0 := by
  intro h0
  have := h.eq
  rw [h0] at this
  exact sq_ne_two P.2 (by linear_combination this)
theorem OnE.y_ne {P : Fe × Fe} (h : OnE P) : P.2 ≠ 0 := by
  intro h0
  have := h.eq
  rw [h0] at this
  exact cube_ne P.1 (by linear_combination -this)

theorem OnE.neg {P : Fe × Fe} (h : OnE P) : OnE (P.1, -P.2) := ⟨by
  show (-P.2) ^ 2 = _
  rw [neg_sq]; exact h.eq⟩

/-! ### The point over Fp12 -/

/-- the image of P on the twist over Fp12: (x/w², y/w³) -/
noncomputable def PX (P : Fe × Fe) : F12 := F12.incl (F2.ofFe P.1 / F2.xi) * F12.w ^ 4
noncomputable def PY (P : Fe × Fe) : F12 := F12.incl (F2.ofFe P.2 / F2.xi) * F12.w ^ 3

theorem pt_aux {K L : Type} [Field K] [Field L] (ι : K →+* L) {w : L} {xi x y c : K} (hxi : xi ≠ 0)
    (hw : w ^ 6 = ι xi) (h : y ^ 2 = x ^ 3 + c) :
    (ι (y / xi) * w ^ 3) ^ 2 = (ι (x / xi) * w ^ 4) ^ 3 + ι (c / xi) := by
  have h1 : (ι (y / xi) * w ^ 3) ^ 2 = ι (y / xi) ^ 2 * w ^ 6 := by ring
  have h2 : (ι (x / xi) * w ^ 4) ^ 3 = ι (x / xi) ^ 3 * (w ^ 6) ^ 2 := by ring
  rw [h1, h2, hw, ← map_pow, ← map_pow, ← map_mul, ← map_pow, ← map_mul, ← map_add]
  congr 1
  field_simp
  linear_combination h

theorem OnE.pt {P : Fe × Fe} (h : OnE P) : PY P ^ 2 = PX P ^ 3 + F12.incl (2 / F2.xi) := by
  refine pt_aux F12.incl F2.xi_ne F12.w_pow6 ?_
  rw [← F2.incl_apply, ← F2.incl_apply, ← map_pow, ← map_pow, h.eq, map_add, map_ofNat]

/-- value of a line at P -/
noncomputable def val (P : Fe × Fe) (l : Lin F2) : F12 := evl F12.incl (PX P) (PY P) l

theorem val_mk6 (P : Fe × Fe) (l : Lin F2) : val P l =
    F12.mk6 l.1 0 0 (l.2.1 * (F2.ofFe P.2 / F2.xi)) (l.2.2 * (F2.ofFe P.1 / F2.xi)) 0 := by
  rw [F12.mk6_eq]
  unfold val evl PX PY
  simp only [map_mul, map_zero]
  ring

theorem ofFe_ne {x : Fe} (h : x ≠ 0) : F2.ofFe x ≠ 0 := fun h0 => h (congrArg F2.a h0)

theorem mk6_ne {a b c : F2} (h : a ≠ 0 ∨ b ≠ 0 ∨ c ≠ 0) : F12.mk6 a 0 0 b c 0 ≠ 0 := by
  intro h0
  have h1 : a = 0 := congrArg (fun x : F12 => x.a.a) h0
  have h2 : b = 0 := congrArg (fun x : F12 => x.b.b) h0
  have h3 : c = 0 := congrArg (fun x : F12 => x.a.c) h0
  tauto

theorem val_ne {P : Fe × Fe} (h : OnE P) {l : Lin F2} (hl : l.1 ≠ 0 ∨ l.2.1 ≠ 0 ∨ l.2.2 ≠ 0) : val P l ≠ 0 := by
  rw [val_mk6]
  refine mk6_ne (hl.imp_right (Or.imp ?_ ?_))
  · exact fun h1 => mul_ne_zero h1 (div_ne_zero (ofFe_ne h.y_ne) F2.xi_ne)
  · exact fun h1 => mul_ne_zero h1 (div_ne_zero (ofFe_ne h.x_ne) F2.xi_ne)

theorem lin_ne (A B : (curve (2 / F2.xi : F2)).Point) :
    (lin A B).1 ≠ 0 ∨ (lin A B).2.1 ≠ 0 ∨ (lin A B).2.2 ≠ 0 := by
  rcases lin_cases A B with h | ⟨-, h | h⟩
  · exact .inr (.inl (by rw [h]; exact one_ne_zero))
  · exact .inr (.inr (by rw [h]; exact one_ne_zero))
  · exact .inl (by rw [h]; exact one_ne_zero)
theorem vert_ne (A : (curve (2 / F2.xi : F2)).Point) :
    (vert A).1 ≠ 0 ∨ (vert A).2.1 ≠ 0 ∨ (vert A).2.2 ≠ 0 := lin_ne 0 A

/-! ### Final exponentiation of the values -/

theorem fe_ne {x : F12} (h : x ≠ 0) : x.finalExp ≠ 0 := by
  intro h0
  have := F12.finalExp_pow_r h
  rw [h0, zero_pow (by unfold r; norm_num)] at this
  exact zero_ne_one this

theorem fe_mul (x y : F12) : (x * y).finalExp = x.finalExp * y.finalExp := by
  rcases eq_or_ne x 0 with rfl | hx
  · rw [zero_mul, F12.finalExp_zero, zero_mul]
  rcases eq_or_ne y 0 with rfl | hy
  · rw [mul_zero, F12.finalExp_zero, mul_zero]
  exact F12.finalExp_mul hx hy

/-- the final exponentiation as a homomorphism -/
noncomputable def FE : F12 →*₀ F12 where
  toFun := F12.finalExp
  map_zero' := F12.finalExp_zero
  map_one' := F12.finalExp_one
  map_mul' := fe_mul

theorem FE_apply (x : F12) : FE x = x.finalExp := rfl

theorem FE_ne {x : F12} (h : x ≠ 0) : FE x ≠ 0 := fe_ne h
theorem FE_pow_r {x : F12} (h : x ≠ 0) : FE x ^ r = 1 := F12.finalExp_pow_r h

theorem FE_even {x : F12} (h : x ≠ 0) (hb : x.b = 0) : FE x = 1 := by
  refine F12.finalExp_sub h ?_
  rw [F12.pow_p6]
  unfold F12.conj
  exact F12.ext rfl (by rw [hb]; exact neg_zero)

theorem FE_const {c : F2} (h : c ≠ 0) : FE (F12.incl c) = 1 :=
  FE_even (fun h0 => h (F12.incl.injective (h0.trans (map_zero _).symm))) rfl

theorem FE_vert {P : Fe × Fe} (h : OnE P) {l : Lin F2} (hl : l.1 ≠ 0 ∨ l.2.1 ≠ 0 ∨ l.2.2 ≠ 0) (h0 : l.2.1 = 0) :
    FE (val P l) = 1 := by
  refine FE_even (val_ne h hl) ?_
  rw [val_mk6, h0, zero_mul]; rfl

theorem vert_y (A : (curve (2 / F2.xi : F2)).Point) : (vert A).2.1 = 0 := by
  cases A <;> rfl

/-- γ(A, B) -/
noncomputable def gamma {P : Fe × Fe} (h : OnE P) (A B : (curve (2 / F2.xi : F2)).Point) : F12ˣ :=
  Units.mk0 (FE (val P (lin A B))) (FE_ne (val_ne h (lin_ne A B)))

theorem gamma_coe {P : Fe × Fe} (h : OnE P) (A B : (curve (2 / F2.xi : F2)).Point) :
    (gamma h A B : F12) = FE (val P (lin A B)) := rfl

theorem lin_neg (A : (curve (2 / F2.xi : F2)).Point) : (lin A (-A)).2.1 = 0 := by
  cases A with
  | zero => rfl
  | some x y hn =>
    obtain ⟨h', e⟩ := neg_some hn
    rw [e]
    have e2 : lin (b := (2 / F2.xi : F2)) (.some x y hn) (.some x (-y) h') = (-x, 0, 1) :=
      if_pos ⟨rfl, by simp [WeierstrassCurve.Affine.negY, curve]⟩
    rw [e2]

/-- The cocycle of a point P of G1. -/
noncomputable def coc {P : Fe × Fe} (h : OnE P) : Cocycle.Coc (curve (2 / F2.xi : F2)).Point F12ˣ where
  γ := gamma h
  zero_left B := Units.ext (FE_vert h (vert_ne B) (vert_y B))
  symm A B := Units.ext (by
    rw [gamma_coe, gamma_coe]
    obtain ⟨c, hc, e⟩ := symm_val F12.incl (PX P) (PY P) h.pt A B
    have e' : val P (lin A B) = F12.incl c * val P (lin B A) := e
    rw [e', map_mul, FE_const hc, one_mul])
  neg A := Units.ext (FE_vert h (lin_ne A (-A)) (lin_neg A))
  assoc A B D := Units.ext (by
    rw [Units.val_mul, Units.val_mul, gamma_coe, gamma_coe, gamma_coe, gamma_coe]
    obtain ⟨c, hc, e⟩ := cocycle_val F12.incl (PX P) (PY P) h.pt A B D
    have e' : val P (lin A B) * val P (lin (A + B) D) * val P (vert (B + D)) =
      F12.incl c * (val P (lin B D) * val P (lin A (B + D)) * val P (vert (A + B))) := e
    have := congrArg FE e'
    rw [map_mul, map_mul, map_mul, map_mul, map_mul, FE_const hc, FE_vert h (vert_ne _) (vert_y _),
      FE_vert h (vert_ne _) (vert_y _), one_mul, mul_one, mul_one] at this
    exact this)

end Pairing
end Verif
