import Verif.Fp.Lemmas
import Verif.PowerLemmas
import Mathlib.Algebra.Field.Basic
import Mathlib.Algebra.Ring.InjSurj
import Mathlib.Algebra.Field.Equiv
import Mathlib.Data.Rat.Cast.Defs

/-!
The canonical `Fp` values form a field whose operations are the modelled code: the data fields of the
`Field` instance (`+`, `-`, `*`, `⁻¹`, `/`, `0`, `1`) are `Fp.add` etc.; the laws are proved through
`residue`.
-/

namespace Verif

open Fp

/-- A canonical `Fp` object. -/
structure Fe where
  n : ℕ
  lt : n < p
  deriving DecidableEq

namespace Fe

@[ext] theorem ext {x y : Fe} (h : x.n = y.n) : x = y := by
  cases x; cases y; cases h; rfl

/-- `Fp::add`, `operator+` -/
instance : Add Fe := ⟨fun x y => ⟨Fp.add x.n y.n, add_lt x.lt y.lt⟩⟩
/-- `Fp::sub`, `operator-` -/
instance : Sub Fe := ⟨fun x y => ⟨Fp.sub x.n y.n, sub_lt x.lt y.lt⟩⟩
/-- `Fp::neg`, unary `operator-` -/
instance : Neg Fe := ⟨fun x => ⟨Fp.neg x.n, neg_lt x.lt⟩⟩
/-- `Fp::mul`, `operator*` -/
instance : Mul Fe := ⟨fun x y => ⟨Fp.mul x.n y.n, mul_lt x.lt y.lt⟩⟩
/-- `Fp(0)`, zm2.h:49 -/
instance : Zero Fe := ⟨⟨0, p_pos⟩⟩
/-- `Fp(1)`, zm2.h:51-54 -/
instance : One Fe := ⟨⟨montR, montR_lt⟩⟩

/-- the residue represented -/
noncomputable def toZ (x : Fe) : ZMod p := residue x.n

theorem toZ_inj : Function.Injective toZ := fun x y h => ext (residue_inj x.lt y.lt h)

theorem toZ_add (x y : Fe) : (x + y).toZ = x.toZ + y.toZ := residue_add x.lt y.lt
theorem toZ_sub (x y : Fe) : (x - y).toZ = x.toZ - y.toZ := residue_sub x.lt y.lt
theorem toZ_mul (x y : Fe) : (x * y).toZ = x.toZ * y.toZ := residue_mul x.lt y.lt
theorem toZ_neg (x : Fe) : (-x).toZ = -x.toZ := residue_neg x.lt
theorem toZ_zero : (0 : Fe).toZ = 0 := residue_zero
theorem toZ_one : (1 : Fe).toZ = 1 := residue_montR

theorem eq_zero_iff (x : Fe) : x = 0 ↔ x.n = 0 := by
  constructor
  · intro h; rw [h]; rfl
  · intro h; exact ext h

/-- `Fp::inv`; by `inv_ok` below the code always returns a canonical value, so the fallback branch is
never taken. -/
instance : Inv Fe := ⟨fun x =>
  match Fp.inv x.n with
  | .ok y => if h : y < p then ⟨y, h⟩ else 0
  | _ => 0⟩

theorem inv_ok (x : Fe) : Fp.inv x.n = .ok (x⁻¹).n := by
  have key : ∀ y, Fp.inv x.n = .ok y → y < p → Fp.inv x.n = .ok (x⁻¹).n := by
    intro y e hy
    have : x⁻¹ = ⟨y, hy⟩ := by
      show (match Fp.inv x.n with
        | .ok y => if h : y < p then (⟨y, h⟩ : Fe) else 0
        | _ => 0) = _
      rw [e]; simp only [dif_pos hy]
    rw [this, e]
  by_cases h : x.n = 0
  · exact key 0 (by rw [h]; exact inv_zero) p_pos
  · obtain ⟨y, e, hy, _⟩ := inv_spec x.lt h
    exact key y e hy

theorem toZ_inv (x : Fe) : (x⁻¹).toZ = x.toZ⁻¹ := by
  by_cases h : x.n = 0
  · have h1 := inv_ok x
    rw [h, inv_zero] at h1
    have h2 : x⁻¹ = 0 := ext (Res.ok.inj h1).symm
    have h3 : x = 0 := ext h
    rw [h2, toZ_zero, h3, toZ_zero, _root_.inv_zero]
  · obtain ⟨y, e, hy, hxy⟩ := inv_spec x.lt h
    have h1 := inv_ok x
    rw [e] at h1
    have h2 : y = (x⁻¹).n := Res.ok.inj h1
    rw [h2] at hxy
    exact eq_inv_of_mul_eq_one_right hxy

/-- `operator/`, zm.h:169 (`inv(out, y); out *= x`). -/
instance : Div Fe := ⟨fun x y => y⁻¹ * x⟩

theorem toZ_div (x y : Fe) : (x / y).toZ = x.toZ / y.toZ := by
  show (y⁻¹ * x).toZ = _
  rw [toZ_mul, toZ_inv, div_eq_mul_inv, mul_comm]

instance : NeZero p := ⟨by have := p_pos; omega⟩

/-- the canonical buffer of a residue (specification side) -/
noncomputable def ofZ (z : ZMod p) : Fe := ⟨(z * 2 ^ 256).val, ZMod.val_lt _⟩

theorem toZ_ofZ (z : ZMod p) : (ofZ z).toZ = z := by
  unfold toZ ofZ residue
  dsimp only
  rw [ZMod.natCast_val, ZMod.cast_id', id, mul_div_assoc, div_self two_pow_ne, mul_one]

theorem ofZ_toZ (x : Fe) : ofZ x.toZ = x := toZ_inj (toZ_ofZ _)

noncomputable instance : SMul ℕ Fe := ⟨fun n x => ofZ (n • x.toZ)⟩
noncomputable instance : SMul ℤ Fe := ⟨fun n x => ofZ (n • x.toZ)⟩
noncomputable instance : SMul ℚ≥0 Fe := ⟨fun n x => ofZ (n • x.toZ)⟩
noncomputable instance : SMul ℚ Fe := ⟨fun n x => ofZ (n • x.toZ)⟩
noncomputable instance : Pow Fe ℕ := ⟨fun x n => ofZ (x.toZ ^ n)⟩
noncomputable instance : Pow Fe ℤ := ⟨fun x n => ofZ (x.toZ ^ n)⟩
noncomputable instance : NatCast Fe := ⟨fun n => ofZ n⟩
noncomputable instance : IntCast Fe := ⟨fun n => ofZ n⟩
noncomputable instance : NNRatCast Fe := ⟨fun n => ofZ n⟩
noncomputable instance : RatCast Fe := ⟨fun n => ofZ n⟩

theorem toZ_nsmul (n : ℕ) (x : Fe) : (n • x).toZ = n • x.toZ := toZ_ofZ _
theorem toZ_zsmul (n : ℤ) (x : Fe) : (n • x).toZ = n • x.toZ := toZ_ofZ _
theorem toZ_nnqsmul (n : ℚ≥0) (x : Fe) : (n • x).toZ = n • x.toZ := toZ_ofZ _
theorem toZ_qsmul (n : ℚ) (x : Fe) : (n • x).toZ = n • x.toZ := toZ_ofZ _
theorem toZ_npow (x : Fe) (n : ℕ) : (x ^ n).toZ = x.toZ ^ n := toZ_ofZ _
theorem toZ_zpow (x : Fe) (n : ℤ) : (x ^ n).toZ = x.toZ ^ n := toZ_ofZ _
theorem toZ_natCast (n : ℕ) : (n : Fe).toZ = n := toZ_ofZ _
theorem toZ_intCast (n : ℤ) : (n : Fe).toZ = n := toZ_ofZ _
theorem toZ_nnratCast (n : ℚ≥0) : (n : Fe).toZ = n := toZ_ofZ _
theorem toZ_ratCast (n : ℚ) : (n : Fe).toZ = n := toZ_ofZ _

noncomputable instance : Field Fe :=
  toZ_inj.field toZ toZ_zero toZ_one toZ_add toZ_mul toZ_neg toZ_sub toZ_inv toZ_div
    (fun n x => toZ_nsmul n x) (fun n x => toZ_zsmul n x) (fun n x => toZ_nnqsmul n x)
    (fun n x => toZ_qsmul n x) toZ_npow toZ_zpow toZ_natCast toZ_intCast toZ_nnratCast toZ_ratCast

/-- The field of canonical buffers is the prime field. -/
noncomputable def equivZ : Fe ≃+* ZMod p where
  toFun := toZ
  invFun := ofZ
  left_inv := ofZ_toZ
  right_inv := toZ_ofZ
  map_mul' := toZ_mul
  map_add' := toZ_add

end Fe
end Verif
