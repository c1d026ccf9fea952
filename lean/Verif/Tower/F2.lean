import Verif.Tower.DblLemmas
import Verif.Tower.MkField
import Mathlib.NumberTheory.LegendreSymbol.Basic
import Mathlib.Algebra.CharP.Lemmas
import Mathlib.Tactic.LinearCombination

/-!
`Fp2T` on canonical values: the modelled code as the operations of a field `F2`.
-/

namespace Verif
open Fp

/-- Both components canonical. -/
def R2.Canon (x : R2) : Prop := x.a < p ∧ x.b < p

instance (x : R2) : Decidable x.Canon := by unfold R2.Canon; infer_instance

/-- A canonical `Fp2` object. -/
structure F2 where
  a : Fe
  b : Fe
  deriving DecidableEq

namespace F2

/-- the buffers of the object -/
def raw (x : F2) : R2 := ⟨x.a.n, x.b.n⟩
/-- a canonical pair of buffers as an object -/
def ofRaw (r : R2) (h : r.Canon) : F2 := ⟨⟨r.a, h.1⟩, ⟨r.b, h.2⟩⟩

theorem raw_canon (x : F2) : x.raw.Canon := ⟨x.a.lt, x.b.lt⟩
theorem raw_ofRaw {r : R2} (h : r.Canon) : (ofRaw r h).raw = r := rfl
@[ext] theorem ext {x y : F2} (h1 : x.a = y.a) (h2 : x.b = y.b) : x = y := by
  cases x; cases y; cases h1; cases h2; rfl
theorem raw_inj {x y : F2} (h : x.raw = y.raw) : x = y := by
  have h1 := congrArg R2.a h
  have h2 := congrArg R2.b h
  exact ext (Fe.ext h1) (Fe.ext h2)

end F2

namespace Fp2

theorem mul_spec {x y : R2} (hx : x.Canon) (hy : y.Canon) : (mul x y).Canon ∧
    residue (mul x y).a = residue x.a * residue y.a - residue x.b * residue y.b ∧
    residue (mul x y).b = residue x.a * residue y.b + residue x.b * residue y.a := by
  obtain ⟨hxa, hxb⟩ := hx
  obtain ⟨hya, hyb⟩ := hy
  unfold mul
  dsimp only
  rw [karat (by omega) (by omega) (by omega) (by omega), dmul (x := x.a) (by omega) (by omega),
    dmul (x := x.b) (by omega) (by omega)]
  have hq := pN_qN
  have h1 := prod_lt hxa hya
  have h2 := prod_lt hxb hyb
  have h3 := prod_lt hxa hyb
  have h4 := prod_lt hxb hya
  obtain ⟨h5, h6⟩ := dsub (x := x.a * y.a) (y := x.b * y.b) (by omega) (by omega)
  obtain ⟨h7, h8⟩ := dmod h5
  obtain ⟨h9, h10⟩ := dmod (x := x.a * y.b + x.b * y.a) (by omega)
  refine ⟨⟨h7, h9⟩, ?_, ?_⟩
  · rw [h8, h6, residueD_mul, residueD_mul]
  · rw [h10, residueD_add, residueD_mul, residueD_mul]

theorem dSquare_spec {x : R2} (hx : x.Canon) : (dSquare x).a < pN ∧ (dSquare x).b < pN ∧
    residueD (dSquare x).a = residue x.a * residue x.a - residue x.b * residue x.b ∧
    residueD (dSquare x).b = residue x.a * residue x.b + residue x.b * residue x.a := by
  obtain ⟨hxa, hxb⟩ := hx
  have h4 := p_lt_W
  unfold dSquare
  dsimp only
  rw [pTbl1_val, anc (x := x.b) (y := x.b) (by omega), anc (x := x.a) (y := p) (by omega),
    anc (x := x.a) (y := x.b) (by omega), subNC_val (by omega) (by omega),
    dmul (by omega) (by omega), dmul (by omega) (by omega)]
  refine ⟨prod_lt2 (by omega) (by omega), prod_lt2 (by omega) (by omega), ?_, ?_⟩
  · rw [residueD_mul, residue_plus, residue_minus (by omega), residue_p]; ring
  · rw [residueD_mul, residue_plus]; ring

theorem square_spec {x : R2} (hx : x.Canon) : (square x).Canon ∧
    residue (square x).a = residue x.a * residue x.a - residue x.b * residue x.b ∧
    residue (square x).b = residue x.a * residue x.b + residue x.b * residue x.a := by
  obtain ⟨hxa, hxb⟩ := hx
  have h4 := p_lt_W
  unfold square
  dsimp only
  rw [pTbl1_val, anc (x := x.b) (y := x.b) (by omega), anc (x := x.a) (y := p) (by omega),
    anc (x := x.a) (y := x.b) (by omega), subNC_val (by omega) (by omega),
    dmul (by omega) (by omega), dmul (by omega) (by omega)]
  obtain ⟨h7, h8⟩ := dmod (x := (x.a + p - x.b) * (x.a + x.b)) (prod_lt2 (by omega) (by omega))
  obtain ⟨h9, h10⟩ := dmod (x := (x.b + x.b) * x.a) (prod_lt2 (by omega) (by omega))
  refine ⟨⟨h7, h9⟩, ?_, ?_⟩
  · rw [h8, residueD_mul, residue_plus, residue_minus (by omega), residue_p]; ring
  · rw [h10, residueD_mul, residue_plus]; ring

end Fp2

namespace F2

/-- `Fp2::add` -/
instance : Add F2 := ⟨fun x y => ofRaw (Fp2.add x.raw y.raw) ⟨add_lt x.a.lt y.a.lt, add_lt x.b.lt y.b.lt⟩⟩
/-- `Fp2::sub` -/
instance : Sub F2 := ⟨fun x y => ofRaw (Fp2.sub x.raw y.raw) ⟨sub_lt x.a.lt y.a.lt, sub_lt x.b.lt y.b.lt⟩⟩
/-- `Fp2::neg` -/
instance : Neg F2 := ⟨fun x => ofRaw (Fp2.neg x.raw) ⟨neg_lt x.a.lt, neg_lt x.b.lt⟩⟩
/-- `Fp2::mul` -/
instance : Mul F2 := ⟨fun x y => ofRaw (Fp2.mul x.raw y.raw) (Fp2.mul_spec x.raw_canon y.raw_canon).1⟩
/-- `Fp2(0)`, bn.h:354 -/
instance : Zero F2 := ⟨⟨0, 0⟩⟩
/-- `Fp2(1)`, bn.h:354 -/
instance : One F2 := ⟨⟨1, 0⟩⟩

/-- `Fp2::square`, generated code -/
def square (x : F2) : F2 := ofRaw (Fp2.square x.raw) (Fp2.square_spec x.raw_canon).1
/-- `Fp2::mul_xi` -/
def mulXi (x : F2) : F2 :=
  ofRaw (Fp2.mulXi x.raw) ⟨sub_lt x.a.lt x.b.lt, add_lt x.a.lt x.b.lt⟩
/-- `Fp2::divBy2` -/
def divBy2 (x : F2) : F2 := ofRaw (Fp2.divBy2 x.raw) ⟨(divBy2_spec x.a.lt).1, (divBy2_spec x.b.lt).1⟩
/-- `Fp2::divBy4` -/
def divBy4 (x : F2) : F2 := ofRaw (Fp2.divBy4 x.raw) ⟨(divBy4_spec x.a.lt).1, (divBy4_spec x.b.lt).1⟩
/-- `Fp2::mul_Fp_0` -/
def mulFp0 (x : F2) (y : Fe) : F2 :=
  ofRaw (Fp2.mulFp0 x.raw y.n) ⟨mul_lt x.a.lt y.lt, mul_lt x.b.lt y.lt⟩
/-- `Fp2::mul_x`, bn.h:561-566 -/
def mulX (x : F2) : F2 := ⟨-x.b, x.a⟩
/-- `Fp2::mul_Fp_1`, bn.h:575-581 -/
def mulFp1 (z : F2) (y : Fe) : F2 := ⟨-(z.b * y), z.a * y⟩
/-- `Fp2::inverse`, bn.h:505-514 -/
instance : Inv F2 := ⟨fun x =>
  let t := x.b * x.b
  let aa := x.a * x.a
  let t := t + aa
  let t := t⁻¹
  ⟨x.a * t, (-x.b) * t⟩⟩
/-- `Fp2::isZero`, bn.h:364 -/
def isZero (x : F2) : Bool := Fp.isZero x.a.n && Fp.isZero x.b.n
/-- `Fp2::operator==`, bn.h:537 -/
def eq (x y : F2) : Bool := Fp.eq x.a.n y.a.n && Fp.eq x.b.n y.b.n

theorem add_a (x y : F2) : (x + y).a = x.a + y.a := rfl
theorem add_b (x y : F2) : (x + y).b = x.b + y.b := rfl
theorem sub_a (x y : F2) : (x - y).a = x.a - y.a := rfl
theorem sub_b (x y : F2) : (x - y).b = x.b - y.b := rfl
theorem neg_a (x : F2) : (-x).a = -x.a := rfl
theorem neg_b (x : F2) : (-x).b = -x.b := rfl
theorem zero_a : (0 : F2).a = 0 := rfl
theorem zero_b : (0 : F2).b = 0 := rfl
theorem one_a : (1 : F2).a = 1 := rfl
theorem one_b : (1 : F2).b = 0 := rfl
theorem mul_a (x y : F2) : (x * y).a = x.a * y.a - x.b * y.b := by
  apply Fe.toZ_inj
  rw [Fe.toZ_sub, Fe.toZ_mul, Fe.toZ_mul]
  exact (Fp2.mul_spec x.raw_canon y.raw_canon).2.1
theorem mul_b (x y : F2) : (x * y).b = x.a * y.b + x.b * y.a := by
  apply Fe.toZ_inj
  rw [Fe.toZ_add, Fe.toZ_mul, Fe.toZ_mul]
  exact (Fp2.mul_spec x.raw_canon y.raw_canon).2.2

theorem square_eq (x : F2) : x.square = x * x := by
  have h := (Fp2.square_spec x.raw_canon).2
  refine ext ?_ ?_
  · apply Fe.toZ_inj
    rw [mul_a, Fe.toZ_sub, Fe.toZ_mul, Fe.toZ_mul]; exact h.1
  · apply Fe.toZ_inj
    rw [mul_b, Fe.toZ_add, Fe.toZ_mul, Fe.toZ_mul]; exact h.2


theorem mulXi_eq (x : F2) : x.mulXi = ⟨x.a - x.b, x.a + x.b⟩ := rfl

theorem divBy2_eq (x : F2) : x.divBy2 = ⟨x.a / 2, x.b / 2⟩ := by
  have h2 : (2 : Fe).toZ = 2 := by
    have := Fe.toZ_natCast 2
    push_cast at this
    exact this
  refine ext ?_ ?_
  · apply Fe.toZ_inj
    rw [Fe.toZ_div, h2]; exact residue_divBy2 x.a.lt
  · apply Fe.toZ_inj
    rw [Fe.toZ_div, h2]; exact residue_divBy2 x.b.lt

theorem divBy4_eq (x : F2) : x.divBy4 = ⟨x.a / 4, x.b / 4⟩ := by
  have h4 : (4 : Fe).toZ = 4 := by
    have := Fe.toZ_natCast 4
    push_cast at this
    exact this
  refine ext ?_ ?_
  · apply Fe.toZ_inj
    rw [Fe.toZ_div, h4]; exact residue_divBy4 x.a.lt
  · apply Fe.toZ_inj
    rw [Fe.toZ_div, h4]; exact residue_divBy4 x.b.lt

theorem mulFp0_eq (x : F2) (y : Fe) : x.mulFp0 y = ⟨x.a * y, x.b * y⟩ := rfl

noncomputable instance : NatCast F2 := ⟨fun n => ⟨n, 0⟩⟩
noncomputable instance : IntCast F2 := ⟨fun n => ⟨n, 0⟩⟩

theorem natCast_a (n : ℕ) : (n : F2).a = n := rfl
theorem natCast_b (n : ℕ) : (n : F2).b = 0 := rfl
theorem intCast_a (n : ℤ) : (n : F2).a = n := rfl
theorem intCast_b (n : ℤ) : (n : F2).b = 0 := rfl

noncomputable instance : CommRing F2 where
  add_assoc x y z := by ext1 <;> simp only [add_a, add_b] <;> ring
  zero_add x := by ext1 <;> simp only [add_a, add_b, zero_a, zero_b] <;> ring
  add_zero x := by ext1 <;> simp only [add_a, add_b, zero_a, zero_b] <;> ring
  add_comm x y := by ext1 <;> simp only [add_a, add_b] <;> ring
  neg_add_cancel x := by ext1 <;> simp only [add_a, add_b, neg_a, neg_b, zero_a, zero_b] <;> ring
  sub_eq_add_neg x y := by ext1 <;> simp only [add_a, add_b, neg_a, neg_b, sub_a, sub_b] <;> ring
  mul_assoc x y z := by ext1 <;> simp only [mul_a, mul_b] <;> ring
  mul_comm x y := by ext1 <;> simp only [mul_a, mul_b] <;> ring
  one_mul x := by ext1 <;> simp only [mul_a, mul_b, one_a, one_b] <;> ring
  mul_one x := by ext1 <;> simp only [mul_a, mul_b, one_a, one_b] <;> ring
  left_distrib x y z := by ext1 <;> simp only [mul_a, mul_b, add_a, add_b] <;> ring
  right_distrib x y z := by ext1 <;> simp only [mul_a, mul_b, add_a, add_b] <;> ring
  zero_mul x := by ext1 <;> simp only [mul_a, mul_b, zero_a, zero_b] <;> ring
  mul_zero x := by ext1 <;> simp only [mul_a, mul_b, zero_a, zero_b] <;> ring
  nsmul := nsmulRec
  zsmul := zsmulRec
  natCast_zero := by ext1 <;> simp only [natCast_a, natCast_b, zero_a, zero_b, Nat.cast_zero]
  natCast_succ n := by
    ext1 <;> simp only [natCast_a, natCast_b, add_a, add_b, one_a, one_b, Nat.cast_succ, add_zero]
  intCast_ofNat n := by ext1 <;> simp only [natCast_a, natCast_b, intCast_a, intCast_b, Int.cast_natCast]
  intCast_negSucc n := by
    ext1 <;> simp only [natCast_a, natCast_b, intCast_a, intCast_b, neg_a, neg_b, Int.cast_negSucc, neg_zero]

/-- u, the square root of -1 -/
def u : F2 := ⟨0, 1⟩
/-- xi = 1 + u, bn.h:212 (`Fp2 xi(1, 1)`) -/
def xi : F2 := ⟨1, 1⟩
/-- embedding of Fp -/
def ofFe (x : Fe) : F2 := ⟨x, 0⟩

theorem u_mul_u : u * u = -1 := by ext1 <;> simp only [mul_a, mul_b, neg_a, neg_b, one_a, one_b, u] <;> ring
theorem eq_ofFe (x : F2) : x = ofFe x.a + ofFe x.b * u := by
  ext1 <;> simp only [mul_a, mul_b, add_a, add_b, u, ofFe] <;> ring

theorem mulXi_mul (x : F2) : x.mulXi = xi * x := by
  rw [mulXi_eq]; ext1 <;> simp only [mul_a, mul_b, xi] <;> ring
theorem divBy2_mul (x : F2) : x.divBy2 * 2 = x := by
  have h2 : (2 : Fe) ≠ 0 := by
    intro h
    have := congrArg Fe.toZ h
    rw [show (2 : Fe).toZ = 2 from by have := Fe.toZ_natCast 2; push_cast at this; exact this,
      Fe.toZ_zero] at this
    exact two_ne this
  have e : (2 : F2) = ⟨2, 0⟩ := by
    rw [show (2 : F2) = 1 + 1 by ring]
    ext1 <;> simp only [add_a, add_b, one_a, one_b] <;> ring
  rw [divBy2_eq, e]; ext1 <;> simp only [mul_a, mul_b] <;> field_simp <;> ring
theorem divBy4_mul (x : F2) : x.divBy4 * 4 = x := by
  have h2 : (2 : Fe) ≠ 0 := by
    intro h
    have := congrArg Fe.toZ h
    rw [show (2 : Fe).toZ = 2 from by have := Fe.toZ_natCast 2; push_cast at this; exact this,
      Fe.toZ_zero] at this
    exact two_ne this
  have e : (4 : F2) = ⟨2 + 2, 0⟩ := by
    rw [show (4 : F2) = 1 + 1 + (1 + 1) by ring]
    ext1 <;> simp only [add_a, add_b, one_a, one_b] <;> ring
  have h4 : (4 : Fe) = 2 * 2 := by ring
  rw [divBy4_eq, e]; ext1 <;> simp only [mul_a, mul_b] <;> rw [h4] <;> field_simp <;> ring
theorem mulFp0_mul (x : F2) (y : Fe) : x.mulFp0 y = x * ofFe y := by
  rw [mulFp0_eq]; ext1 <;> simp only [mul_a, mul_b, ofFe] <;> ring
theorem mulX_mul (x : F2) : x.mulX = x * u := by
  ext1 <;> simp only [mul_a, mul_b, u, mulX] <;> ring
theorem mulFp1_mul (x : F2) (y : Fe) : x.mulFp1 y = x * (ofFe y * u) := by
  ext1 <;> simp only [mul_a, mul_b, u, mulFp1, ofFe] <;> ring

/-- the norm a^2 + b^2 -/
def norm (x : F2) : Fe := x.a * x.a + x.b * x.b

theorem norm_mul (x y : F2) : (x * y).norm = x.norm * y.norm := by
  simp only [norm, mul_a, mul_b]; ring

theorem neg_one_not_square (x : Fe) : x * x ≠ -1 := by
  intro h
  have h1 := congrArg Fe.toZ h
  rw [Fe.toZ_mul, Fe.toZ_neg, Fe.toZ_one] at h1
  have := ZMod.mod_four_ne_three_of_sq_eq_neg_one (p := p) (y := x.toZ) (by rw [pow_two, h1])
  exact this (by rw [p_eq])

theorem norm_eq_zero {x : F2} (h : x.norm = 0) : x = 0 := by
  unfold norm at h
  by_cases hb : x.b = 0
  · rw [hb, mul_zero, add_zero, mul_self_eq_zero] at h
    exact ext h hb
  · exfalso
    apply neg_one_not_square (x.a / x.b)
    field_simp
    linear_combination h

theorem norm_ne {x : F2} (h : x ≠ 0) : x.norm ≠ 0 := fun h1 => h (norm_eq_zero h1)

theorem inv_def (x : F2) : x⁻¹ = ⟨x.a * (x.b * x.b + x.a * x.a)⁻¹, -x.b * (x.b * x.b + x.a * x.a)⁻¹⟩ := rfl

theorem mul_inv' {x : F2} (h : x ≠ 0) : x * x⁻¹ = 1 := by
  have h1 : x.b * x.b + x.a * x.a ≠ 0 := by
    have := norm_ne h
    unfold norm at this
    rwa [add_comm] at this
  rw [inv_def]
  generalize hN : x.b * x.b + x.a * x.a = N at *
  ext1 <;> simp only [mul_a, mul_b, one_a, one_b]
  · field_simp; linear_combination hN
  · field_simp; ring

theorem inv_zero' : (0 : F2)⁻¹ = 0 := by
  rw [inv_def]; ext1 <;> simp only [zero_a, zero_b] <;> simp

theorem zero_ne_one' : (0 : F2) ≠ 1 := by
  intro h
  have h1 : (0 : F2).a = (1 : F2).a := by rw [h]
  rw [zero_a, one_a] at h1
  exact zero_ne_one h1

instance : Nontrivial F2 := ⟨0, 1, zero_ne_one'⟩

noncomputable instance : Field F2 := mkField (fun x => x⁻¹) (fun _ h => mul_inv' h) inv_zero'

theorem isZero_iff (x : F2) : x.isZero = true ↔ x = 0 := by
  unfold isZero
  rw [Bool.and_eq_true, Fp.isZero_iff (lt_W x.a.lt), Fp.isZero_iff (lt_W x.b.lt)]
  constructor
  · rintro ⟨h1, h2⟩; exact ext (Fe.ext h1) (Fe.ext h2)
  · intro h; rw [h]; exact ⟨rfl, rfl⟩

theorem eq_iff (x y : F2) : eq x y = true ↔ x = y := by
  unfold eq
  rw [Bool.and_eq_true, Fp.eq_iff (lt_W x.a.lt) (lt_W y.a.lt), Fp.eq_iff (lt_W x.b.lt) (lt_W y.b.lt)]
  constructor
  · rintro ⟨h1, h2⟩; exact ext (Fe.ext h1) (Fe.ext h2)
  · intro h; rw [h]; exact ⟨rfl, rfl⟩

end F2
end Verif
