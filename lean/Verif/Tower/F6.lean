import Verif.Tower.Den6

/-!
`Fp6T` on canonical values: the modelled code as the operations of a field `F6` = F2[v]/(v^3 - xi).
-/

namespace Verif
open Fp

/-- A canonical `Fp6` object a + b v + c v^2. -/
structure F6 where
  a : F2
  b : F2
  c : F2
  deriving DecidableEq

namespace Fp6

theorem add_canon {x y : R6} (hx : x.Canon) (hy : y.Canon) : (add x y).Canon :=
  ⟨(Fp2.add_den hx.1 hy.1).1, (Fp2.add_den hx.2.1 hy.2.1).1, (Fp2.add_den hx.2.2 hy.2.2).1⟩
theorem sub_canon {x y : R6} (hx : x.Canon) (hy : y.Canon) : (sub x y).Canon :=
  ⟨(Fp2.sub_den hx.1 hy.1).1, (Fp2.sub_den hx.2.1 hy.2.1).1, (Fp2.sub_den hx.2.2 hy.2.2).1⟩
theorem mul_canon {x y : R6} (hx : x.Canon) (hy : y.Canon) : (mul x y).Canon :=
  have h := (dMul_den hx hy).1
  ⟨(Fp2.dMod_den h.1).1, (Fp2.dMod_den h.2.1).1, (Fp2.dMod_den h.2.2).1⟩

end Fp6

namespace F6

/-- the buffers of the object -/
def raw (x : F6) : R6 := ⟨x.a.raw, x.b.raw, x.c.raw⟩
/-- canonical buffers as an object -/
def ofRaw (r : R6) (h : r.Canon) : F6 := ⟨F2.ofRaw r.a h.1, F2.ofRaw r.b h.2.1, F2.ofRaw r.c h.2.2⟩

theorem raw_canon (x : F6) : x.raw.Canon := ⟨x.a.raw_canon, x.b.raw_canon, x.c.raw_canon⟩
theorem raw_ofRaw {r : R6} (h : r.Canon) : (ofRaw r h).raw = r := rfl
@[ext] theorem ext {x y : F6} (h1 : x.a = y.a) (h2 : x.b = y.b) (h3 : x.c = y.c) : x = y := by
  cases x; cases y; cases h1; cases h2; cases h3; rfl
theorem raw_inj {x y : F6} (h : x.raw = y.raw) : x = y :=
  ext (F2.raw_inj (congrArg R6.a h)) (F2.raw_inj (congrArg R6.b h)) (F2.raw_inj (congrArg R6.c h))

/-- `Fp6::add`, bn.h:881 -/
instance : Add F6 := ⟨fun x y => ofRaw (Fp6.add x.raw y.raw) (Fp6.add_canon x.raw_canon y.raw_canon)⟩
/-- `Fp6::sub`, bn.h:887 -/
instance : Sub F6 := ⟨fun x y => ofRaw (Fp6.sub x.raw y.raw) (Fp6.sub_canon x.raw_canon y.raw_canon)⟩
/-- `Fp6::neg`, bn.h:893 -/
instance : Neg F6 := ⟨fun x => ⟨-x.a, -x.b, -x.c⟩⟩
/-- `Fp6::mul`, bn.h:902 -/
instance : Mul F6 := ⟨fun x y => ofRaw (Fp6.mul x.raw y.raw) (Fp6.mul_canon x.raw_canon y.raw_canon)⟩
/-- `Fp6(0)`, bn.h:844 -/
instance : Zero F6 := ⟨⟨0, 0, 0⟩⟩
/-- `Fp6(1)`, bn.h:844 -/
instance : One F6 := ⟨⟨1, 0, 0⟩⟩

/-- `Fp6::square`, bn.h:914-934 -/
def square (x : F6) : F6 :=
  let v4 := x.a + x.a
  let v4 := v4 * x.b
  let v5 := x.c.square
  let zb := v5.mulXi
  let zb := zb + v4
  let zc := v4 - v5
  let v3 := x.a.square
  let v4 := x.a - x.b
  let v4 := v4 + x.c
  let v5 := x.b + x.b
  let v5 := v5 * x.c
  let v4 := v4.square
  let za := v5.mulXi
  let za := za + v3
  let zc := zc + v4
  let zc := zc + v5
  let zc := zc - v3
  ⟨za, zb, zc⟩

/-- `Fp6::inverse`, bn.h:937-964 -/
instance : Inv F6 := ⟨fun x =>
  let t0 := x.b * x.c
  let za := t0.mulXi
  let t0 := x.a.square
  let za := t0 - za
  let t1 := x.b.square
  let t5 := x.a * x.c
  let zc := t1 - t5
  let t2 := x.c.square
  let t4 := x.a * x.b
  let zb := t2.mulXi
  let zb := zb - t4
  let t1 := x.a * za
  let t5 := x.c * zb
  let t4 := t5.mulXi
  let t1 := t1 + t4
  let t5 := x.b * zc
  let t4 := t5.mulXi
  let t1 := t1 + t4
  let t1 := t1⁻¹
  ⟨za * t1, zb * t1, zc * t1⟩⟩

/-- `Fp6::isZero`, bn.h:876 -/
def isZero (x : F6) : Bool := x.a.isZero && x.b.isZero && x.c.isZero
/-- `Fp6::operator==`, bn.h:966 -/
def eq (x y : F6) : Bool := F2.eq x.a y.a && F2.eq x.b y.b && F2.eq x.c y.c

theorem add_a (x y : F6) : (x + y).a = x.a + y.a := rfl
theorem add_b (x y : F6) : (x + y).b = x.b + y.b := rfl
theorem add_c (x y : F6) : (x + y).c = x.c + y.c := rfl
theorem sub_a (x y : F6) : (x - y).a = x.a - y.a := rfl
theorem sub_b (x y : F6) : (x - y).b = x.b - y.b := rfl
theorem sub_c (x y : F6) : (x - y).c = x.c - y.c := rfl
theorem neg_a (x : F6) : (-x).a = -x.a := rfl
theorem neg_b (x : F6) : (-x).b = -x.b := rfl
theorem neg_c (x : F6) : (-x).c = -x.c := rfl
theorem zero_a : (0 : F6).a = 0 := rfl
theorem zero_b : (0 : F6).b = 0 := rfl
theorem zero_c : (0 : F6).c = 0 := rfl
theorem one_a : (1 : F6).a = 1 := rfl
theorem one_b : (1 : F6).b = 0 := rfl
theorem one_c : (1 : F6).c = 0 := rfl

theorem mul_spec (x y : F6) :
    (x * y).a = x.a * y.a + F2.xi * (x.b * y.c + x.c * y.b) ∧
    (x * y).b = x.a * y.b + x.b * y.a + F2.xi * (x.c * y.c) ∧
    (x * y).c = x.a * y.c + x.b * y.b + x.c * y.a := by
  obtain ⟨h, ha, hb, hc⟩ := Fp6.dMul_den x.raw_canon y.raw_canon
  obtain ⟨a1, a2⟩ := Fp2.dMod_den h.1
  obtain ⟨b1, b2⟩ := Fp2.dMod_den h.2.1
  obtain ⟨c1, c2⟩ := Fp2.dMod_den h.2.2
  have e1 : x.raw.a.den = x.a := F2.den_raw x.a
  have e2 : x.raw.b.den = x.b := F2.den_raw x.b
  have e3 : x.raw.c.den = x.c := F2.den_raw x.c
  have e4 : y.raw.a.den = y.a := F2.den_raw y.a
  have e5 : y.raw.b.den = y.b := F2.den_raw y.b
  have e6 : y.raw.c.den = y.c := F2.den_raw y.c
  rw [e1, e2, e3, e4, e5, e6] at ha
  rw [e1, e2, e3, e4, e5, e6] at hb
  rw [e1, e2, e3, e4, e5, e6] at hc
  refine ⟨?_, ?_, ?_⟩
  · rw [← ha, ← a2]; exact F2.ofRaw_eq a1
  · rw [← hb, ← b2]; exact F2.ofRaw_eq b1
  · rw [← hc, ← c2]; exact F2.ofRaw_eq c1

theorem mul_a (x y : F6) : (x * y).a = x.a * y.a + F2.xi * (x.b * y.c + x.c * y.b) := (mul_spec x y).1
theorem mul_b (x y : F6) : (x * y).b = x.a * y.b + x.b * y.a + F2.xi * (x.c * y.c) := (mul_spec x y).2.1
theorem mul_c (x y : F6) : (x * y).c = x.a * y.c + x.b * y.b + x.c * y.a := (mul_spec x y).2.2

theorem square_eq (x : F6) : x.square = x * x := by
  unfold square
  simp only [F2.square_eq, F2.mulXi_mul]
  ext1 <;> simp only [mul_a, mul_b, mul_c] <;> ring

noncomputable instance : NatCast F6 := ⟨fun n => ⟨n, 0, 0⟩⟩
noncomputable instance : IntCast F6 := ⟨fun n => ⟨n, 0, 0⟩⟩

theorem natCast_a (n : ℕ) : (n : F6).a = n := rfl
theorem natCast_b (n : ℕ) : (n : F6).b = 0 := rfl
theorem natCast_c (n : ℕ) : (n : F6).c = 0 := rfl
theorem intCast_a (n : ℤ) : (n : F6).a = n := rfl
theorem intCast_b (n : ℤ) : (n : F6).b = 0 := rfl
theorem intCast_c (n : ℤ) : (n : F6).c = 0 := rfl

noncomputable instance : CommRing F6 where
  add_assoc x y z := by ext1 <;> simp only [add_a, add_b, add_c] <;> ring
  zero_add x := by ext1 <;> simp only [add_a, add_b, add_c, zero_a, zero_b, zero_c] <;> ring
  add_zero x := by ext1 <;> simp only [add_a, add_b, add_c, zero_a, zero_b, zero_c] <;> ring
  add_comm x y := by ext1 <;> simp only [add_a, add_b, add_c] <;> ring
  neg_add_cancel x := by
    ext1 <;> simp only [add_a, add_b, add_c, neg_a, neg_b, neg_c, zero_a, zero_b, zero_c] <;> ring
  sub_eq_add_neg x y := by
    ext1 <;> simp only [add_a, add_b, add_c, neg_a, neg_b, neg_c, sub_a, sub_b, sub_c] <;> ring
  mul_assoc x y z := by ext1 <;> simp only [mul_a, mul_b, mul_c] <;> ring
  mul_comm x y := by ext1 <;> simp only [mul_a, mul_b, mul_c] <;> ring
  one_mul x := by ext1 <;> simp only [mul_a, mul_b, mul_c, one_a, one_b, one_c] <;> ring
  mul_one x := by ext1 <;> simp only [mul_a, mul_b, mul_c, one_a, one_b, one_c] <;> ring
  left_distrib x y z := by ext1 <;> simp only [mul_a, mul_b, mul_c, add_a, add_b, add_c] <;> ring
  right_distrib x y z := by ext1 <;> simp only [mul_a, mul_b, mul_c, add_a, add_b, add_c] <;> ring
  zero_mul x := by ext1 <;> simp only [mul_a, mul_b, mul_c, zero_a, zero_b, zero_c] <;> ring
  mul_zero x := by ext1 <;> simp only [mul_a, mul_b, mul_c, zero_a, zero_b, zero_c] <;> ring
  nsmul := nsmulRec
  zsmul := zsmulRec
  natCast_zero := by
    ext1 <;> simp only [natCast_a, natCast_b, natCast_c, zero_a, zero_b, zero_c, Nat.cast_zero]
  natCast_succ n := by
    ext1 <;> simp only [natCast_a, natCast_b, natCast_c, add_a, add_b, add_c, one_a, one_b, one_c,
      Nat.cast_succ, add_zero]
  intCast_ofNat n := by
    ext1 <;> simp only [natCast_a, natCast_b, natCast_c, intCast_a, intCast_b, intCast_c, Int.cast_natCast]
  intCast_negSucc n := by
    ext1 <;> simp only [natCast_a, natCast_b, natCast_c, intCast_a, intCast_b, intCast_c, neg_a, neg_b,
      neg_c, Int.cast_negSucc, neg_zero]

/-- v, the cube root of xi -/
def v : F6 := ⟨0, 1, 0⟩
/-- embedding of F2 -/
def ofF2 (x : F2) : F6 := ⟨x, 0, 0⟩

theorem v_cube : v * v * v = ofF2 F2.xi := by
  ext1 <;> simp only [mul_a, mul_b, mul_c, v, ofF2] <;> ring
theorem eq_ofF2 (x : F6) : x = ofF2 x.a + ofF2 x.b * v + ofF2 x.c * (v * v) := by
  ext1 <;> simp only [mul_a, mul_b, mul_c, add_a, add_b, add_c, v, ofF2] <;> ring

end F6

theorem Fe.two_toZ : (2 : Fe).toZ = 2 := by have := Fe.toZ_natCast 2; push_cast at this; exact this

theorem F2.norm_xi : F2.xi.norm = 2 := by
  simp only [F2.norm, F2.xi]; ring

theorem two_pow_third : (2 : ZMod p) ^ ((p - 1) / 3) ≠ 1 := by
  have h := powMod_eq p 256 2 ((p - 1) / 3) (by rw [p_eq]; norm_num)
  have h2 : powMod p 256 2 ((p - 1) / 3) ≠ 1 := by decide +kernel
  rw [h] at h2
  intro h3
  apply h2
  have h4 : ((2 ^ ((p - 1) / 3) : ℕ) : ZMod p) = ((1 : ℕ) : ZMod p) := by push_cast; exact h3
  have h5 := (ZMod.natCast_eq_natCast_iff' _ _ _).1 h4
  rw [h5, Nat.mod_eq_of_lt (by rw [p_eq]; norm_num)]

theorem two_pow_half : (2 : ZMod p) ^ ((p - 1) / 2) ≠ 1 := by
  have h := powMod_eq p 256 2 ((p - 1) / 2) (by rw [p_eq]; norm_num)
  have h2 : powMod p 256 2 ((p - 1) / 2) ≠ 1 := by decide +kernel
  rw [h] at h2
  intro h3
  apply h2
  have h4 : ((2 ^ ((p - 1) / 2) : ℕ) : ZMod p) = ((1 : ℕ) : ZMod p) := by push_cast; exact h3
  have h5 := (ZMod.natCast_eq_natCast_iff' _ _ _).1 h4
  rw [h5, Nat.mod_eq_of_lt (by rw [p_eq]; norm_num)]

theorem zmod_pow_card_sub {x : ZMod p} (hx : x ≠ 0) : x ^ (p - 1) = 1 := ZMod.pow_card_sub_one_eq_one hx

theorem two_not_cube (x : Fe) : x * x * x ≠ 2 := by
  intro h
  have h1 := congrArg Fe.toZ h
  rw [Fe.toZ_mul, Fe.toZ_mul, Fe.two_toZ] at h1
  have hx : x.toZ ≠ 0 := by
    intro h0; rw [h0] at h1; apply two_ne; rw [← h1]; ring
  apply two_pow_third
  rw [← h1, show x.toZ * x.toZ * x.toZ = x.toZ ^ 3 by ring, ← pow_mul,
    show 3 * ((p - 1) / 3) = p - 1 by rw [p_eq], zmod_pow_card_sub hx]

theorem two_not_square (x : Fe) : x * x ≠ 2 := by
  intro h
  have h1 := congrArg Fe.toZ h
  rw [Fe.toZ_mul, Fe.two_toZ] at h1
  have hx : x.toZ ≠ 0 := by
    intro h0; rw [h0] at h1; apply two_ne; rw [← h1]; ring
  apply two_pow_half
  rw [← h1, show x.toZ * x.toZ = x.toZ ^ 2 by ring, ← pow_mul,
    show 2 * ((p - 1) / 2) = p - 1 by rw [p_eq], zmod_pow_card_sub hx]

theorem F2.xi_not_cube (x : F2) : x * x * x ≠ F2.xi := by
  intro h
  have h1 := congrArg F2.norm h
  rw [F2.norm_mul, F2.norm_mul, F2.norm_xi] at h1
  exact two_not_cube _ h1

theorem F2.xi_not_square (x : F2) : x * x ≠ F2.xi := by
  intro h
  have h1 := congrArg F2.norm h
  rw [F2.norm_mul, F2.norm_xi] at h1
  exact two_not_square _ h1

theorem F2.xi_ne : F2.xi ≠ 0 := by
  intro h; exact F2.xi_not_cube 0 (by rw [h]; ring)

namespace F6

/-- the norm to F2 -/
noncomputable def norm (x : F6) : F2 :=
  x.a * x.a * x.a + F2.xi * (x.b * x.b * x.b) + F2.xi * F2.xi * (x.c * x.c * x.c)
    - 3 * F2.xi * (x.a * x.b * x.c)

theorem norm_mul (x y : F6) : (x * y).norm = x.norm * y.norm := by
  simp only [norm, mul_a, mul_b, mul_c]; ring

/-- f + e v has nonzero norm unless f = e = 0. -/
theorem lin_zero {f e : F2} (h : f * f * f + F2.xi * (e * e * e) = 0) : f = 0 ∧ e = 0 := by
  by_cases he : e = 0
  · refine ⟨?_, he⟩
    rw [he] at h
    have : f * f * f = 0 := by linear_combination h
    simpa using this
  · exfalso
    apply F2.xi_not_cube (-f / e)
    field_simp
    linear_combination -h

theorem norm_eq_zero {x : F6} (h : x.norm = 0) : x = 0 := by
  -- x (c v - b) = (xi c^2 - a b) + (a c - b^2) v
  have h1 : (x * ⟨-x.b, x.c, 0⟩).norm = 0 := by rw [norm_mul, h, zero_mul]
  have h2 : x * ⟨-x.b, x.c, 0⟩ = ⟨F2.xi * (x.c * x.c) - x.a * x.b, x.a * x.c - x.b * x.b, 0⟩ := by
    ext1 <;> simp only [mul_a, mul_b, mul_c] <;> ring
  rw [h2] at h1
  have h3 := lin_zero (f := F2.xi * (x.c * x.c) - x.a * x.b) (e := x.a * x.c - x.b * x.b) (by
    unfold norm at h1; linear_combination h1)
  obtain ⟨h4, h5⟩ := h3
  by_cases hc : x.c = 0
  · rw [hc] at h5
    have hb : x.b = 0 := by
      have : x.b * x.b = 0 := by linear_combination -h5
      simpa using this
    have ha : x.a = 0 := by
      unfold norm at h; rw [hb, hc] at h
      have : x.a * x.a * x.a = 0 := by linear_combination h
      simpa using this
    exact ext ha hb hc
  · exfalso
    -- a = b^2/c, xi c^2 = b^3/c
    apply F2.xi_not_cube (x.b / x.c)
    field_simp
    linear_combination (-x.b) * h5 - x.c * h4

theorem norm_ne {x : F6} (h : x ≠ 0) : x.norm ≠ 0 := fun h1 => h (norm_eq_zero h1)

theorem inv_def (x : F6) : x⁻¹ =
    ⟨(x.a * x.a - F2.xi * (x.b * x.c)) * x.norm⁻¹, (F2.xi * (x.c * x.c) - x.a * x.b) * x.norm⁻¹,
      (x.b * x.b - x.a * x.c) * x.norm⁻¹⟩ := by
  have e : x.norm = x.a * (x.a * x.a - F2.xi * (x.b * x.c)) +
      F2.xi * (x.c * (F2.xi * (x.c * x.c) - x.a * x.b)) + F2.xi * (x.b * (x.b * x.b - x.a * x.c)) := by
    unfold norm; ring
  rw [e]
  simp only [← F2.square_eq, ← F2.mulXi_mul]
  rfl

theorem mul_inv' {x : F6} (h : x ≠ 0) : x * x⁻¹ = 1 := by
  have h1 := norm_ne h
  rw [inv_def]
  generalize hN : x.norm = N at *
  unfold norm at hN
  ext1 <;> simp only [mul_a, mul_b, mul_c, one_a, one_b, one_c] <;> field_simp
  · linear_combination hN
  · ring
  · ring

theorem inv_zero' : (0 : F6)⁻¹ = 0 := by
  rw [inv_def]; ext1 <;> simp only [zero_a, zero_b, zero_c] <;> ring

theorem zero_ne_one' : (0 : F6) ≠ 1 := by
  intro h
  have h1 : (0 : F6).a = (1 : F6).a := by rw [h]
  rw [zero_a, one_a] at h1
  exact zero_ne_one h1

instance : Nontrivial F6 := ⟨0, 1, zero_ne_one'⟩

noncomputable instance : Field F6 := mkField (fun x => x⁻¹) (fun _ h => mul_inv' h) inv_zero'

theorem isZero_iff (x : F6) : x.isZero = true ↔ x = 0 := by
  unfold isZero
  rw [Bool.and_eq_true, Bool.and_eq_true, F2.isZero_iff, F2.isZero_iff, F2.isZero_iff]
  constructor
  · rintro ⟨⟨h1, h2⟩, h3⟩; exact ext h1 h2 h3
  · intro h; rw [h]; exact ⟨⟨rfl, rfl⟩, rfl⟩

theorem eq_iff (x y : F6) : eq x y = true ↔ x = y := by
  unfold eq
  rw [Bool.and_eq_true, Bool.and_eq_true, F2.eq_iff, F2.eq_iff, F2.eq_iff]
  constructor
  · rintro ⟨⟨h1, h2⟩, h3⟩; exact ext h1 h2 h3
  · intro h; rw [h]; exact ⟨⟨rfl, rfl⟩, rfl⟩

/-- v is not a square: its norm xi is not. -/
theorem v_not_square (x : F6) : x * x ≠ v := by
  intro h
  have h1 := congrArg norm h
  rw [norm_mul] at h1
  apply F2.xi_not_square x.norm
  rw [h1]; simp only [norm, v]; ring

end F6
end Verif
