import Verif.Tower.F6

/-!
`Fp12T` on canonical values: the modelled code as the operations of a field `F12` = F6[w]/(w^2 - v).
-/

namespace Verif
open Fp

def R12.Canon (x : R12) : Prop := x.a.Canon ∧ x.b.Canon

instance (x : R12) : Decidable x.Canon := by unfold R12.Canon; infer_instance

/-- the `F6` element denoted by raw buffers -/
noncomputable def R6.den (x : R6) : F6 := ⟨x.a.den, x.b.den, x.c.den⟩
/-- the `F6` element denoted by raw `Dbl` buffers -/
noncomputable def R6.denD (x : R6) : F6 := ⟨x.a.denD, x.b.denD, x.c.denD⟩

theorem F6.den_raw (x : F6) : x.raw.den = x := F6.ext (F2.den_raw _) (F2.den_raw _) (F2.den_raw _)
theorem F6.ofRaw_eq {r : R6} (h : r.Canon) : F6.ofRaw r h = r.den :=
  F6.ext (F2.ofRaw_eq h.1) (F2.ofRaw_eq h.2.1) (F2.ofRaw_eq h.2.2)

namespace Fp6

theorem add_den {x y : R6} (hx : x.Canon) (hy : y.Canon) :
    (add x y).Canon ∧ (add x y).den = x.den + y.den :=
  ⟨add_canon hx hy, F6.ext (Fp2.add_den hx.1 hy.1).2 (Fp2.add_den hx.2.1 hy.2.1).2
    (Fp2.add_den hx.2.2 hy.2.2).2⟩
theorem sub_den {x y : R6} (hx : x.Canon) (hy : y.Canon) :
    (sub x y).Canon ∧ (sub x y).den = x.den - y.den :=
  ⟨sub_canon hx hy, F6.ext (Fp2.sub_den hx.1 hy.1).2 (Fp2.sub_den hx.2.1 hy.2.1).2
    (Fp2.sub_den hx.2.2 hy.2.2).2⟩
theorem dAdd_den {x y : R6} (hx : x.RedD) (hy : y.RedD) :
    (dAdd x y).RedD ∧ (dAdd x y).denD = x.denD + y.denD :=
  ⟨⟨(Fp2.dAdd_den hx.1 hy.1).1, (Fp2.dAdd_den hx.2.1 hy.2.1).1, (Fp2.dAdd_den hx.2.2 hy.2.2).1⟩,
    F6.ext (Fp2.dAdd_den hx.1 hy.1).2 (Fp2.dAdd_den hx.2.1 hy.2.1).2 (Fp2.dAdd_den hx.2.2 hy.2.2).2⟩
theorem dSub_den {x y : R6} (hx : x.RedD) (hy : y.RedD) :
    (dSub x y).RedD ∧ (dSub x y).denD = x.denD - y.denD :=
  have h : ∀ {z : R2}, z.RedD → z.a ≤ pN ∧ z.b ≤ pN := fun h => ⟨h.1.le, h.2.le⟩
  ⟨⟨(Fp2.dSub_den hx.1 (h hy.1)).1, (Fp2.dSub_den hx.2.1 (h hy.2.1)).1, (Fp2.dSub_den hx.2.2 (h hy.2.2)).1⟩,
    F6.ext (Fp2.dSub_den hx.1 (h hy.1)).2 (Fp2.dSub_den hx.2.1 (h hy.2.1)).2
      (Fp2.dSub_den hx.2.2 (h hy.2.2)).2⟩
theorem dMod_den {x : R6} (hx : x.RedD) : (dMod x).Canon ∧ (dMod x).den = x.denD :=
  ⟨⟨(Fp2.dMod_den hx.1).1, (Fp2.dMod_den hx.2.1).1, (Fp2.dMod_den hx.2.2).1⟩,
    F6.ext (Fp2.dMod_den hx.1).2 (Fp2.dMod_den hx.2.1).2 (Fp2.dMod_den hx.2.2).2⟩
theorem dMul_den' {x y : R6} (hx : x.Canon) (hy : y.Canon) :
    (dMul x y).RedD ∧ (dMul x y).denD = x.den * y.den := by
  obtain ⟨h, ha, hb, hc⟩ := dMul_den hx hy
  refine ⟨h, F6.ext ?_ ?_ ?_⟩
  · rw [F6.mul_a]; simp only [R6.denD, R6.den]; exact ha
  · rw [F6.mul_b]; simp only [R6.denD, R6.den]; exact hb
  · rw [F6.mul_c]; simp only [R6.denD, R6.den]; exact hc
theorem mul_den {x y : R6} (hx : x.Canon) (hy : y.Canon) :
    (mul x y).Canon ∧ (mul x y).den = x.den * y.den := by
  obtain ⟨h1, h2⟩ := dMul_den' hx hy
  obtain ⟨h3, h4⟩ := dMod_den h1
  exact ⟨h3, h4.trans h2⟩
theorem mulGammaAdd_den {x y : R6} (hx : x.Canon) (hy : y.Canon) :
    (mulGammaAdd x y).Canon ∧ (mulGammaAdd x y).den = F6.v * x.den + y.den := by
  obtain ⟨h1, h2⟩ := Fp2.mulXi_den hx.2.2
  obtain ⟨h3, h4⟩ := Fp2.add_den h1 hy.1
  obtain ⟨h5, h6⟩ := Fp2.add_den hx.1 hy.2.1
  obtain ⟨h7, h8⟩ := Fp2.add_den hx.2.1 hy.2.2
  refine ⟨⟨h3, h5, h7⟩, F6.ext ?_ ?_ ?_⟩
  · refine h4.trans ?_
    rw [h2]; simp only [F6.add_a, F6.mul_a, F6.v, R6.den]; ring
  · refine h6.trans ?_
    simp only [F6.add_b, F6.mul_b, F6.v, R6.den]; ring
  · refine h8.trans ?_
    simp only [F6.add_c, F6.mul_c, F6.v, R6.den]; ring
theorem dMulGammaAdd_den {x y : R6} (hx : x.RedD) (hy : y.RedD) :
    (dMulGammaAdd x y).RedD ∧ (dMulGammaAdd x y).denD = F6.v * x.denD + y.denD := by
  obtain ⟨h1, h2⟩ := Fp2.dMulXi_den hx.2.2
  obtain ⟨h3, h4⟩ := Fp2.dAdd_den h1 hy.1
  obtain ⟨h5, h6⟩ := Fp2.dAdd_den hx.1 hy.2.1
  obtain ⟨h7, h8⟩ := Fp2.dAdd_den hx.2.1 hy.2.2
  refine ⟨⟨h3, h5, h7⟩, F6.ext ?_ ?_ ?_⟩
  · refine h4.trans ?_
    rw [h2]; simp only [F6.add_a, F6.mul_a, F6.v, R6.denD]; ring
  · refine h6.trans ?_
    simp only [F6.add_b, F6.mul_b, F6.v, R6.denD]; ring
  · refine h8.trans ?_
    simp only [F6.add_c, F6.mul_c, F6.v, R6.denD]; ring

end Fp6

namespace Fp12

theorem mul_den {x y : R12} (hx : x.Canon) (hy : y.Canon) : (mul x y).Canon ∧
    (mul x y).a.den = x.a.den * y.a.den + F6.v * (x.b.den * y.b.den) ∧
    (mul x y).b.den = x.a.den * y.b.den + x.b.den * y.a.den := by
  obtain ⟨a1, a2⟩ := Fp6.dMul_den' hx.1 hy.1
  obtain ⟨b1, b2⟩ := Fp6.dMul_den' hx.2 hy.2
  obtain ⟨c1, c2⟩ := Fp6.add_den hx.1 hx.2
  obtain ⟨d1, d2⟩ := Fp6.add_den hy.1 hy.2
  obtain ⟨e1, e2⟩ := Fp6.dMul_den' c1 d1
  obtain ⟨f1, f2⟩ := Fp6.dAdd_den a1 b1
  obtain ⟨g1, g2⟩ := Fp6.dSub_den e1 f1
  obtain ⟨h1, h2⟩ := Fp6.dMulGammaAdd_den b1 a1
  obtain ⟨i1, i2⟩ := Fp6.dMod_den h1
  obtain ⟨j1, j2⟩ := Fp6.dMod_den g1
  refine ⟨⟨i1, j1⟩, ?_, ?_⟩
  · refine i2.trans ?_
    rw [h2, a2, b2]; ring
  · refine j2.trans ?_
    rw [g2, f2, e2, c2, d2, a2, b2]; ring

theorem square_den {x : R12} (hx : x.Canon) : (square x).Canon ∧
    (square x).a.den = x.a.den * x.a.den + F6.v * (x.b.den * x.b.den) ∧
    (square x).b.den = x.a.den * x.b.den + x.b.den * x.a.den := by
  obtain ⟨a1, a2⟩ := Fp6.add_den hx.1 hx.2
  obtain ⟨b1, b2⟩ := Fp6.mulGammaAdd_den hx.2 hx.1
  obtain ⟨c1, c2⟩ := Fp6.mul_den hx.2 hx.1
  obtain ⟨d1, d2⟩ := Fp6.mul_den a1 b1
  obtain ⟨e1, e2⟩ := Fp6.mulGammaAdd_den c1 c1
  obtain ⟨f1, f2⟩ := Fp6.sub_den d1 e1
  obtain ⟨g1, g2⟩ := Fp6.add_den c1 c1
  refine ⟨⟨f1, g1⟩, ?_, ?_⟩
  · refine f2.trans ?_
    rw [e2, d2, c2, b2, a2]; ring
  · refine g2.trans ?_
    rw [c2]; ring

end Fp12

/-- A canonical `Fp12` object a + b w. -/
structure F12 where
  a : F6
  b : F6
  deriving DecidableEq

namespace F12

/-- the buffers of the object -/
def raw (x : F12) : R12 := ⟨x.a.raw, x.b.raw⟩
/-- canonical buffers as an object -/
def ofRaw (r : R12) (h : r.Canon) : F12 := ⟨F6.ofRaw r.a h.1, F6.ofRaw r.b h.2⟩

theorem raw_canon (x : F12) : x.raw.Canon := ⟨x.a.raw_canon, x.b.raw_canon⟩
theorem raw_ofRaw {r : R12} (h : r.Canon) : (ofRaw r h).raw = r := rfl
@[ext] theorem ext {x y : F12} (h1 : x.a = y.a) (h2 : x.b = y.b) : x = y := by
  cases x; cases y; cases h1; cases h2; rfl
theorem raw_inj {x y : F12} (h : x.raw = y.raw) : x = y :=
  ext (F6.raw_inj (congrArg R12.a h)) (F6.raw_inj (congrArg R12.b h))

/-- `Fp12::add`, bn.h:1433 -/
instance : Add F12 := ⟨fun x y => ⟨x.a + y.a, x.b + y.b⟩⟩
/-- `Fp12::sub`, bn.h:1438 -/
instance : Sub F12 := ⟨fun x y => ⟨x.a - y.a, x.b - y.b⟩⟩
/-- `Fp12::neg`, bn.h:1443 -/
instance : Neg F12 := ⟨fun x => ⟨-x.a, -x.b⟩⟩
/-- `Fp12::mul`, bn.h:1450 -/
instance : Mul F12 := ⟨fun x y => ofRaw (Fp12.mul x.raw y.raw) (Fp12.mul_den x.raw_canon y.raw_canon).1⟩
/-- `Fp12(0)`, bn.h:1373 -/
instance : Zero F12 := ⟨⟨0, 0⟩⟩
/-- `Fp12(1)`, bn.h:1373 -/
instance : One F12 := ⟨⟨1, 0⟩⟩

/-- `Fp12::square`, bn.h:1476 -/
def square (x : F12) : F12 := ofRaw (Fp12.square x.raw) (Fp12.square_den x.raw_canon).1

/-- `Fp12::inverse`, bn.h:1620-1634 -/
instance : Inv F12 := ⟨fun x =>
  let t0 := x.a.square
  let t1 := x.b.square
  let t2 := t1.c.mulXi
  let t0 : F6 := ⟨t0.a - t2, t0.b - t1.a, t0.c - t1.b⟩
  let t0 := t0⁻¹
  let a := x.a * t0
  let b := x.b * t0
  ⟨a, -b⟩⟩

/-- `Fp12::isZero`, bn.h:1411 -/
def isZero (x : F12) : Bool := x.a.isZero && x.b.isZero
/-- `Fp12::operator==`, bn.h:1415 -/
def eq (x y : F12) : Bool := F6.eq x.a y.a && F6.eq x.b y.b

theorem add_a (x y : F12) : (x + y).a = x.a + y.a := rfl
theorem add_b (x y : F12) : (x + y).b = x.b + y.b := rfl
theorem sub_a (x y : F12) : (x - y).a = x.a - y.a := rfl
theorem sub_b (x y : F12) : (x - y).b = x.b - y.b := rfl
theorem neg_a (x : F12) : (-x).a = -x.a := rfl
theorem neg_b (x : F12) : (-x).b = -x.b := rfl
theorem zero_a : (0 : F12).a = 0 := rfl
theorem zero_b : (0 : F12).b = 0 := rfl
theorem one_a : (1 : F12).a = 1 := rfl
theorem one_b : (1 : F12).b = 0 := rfl

theorem mul_a (x y : F12) : (x * y).a = x.a * y.a + F6.v * (x.b * y.b) := by
  obtain ⟨h, ha, -⟩ := Fp12.mul_den x.raw_canon y.raw_canon
  have e : (x * y).a = (Fp12.mul x.raw y.raw).a.den := F6.ofRaw_eq h.1
  rw [e, ha]
  rw [show x.raw.a.den = x.a from F6.den_raw _, show x.raw.b.den = x.b from F6.den_raw _,
    show y.raw.a.den = y.a from F6.den_raw _, show y.raw.b.den = y.b from F6.den_raw _]
theorem mul_b (x y : F12) : (x * y).b = x.a * y.b + x.b * y.a := by
  obtain ⟨h, -, hb⟩ := Fp12.mul_den x.raw_canon y.raw_canon
  have e : (x * y).b = (Fp12.mul x.raw y.raw).b.den := F6.ofRaw_eq h.2
  rw [e, hb]
  rw [show x.raw.a.den = x.a from F6.den_raw _, show x.raw.b.den = x.b from F6.den_raw _,
    show y.raw.a.den = y.a from F6.den_raw _, show y.raw.b.den = y.b from F6.den_raw _]

theorem square_eq (x : F12) : x.square = x * x := by
  obtain ⟨h, ha, hb⟩ := Fp12.square_den x.raw_canon
  refine ext ?_ ?_
  · refine (F6.ofRaw_eq h.1).trans ?_
    rw [ha, mul_a, show x.raw.a.den = x.a from F6.den_raw _, show x.raw.b.den = x.b from F6.den_raw _]
  · refine (F6.ofRaw_eq h.2).trans ?_
    rw [hb, mul_b, show x.raw.a.den = x.a from F6.den_raw _, show x.raw.b.den = x.b from F6.den_raw _]

noncomputable instance : NatCast F12 := ⟨fun n => ⟨n, 0⟩⟩
noncomputable instance : IntCast F12 := ⟨fun n => ⟨n, 0⟩⟩

theorem natCast_a (n : ℕ) : (n : F12).a = n := rfl
theorem natCast_b (n : ℕ) : (n : F12).b = 0 := rfl
theorem intCast_a (n : ℤ) : (n : F12).a = n := rfl
theorem intCast_b (n : ℤ) : (n : F12).b = 0 := rfl

noncomputable instance : CommRing F12 where
  add_assoc x y z := by ext1 <;> simp only [add_a, add_b] <;> ring
  zero_add x := by ext1 <;> simp only [add_a, add_b, zero_a, zero_b] <;> ring
  add_zero x := by ext1 <;> simp only [add_a, add_b, zero_a, zero_b] <;> ring
  add_comm x y := by ext1 <;> simp only [add_a, add_b] <;> ring
  neg_add_cancel x := by ext1 <;> simp only [add_a, add_b, neg_a, neg_b, zero_a, zero_b] <;> ring
  sub_eq_add_neg x y := by ext1 <;> simp only [add_a, add_b, neg_a, neg_b, sub_a, sub_b] <;> ring
  mul_assoc x y z := by ext1 <;> simp only [mul_a, mul_b] <;> ring
  mul_comm x y := by ext1 <;> simp only [mul_a, mul_b] <;> ring
  one_mul x := by ext1 <;> simp only [mul_a, mul_b, one_a, one_b] <;> ring
  mul_one x := by ext1 <;> simp only [mul_a, mul_b, one_a, one_b] <;> ring
  left_distrib x y z := by ext1 <;> simp only [mul_a, mul_b, add_a, add_b] <;> ring
  right_distrib x y z := by ext1 <;> simp only [mul_a, mul_b, add_a, add_b] <;> ring
  zero_mul x := by ext1 <;> simp only [mul_a, mul_b, zero_a, zero_b] <;> ring
  mul_zero x := by ext1 <;> simp only [mul_a, mul_b, zero_a, zero_b] <;> ring
  nsmul := nsmulRec
  zsmul := zsmulRec
  natCast_zero := by ext1 <;> simp only [natCast_a, natCast_b, zero_a, zero_b, Nat.cast_zero]
  natCast_succ n := by
    ext1 <;> simp only [natCast_a, natCast_b, add_a, add_b, one_a, one_b, Nat.cast_succ, add_zero]
  intCast_ofNat n := by ext1 <;> simp only [natCast_a, natCast_b, intCast_a, intCast_b, Int.cast_natCast]
  intCast_negSucc n := by
    ext1 <;> simp only [natCast_a, natCast_b, intCast_a, intCast_b, neg_a, neg_b, Int.cast_negSucc, neg_zero]

/-- w, the square root of v -/
def w : F12 := ⟨0, 1⟩
/-- embedding of F6 -/
def ofF6 (x : F6) : F12 := ⟨x, 0⟩

theorem w_mul_w : w * w = ofF6 F6.v := by
  ext1 <;> simp only [mul_a, mul_b, w, ofF6] <;> ring
theorem eq_ofF6 (x : F12) : x = ofF6 x.a + ofF6 x.b * w := by
  ext1 <;> simp only [mul_a, mul_b, add_a, add_b, w, ofF6] <;> ring

/-- the norm to F6 -/
noncomputable def norm (x : F12) : F6 := x.a * x.a - F6.v * (x.b * x.b)

theorem norm_mul (x y : F12) : (x * y).norm = x.norm * y.norm := by
  simp only [norm, mul_a, mul_b]; ring

theorem norm_eq_zero {x : F12} (h : x.norm = 0) : x = 0 := by
  unfold norm at h
  by_cases hb : x.b = 0
  · rw [hb] at h
    have : x.a * x.a = 0 := by linear_combination h
    exact ext (mul_self_eq_zero.1 this) hb
  · exfalso
    apply F6.v_not_square (x.a / x.b)
    field_simp
    linear_combination h

theorem norm_ne {x : F12} (h : x ≠ 0) : x.norm ≠ 0 := fun h1 => h (norm_eq_zero h1)

theorem inv_def (x : F12) : x⁻¹ = ⟨x.a * x.norm⁻¹, -(x.b * x.norm⁻¹)⟩ := by
  have e : x.norm = ⟨x.a.square.a - x.b.square.c.mulXi, x.a.square.b - x.b.square.a,
      x.a.square.c - x.b.square.b⟩ := by
    simp only [F6.square_eq, F2.mulXi_mul]
    unfold norm
    refine F6.ext ?_ ?_ ?_
    · rw [F6.sub_a, F6.mul_a F6.v]; simp only [F6.v]; ring
    · rw [F6.sub_b, F6.mul_b F6.v]; simp only [F6.v]; ring
    · rw [F6.sub_c, F6.mul_c F6.v]; simp only [F6.v]; ring
  rw [e]
  rfl

/-- the product formula with the norm abstracted -/
theorem mul_inv_aux {K : Type} [Field K] {a b v N : K} (hN : a * a - v * (b * b) = N) (h : N ≠ 0) :
    a * (a * N⁻¹) + v * (b * -(b * N⁻¹)) = 1 ∧ a * -(b * N⁻¹) + b * (a * N⁻¹) = 0 := by
  constructor
  · field_simp; linear_combination hN
  · ring

theorem mul_inv' {x : F12} (h : x ≠ 0) : x * x⁻¹ = 1 := by
  have h1 := mul_inv_aux (a := x.a) (b := x.b) (v := F6.v) (N := x.norm) rfl (norm_ne h)
  rw [inv_def]
  ext1
  · rw [mul_a]; exact h1.1
  · rw [mul_b]; exact h1.2

theorem inv_zero' : (0 : F12)⁻¹ = 0 := by
  rw [inv_def]; ext1 <;> simp only [zero_a, zero_b] <;> ring

theorem zero_ne_one' : (0 : F12) ≠ 1 := by
  intro h
  have h1 : (0 : F12).a = (1 : F12).a := by rw [h]
  rw [zero_a, one_a] at h1
  exact zero_ne_one h1

instance : Nontrivial F12 := ⟨0, 1, zero_ne_one'⟩

noncomputable instance : Field F12 := mkField (fun x => x⁻¹) (fun _ h => mul_inv' h) inv_zero'

theorem isZero_iff (x : F12) : x.isZero = true ↔ x = 0 := by
  unfold isZero
  rw [Bool.and_eq_true, F6.isZero_iff, F6.isZero_iff]
  constructor
  · rintro ⟨h1, h2⟩; exact ext h1 h2
  · intro h; rw [h]; exact ⟨rfl, rfl⟩

theorem eq_iff (x y : F12) : eq x y = true ↔ x = y := by
  unfold eq
  rw [Bool.and_eq_true, F6.eq_iff, F6.eq_iff]
  constructor
  · rintro ⟨h1, h2⟩; exact ext h1 h2
  · intro h; rw [h]; exact ⟨rfl, rfl⟩

end F12
end Verif
