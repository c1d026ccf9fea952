import Verif.Snark.Spec
import Mathlib.Tactic.Ring

/-!
The tower of the SNARK build as plain rings over `ZMod p`, independent of the modelled code:
`G2` = Fp[u]/(u^2 + 1), `G6` = G2[v]/(v^3 - xi) with xi = 9 + u, `G12` = G6[w]/(w^2 - v)
(the tower of include/bn.h:60-64 with the parameters of bn.h:77-81).
-/

namespace Verif.Snark

/-- a + b u -/
@[ext] structure G2 where
  a : ZMod p
  b : ZMod p

namespace G2

instance : Zero G2 := ⟨⟨0, 0⟩⟩
instance : One G2 := ⟨⟨1, 0⟩⟩
instance : Add G2 := ⟨fun x y => ⟨x.a + y.a, x.b + y.b⟩⟩
instance : Sub G2 := ⟨fun x y => ⟨x.a - y.a, x.b - y.b⟩⟩
instance : Neg G2 := ⟨fun x => ⟨-x.a, -x.b⟩⟩
/-- u^2 = -1 -/
instance : Mul G2 := ⟨fun x y => ⟨x.a * y.a - x.b * y.b, x.a * y.b + x.b * y.a⟩⟩
instance : NatCast G2 := ⟨fun n => ⟨n, 0⟩⟩
instance : IntCast G2 := ⟨fun n => ⟨n, 0⟩⟩

theorem add_a (x y : G2) : (x + y).a = x.a + y.a := rfl
theorem add_b (x y : G2) : (x + y).b = x.b + y.b := rfl
theorem sub_a (x y : G2) : (x - y).a = x.a - y.a := rfl
theorem sub_b (x y : G2) : (x - y).b = x.b - y.b := rfl
theorem neg_a (x : G2) : (-x).a = -x.a := rfl
theorem neg_b (x : G2) : (-x).b = -x.b := rfl
theorem mul_a (x y : G2) : (x * y).a = x.a * y.a - x.b * y.b := rfl
theorem mul_b (x y : G2) : (x * y).b = x.a * y.b + x.b * y.a := rfl
theorem zero_a : (0 : G2).a = 0 := rfl
theorem zero_b : (0 : G2).b = 0 := rfl
theorem one_a : (1 : G2).a = 1 := rfl
theorem one_b : (1 : G2).b = 0 := rfl
theorem natCast_a (n : ℕ) : (n : G2).a = n := rfl
theorem natCast_b (n : ℕ) : (n : G2).b = 0 := rfl
theorem intCast_a (n : ℤ) : (n : G2).a = n := rfl
theorem intCast_b (n : ℤ) : (n : G2).b = 0 := rfl

instance : CommRing G2 where
  add_assoc x y z := by ext <;> simp only [add_a, add_b] <;> ring
  zero_add x := by ext <;> simp only [add_a, add_b, zero_a, zero_b] <;> ring
  add_zero x := by ext <;> simp only [add_a, add_b, zero_a, zero_b] <;> ring
  add_comm x y := by ext <;> simp only [add_a, add_b] <;> ring
  neg_add_cancel x := by ext <;> simp only [add_a, add_b, neg_a, neg_b, zero_a, zero_b] <;> ring
  sub_eq_add_neg x y := by ext <;> simp only [add_a, add_b, neg_a, neg_b, sub_a, sub_b] <;> ring
  mul_assoc x y z := by ext <;> simp only [mul_a, mul_b] <;> ring
  mul_comm x y := by ext <;> simp only [mul_a, mul_b] <;> ring
  one_mul x := by ext <;> simp only [mul_a, mul_b, one_a, one_b] <;> ring
  mul_one x := by ext <;> simp only [mul_a, mul_b, one_a, one_b] <;> ring
  left_distrib x y z := by ext <;> simp only [mul_a, mul_b, add_a, add_b] <;> ring
  right_distrib x y z := by ext <;> simp only [mul_a, mul_b, add_a, add_b] <;> ring
  zero_mul x := by ext <;> simp only [mul_a, mul_b, zero_a, zero_b] <;> ring
  mul_zero x := by ext <;> simp only [mul_a, mul_b, zero_a, zero_b] <;> ring
  nsmul := nsmulRec
  zsmul := zsmulRec
  natCast_zero := by ext <;> simp only [natCast_a, natCast_b, zero_a, zero_b, Nat.cast_zero]
  natCast_succ n := by
    ext <;> simp only [natCast_a, natCast_b, add_a, add_b, one_a, one_b, Nat.cast_succ] <;> ring
  intCast_ofNat n := by ext <;> simp [natCast_a, natCast_b, intCast_a, intCast_b]
  intCast_negSucc n := by
    ext <;> simp [natCast_a, natCast_b, intCast_a, intCast_b, neg_a, neg_b]

/-- the generator u -/
def u : G2 := ⟨0, 1⟩
/-- xi = 9 + u, bn.h:78-81 -/
def xi : G2 := ⟨9, 1⟩

theorem u_sq : u * u = -1 := by ext <;> simp [u, mul_a, mul_b, neg_a, neg_b, one_a, one_b]
theorem xi_eq : xi = 9 + u := by
  have h : (9 : G2) = ((9 : ℕ) : G2) := by norm_num
  rw [h]
  ext
  · rw [add_a, natCast_a]; simp [xi, u]
  · rw [add_b, natCast_b]; simp [xi, u]

theorem xi_mul_a (x : G2) : (xi * x).a = 9 * x.a - x.b := by simp [xi, mul_a]
theorem xi_mul_b (x : G2) : (xi * x).b = 9 * x.b + x.a := by simp [xi, mul_b]

end G2

/-- a + b v + c v^2 -/
@[ext] structure G6 where
  a : G2
  b : G2
  c : G2

namespace G6

instance : Zero G6 := ⟨⟨0, 0, 0⟩⟩
instance : One G6 := ⟨⟨1, 0, 0⟩⟩
instance : Add G6 := ⟨fun x y => ⟨x.a + y.a, x.b + y.b, x.c + y.c⟩⟩
instance : Sub G6 := ⟨fun x y => ⟨x.a - y.a, x.b - y.b, x.c - y.c⟩⟩
instance : Neg G6 := ⟨fun x => ⟨-x.a, -x.b, -x.c⟩⟩
/-- v^3 = xi -/
instance : Mul G6 := ⟨fun x y => ⟨x.a * y.a + G2.xi * (x.b * y.c + x.c * y.b),
  x.a * y.b + x.b * y.a + G2.xi * (x.c * y.c), x.a * y.c + x.b * y.b + x.c * y.a⟩⟩
instance : NatCast G6 := ⟨fun n => ⟨n, 0, 0⟩⟩
instance : IntCast G6 := ⟨fun n => ⟨n, 0, 0⟩⟩

theorem add_a (x y : G6) : (x + y).a = x.a + y.a := rfl
theorem add_b (x y : G6) : (x + y).b = x.b + y.b := rfl
theorem add_c (x y : G6) : (x + y).c = x.c + y.c := rfl
theorem sub_a (x y : G6) : (x - y).a = x.a - y.a := rfl
theorem sub_b (x y : G6) : (x - y).b = x.b - y.b := rfl
theorem sub_c (x y : G6) : (x - y).c = x.c - y.c := rfl
theorem neg_a (x : G6) : (-x).a = -x.a := rfl
theorem neg_b (x : G6) : (-x).b = -x.b := rfl
theorem neg_c (x : G6) : (-x).c = -x.c := rfl
theorem mul_a (x y : G6) : (x * y).a = x.a * y.a + G2.xi * (x.b * y.c + x.c * y.b) := rfl
theorem mul_b (x y : G6) : (x * y).b = x.a * y.b + x.b * y.a + G2.xi * (x.c * y.c) := rfl
theorem mul_c (x y : G6) : (x * y).c = x.a * y.c + x.b * y.b + x.c * y.a := rfl
theorem zero_a : (0 : G6).a = 0 := rfl
theorem zero_b : (0 : G6).b = 0 := rfl
theorem zero_c : (0 : G6).c = 0 := rfl
theorem one_a : (1 : G6).a = 1 := rfl
theorem one_b : (1 : G6).b = 0 := rfl
theorem one_c : (1 : G6).c = 0 := rfl
theorem natCast_a (n : ℕ) : (n : G6).a = n := rfl
theorem natCast_b (n : ℕ) : (n : G6).b = 0 := rfl
theorem natCast_c (n : ℕ) : (n : G6).c = 0 := rfl
theorem intCast_a (n : ℤ) : (n : G6).a = n := rfl
theorem intCast_b (n : ℤ) : (n : G6).b = 0 := rfl
theorem intCast_c (n : ℤ) : (n : G6).c = 0 := rfl

instance : CommRing G6 where
  add_assoc x y z := by ext1 <;> simp only [add_a, add_b, add_c] <;> ring
  zero_add x := by ext1 <;> simp only [add_a, add_b, add_c, zero_a, zero_b, zero_c] <;> ring
  add_zero x := by ext1 <;> simp only [add_a, add_b, add_c, zero_a, zero_b, zero_c] <;> ring
  add_comm x y := by ext1 <;> simp only [add_a, add_b, add_c] <;> ring
  neg_add_cancel x := by
    ext1 <;> simp only [add_a, add_b, add_c, neg_a, neg_b, neg_c, zero_a, zero_b, zero_c] <;> ring
  sub_eq_add_neg x y := by
    ext1 <;> simp only [add_a, add_b, add_c, neg_a, neg_b, neg_c, sub_a, sub_b, sub_c] <;> ring
  mul_assoc x y z := by ext1 <;> simp only [mul_a, mul_b, mul_c] <;> ring
  mul_comm x y := by ext1 <;> simp only [mul_a, mul_b, mul_c] <;> ring
  one_mul x := by ext1 <;> simp only [mul_a, mul_b, mul_c, one_a, one_b, one_c] <;> ring
  mul_one x := by ext1 <;> simp only [mul_a, mul_b, mul_c, one_a, one_b, one_c] <;> ring
  left_distrib x y z := by
    ext1 <;> simp only [mul_a, mul_b, mul_c, add_a, add_b, add_c] <;> ring
  right_distrib x y z := by
    ext1 <;> simp only [mul_a, mul_b, mul_c, add_a, add_b, add_c] <;> ring
  zero_mul x := by ext1 <;> simp only [mul_a, mul_b, mul_c, zero_a, zero_b, zero_c] <;> ring
  mul_zero x := by ext1 <;> simp only [mul_a, mul_b, mul_c, zero_a, zero_b, zero_c] <;> ring
  nsmul := nsmulRec
  zsmul := zsmulRec
  natCast_zero := by
    ext1 <;> simp only [natCast_a, natCast_b, natCast_c, zero_a, zero_b, zero_c, Nat.cast_zero]
  natCast_succ n := by
    ext1 <;> simp only [natCast_a, natCast_b, natCast_c, add_a, add_b, add_c, one_a, one_b, one_c,
      Nat.cast_succ] <;> ring
  intCast_ofNat n := by
    ext1 <;> simp [natCast_a, natCast_b, natCast_c, intCast_a, intCast_b, intCast_c]
  intCast_negSucc n := by
    ext1 <;> simp [natCast_a, natCast_b, natCast_c, intCast_a, intCast_b, intCast_c, neg_a, neg_b,
      neg_c]

/-- the generator v -/
def v : G6 := ⟨0, 1, 0⟩
/-- G2 inside G6 -/
def of2 (x : G2) : G6 := ⟨x, 0, 0⟩

theorem v_cube : v * v * v = of2 G2.xi := by ext1 <;> simp [v, of2, mul_a, mul_b, mul_c]
theorem v_mul (x : G6) : v * x = ⟨G2.xi * x.c, x.a, x.b⟩ := by
  ext1 <;> simp [v, mul_a, mul_b, mul_c]
theorem eq_of2 (x : G6) : x = of2 x.a + of2 x.b * v + of2 x.c * (v * v) := by
  ext1 <;> simp [v, of2, mul_a, mul_b, mul_c, add_a, add_b, add_c]

end G6

/-- a + b w -/
@[ext] structure G12 where
  a : G6
  b : G6

namespace G12

instance : Zero G12 := ⟨⟨0, 0⟩⟩
instance : One G12 := ⟨⟨1, 0⟩⟩
instance : Add G12 := ⟨fun x y => ⟨x.a + y.a, x.b + y.b⟩⟩
instance : Sub G12 := ⟨fun x y => ⟨x.a - y.a, x.b - y.b⟩⟩
instance : Neg G12 := ⟨fun x => ⟨-x.a, -x.b⟩⟩
/-- w^2 = v -/
instance : Mul G12 := ⟨fun x y => ⟨x.a * y.a + G6.v * (x.b * y.b), x.a * y.b + x.b * y.a⟩⟩
instance : NatCast G12 := ⟨fun n => ⟨n, 0⟩⟩
instance : IntCast G12 := ⟨fun n => ⟨n, 0⟩⟩

theorem add_a (x y : G12) : (x + y).a = x.a + y.a := rfl
theorem add_b (x y : G12) : (x + y).b = x.b + y.b := rfl
theorem sub_a (x y : G12) : (x - y).a = x.a - y.a := rfl
theorem sub_b (x y : G12) : (x - y).b = x.b - y.b := rfl
theorem neg_a (x : G12) : (-x).a = -x.a := rfl
theorem neg_b (x : G12) : (-x).b = -x.b := rfl
theorem mul_a (x y : G12) : (x * y).a = x.a * y.a + G6.v * (x.b * y.b) := rfl
theorem mul_b (x y : G12) : (x * y).b = x.a * y.b + x.b * y.a := rfl
theorem zero_a : (0 : G12).a = 0 := rfl
theorem zero_b : (0 : G12).b = 0 := rfl
theorem one_a : (1 : G12).a = 1 := rfl
theorem one_b : (1 : G12).b = 0 := rfl
theorem natCast_a (n : ℕ) : (n : G12).a = n := rfl
theorem natCast_b (n : ℕ) : (n : G12).b = 0 := rfl
theorem intCast_a (n : ℤ) : (n : G12).a = n := rfl
theorem intCast_b (n : ℤ) : (n : G12).b = 0 := rfl

instance : CommRing G12 where
  add_assoc x y z := by ext1 <;> simp only [add_a, add_b] <;> ring
  zero_add x := by ext1 <;> simp only [add_a, add_b, zero_a, zero_b] <;> ring
  add_zero x := by ext1 <;> simp only [add_a, add_b, zero_a, zero_b] <;> ring
  add_comm x y := by ext1 <;> simp only [add_a, add_b] <;> ring
  neg_add_cancel x := by ext1 <;> simp only [add_a, add_b, neg_a, neg_b, zero_a, zero_b] <;> ring
  sub_eq_add_neg x y := by ext1 <;> simp only [add_a, add_b, neg_a, neg_b, sub_a, sub_b] <;> ring
  mul_assoc x y z := by ext1 <;> simp only [mul_a, mul_b] <;> ring
  mul_comm x y := by ext1 <;> simp only [mul_a, mul_b] <;> ring
  one_mul x := by ext1 <;> simp only [mul_a, mul_b, one_a, one_b] <;> ring
  mul_one x := by ext1 <;> simp only [mul_a, mul_b, one_a, one_b] <;> ring
  left_distrib x y z := by ext1 <;> simp only [mul_a, mul_b, add_a, add_b] <;> ring
  right_distrib x y z := by ext1 <;> simp only [mul_a, mul_b, add_a, add_b] <;> ring
  zero_mul x := by ext1 <;> simp only [mul_a, mul_b, zero_a, zero_b] <;> ring
  mul_zero x := by ext1 <;> simp only [mul_a, mul_b, zero_a, zero_b] <;> ring
  nsmul := nsmulRec
  zsmul := zsmulRec
  natCast_zero := by ext1 <;> simp only [natCast_a, natCast_b, zero_a, zero_b, Nat.cast_zero]
  natCast_succ n := by
    ext1 <;> simp only [natCast_a, natCast_b, add_a, add_b, one_a, one_b, Nat.cast_succ] <;> ring
  intCast_ofNat n := by ext1 <;> simp [natCast_a, natCast_b, intCast_a, intCast_b]
  intCast_negSucc n := by
    ext1 <;> simp [natCast_a, natCast_b, intCast_a, intCast_b, neg_a, neg_b]

/-- the generator w -/
def w : G12 := ⟨0, 1⟩
/-- G6 inside G12 -/
def of6 (x : G6) : G12 := ⟨x, 0⟩

theorem w_sq : w * w = of6 G6.v := by ext1 <;> simp [w, of6, mul_a, mul_b]
theorem eq_of6 (x : G12) : x = of6 x.a + of6 x.b * w := by
  ext1 <;> simp [w, of6, mul_a, mul_b, add_a, add_b]

end G12

end Verif.Snark
