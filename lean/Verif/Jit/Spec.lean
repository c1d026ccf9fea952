import Verif.Jit.Calls
import Verif.Pairing.Line
import Verif.Tower.Cyclo

/-! The tower over ℤ/p as tuples, written out, and what it means that memory holds such an element. -/

namespace Verif
namespace Jit

open Fp

/-- a + bu, u² = -1 -/
@[ext] structure K2 where
  a : ZMod p
  b : ZMod p
/-- a + bv + cv², v³ = 1 + u -/
@[ext] structure K6 where
  a : K2
  b : K2
  c : K2
/-- a + bw, w² = v -/
@[ext] structure K12 where
  a : K6
  b : K6

namespace K2
instance : Add K2 := ⟨fun x y => ⟨x.a + y.a, x.b + y.b⟩⟩
instance : _root_.Sub K2 := ⟨fun x y => ⟨x.a - y.a, x.b - y.b⟩⟩
instance : Neg K2 := ⟨fun x => ⟨-x.a, -x.b⟩⟩
instance : Mul K2 := ⟨fun x y => ⟨x.a * y.a - x.b * y.b, x.a * y.b + x.b * y.a⟩⟩
/-- 1 + u -/
def xi : K2 := ⟨1, 1⟩
/-- x / 2 -/
def half (x : K2) : K2 := ⟨x.a / 2, x.b / 2⟩
/-- xy for y in ℤ/p -/
def scale (x : K2) (y : ZMod p) : K2 := ⟨x.a * y, x.b * y⟩
end K2

namespace K6
instance : Add K6 := ⟨fun x y => ⟨x.a + y.a, x.b + y.b, x.c + y.c⟩⟩
instance : _root_.Sub K6 := ⟨fun x y => ⟨x.a - y.a, x.b - y.b, x.c - y.c⟩⟩
instance : Mul K6 := ⟨fun x y => ⟨x.a * y.a + K2.xi * (x.b * y.c + x.c * y.b), x.a * y.b + x.b * y.a + K2.xi * (x.c * y.c),
  x.a * y.c + x.b * y.b + x.c * y.a⟩⟩
/-- v -/
def v : K6 := ⟨⟨0, 0⟩, ⟨1, 0⟩, ⟨0, 0⟩⟩
end K6

namespace K12
instance : Mul K12 := ⟨fun x y => ⟨x.a * y.a + K6.v * (x.b * y.b), x.a * y.b + x.b * y.a⟩⟩
/-- a + cv² + bvw: the value of a line -/
def line (x : K6) : K12 := ⟨⟨x.a, ⟨0, 0⟩, x.c⟩, ⟨⟨0, 0⟩, x.b, ⟨0, 0⟩⟩⟩
end K12

/-- the four words from A on hold the canonical Montgomery representation of x -/
def AtFp (m : ℕ → ℕ) (A : ℕ) (x : ZMod p) : Prop := num m A 4 < p ∧ residue (num m A 4) = x
/-- `Fp2`: a, b -/
def AtF2 (m : ℕ → ℕ) (A : ℕ) (x : K2) : Prop := AtFp m A x.a ∧ AtFp m (A + 4) x.b
/-- `Fp6`: a, b, c -/
def AtF6 (m : ℕ → ℕ) (A : ℕ) (x : K6) : Prop := AtF2 m A x.a ∧ AtF2 m (A + 8) x.b ∧ AtF2 m (A + 16) x.c
/-- `Fp12`: a, b -/
def AtF12 (m : ℕ → ℕ) (A : ℕ) (x : K12) : Prop := AtF6 m A x.a ∧ AtF6 m (A + 24) x.b
/-- the eight words from A on hold a value below p * 2^256 that represents x (`FpDbl`) -/
def AtD (m : ℕ → ℕ) (A : ℕ) (x : ZMod p) : Prop := num m A 8 < p * 2 ^ 256 ∧ residueD (num m A 8) = x
/-- `Fp2Dbl` -/
def AtD2 (m : ℕ → ℕ) (A : ℕ) (x : K2) : Prop := AtD m A x.a ∧ AtD m (A + 8) x.b
/-- `Fp6Dbl` -/
def AtD6 (m : ℕ → ℕ) (A : ℕ) (x : K6) : Prop := AtD2 m A x.a ∧ AtD2 m (A + 16) x.b ∧ AtD2 m (A + 32) x.c

end Jit

open Fp

/-- coordinates of an object of the code's class -/
noncomputable def F2.k (x : F2) : Jit.K2 := ⟨x.a.toZ, x.b.toZ⟩
noncomputable def F6.k (x : F6) : Jit.K6 := ⟨x.a.k, x.b.k, x.c.k⟩
noncomputable def F12.k (x : F12) : Jit.K12 := ⟨x.a.k, x.b.k⟩

namespace F2
theorem k_inj {x y : F2} (h : x.k = y.k) : x = y :=
  F2.ext (Fe.toZ_inj (congrArg Jit.K2.a h)) (Fe.toZ_inj (congrArg Jit.K2.b h))
theorem k_add (x y : F2) : (x + y).k = x.k + y.k := Jit.K2.ext (Fe.toZ_add _ _) (Fe.toZ_add _ _)
theorem k_sub (x y : F2) : (x - y).k = x.k - y.k := Jit.K2.ext (Fe.toZ_sub _ _) (Fe.toZ_sub _ _)
theorem k_neg (x : F2) : (-x).k = -x.k := Jit.K2.ext (Fe.toZ_neg _) (Fe.toZ_neg _)
theorem k_mul (x y : F2) : (x * y).k = x.k * y.k := by
  refine Jit.K2.ext ?_ ?_
  · show (x * y).a.toZ = x.a.toZ * y.a.toZ - x.b.toZ * y.b.toZ
    rw [mul_a, Fe.toZ_sub, Fe.toZ_mul, Fe.toZ_mul]
  · show (x * y).b.toZ = x.a.toZ * y.b.toZ + x.b.toZ * y.a.toZ
    rw [mul_b, Fe.toZ_add, Fe.toZ_mul, Fe.toZ_mul]
theorem k_zero : (0 : F2).k = ⟨0, 0⟩ := Jit.K2.ext Fe.toZ_zero Fe.toZ_zero
theorem k_xi : F2.xi.k = Jit.K2.xi := Jit.K2.ext Fe.toZ_one Fe.toZ_one
theorem k_divBy2 (x : F2) : x.divBy2.k = x.k.half := Jit.K2.ext (residue_divBy2 x.a.lt) (residue_divBy2 x.b.lt)
theorem k_mulFp0 (x : F2) (y : Fe) : (x.mulFp0 y).k = x.k.scale y.toZ := Jit.K2.ext (residue_mul x.a.lt y.lt) (residue_mul x.b.lt y.lt)
end F2

namespace F6
theorem k_add (x y : F6) : (x + y).k = x.k + y.k := Jit.K6.ext (F2.k_add _ _) (F2.k_add _ _) (F2.k_add _ _)
theorem k_sub (x y : F6) : (x - y).k = x.k - y.k := Jit.K6.ext (F2.k_sub _ _) (F2.k_sub _ _) (F2.k_sub _ _)
theorem k_mul (x y : F6) : (x * y).k = x.k * y.k := by
  refine Jit.K6.ext ?_ ?_ ?_
  · show (x * y).a.k = x.a.k * y.a.k + Jit.K2.xi * (x.b.k * y.c.k + x.c.k * y.b.k)
    rw [mul_a]; simp only [F2.k_add, F2.k_mul, F2.k_xi]
  · show (x * y).b.k = x.a.k * y.b.k + x.b.k * y.a.k + Jit.K2.xi * (x.c.k * y.c.k)
    rw [mul_b]; simp only [F2.k_add, F2.k_mul, F2.k_xi]
  · show (x * y).c.k = x.a.k * y.c.k + x.b.k * y.b.k + x.c.k * y.a.k
    rw [mul_c]; simp only [F2.k_add, F2.k_mul]
theorem k_v : F6.v.k = Jit.K6.v := Jit.K6.ext F2.k_zero (Jit.K2.ext Fe.toZ_one Fe.toZ_zero) F2.k_zero
end F6

namespace F12
theorem k_mul (x y : F12) : (x * y).k = x.k * y.k := by
  refine Jit.K12.ext ?_ ?_
  · show (x * y).a.k = x.a.k * y.a.k + Jit.K6.v * (x.b.k * y.b.k)
    rw [mul_a]; simp only [F6.k_add, F6.k_mul, F6.k_v]
  · show (x * y).b.k = x.a.k * y.b.k + x.b.k * y.a.k
    rw [mul_b]; simp only [F6.k_add, F6.k_mul]
end F12
theorem F6.k_line (x : F6) : x.line.k = Jit.K12.line x.k := by
  unfold F6.line Jit.K12.line
  simp only [F12.k, F6.k, F2.k_zero]

namespace Jit

variable {m : ℕ → ℕ} {A : ℕ}

theorem pN_pow : pN = p * 2 ^ 256 := by rw [pN_eq]; unfold w256; rfl

theorem k_den {x : R2} {X : K2} : x.den.k = X ↔ residue x.a = X.a ∧ residue x.b = X.b := by
  unfold R2.den F2.k
  dsimp only
  rw [Fe.toZ_ofZ, Fe.toZ_ofZ, K2.ext_iff]
theorem k_denD {x : R2} {X : K2} : x.denD.k = X ↔ residueD x.a = X.a ∧ residueD x.b = X.b := by
  unfold R2.denD F2.k
  dsimp only
  rw [Fe.toZ_ofZ, Fe.toZ_ofZ, K2.ext_iff]

theorem and3 {a b c d e f : Prop} : ((a ∧ b) ∧ (c ∧ d) ∧ (e ∧ f)) ↔ (a ∧ c ∧ e) ∧ (b ∧ d ∧ f) := by tauto

theorem atF2 {X : K2} : AtF2 m A X ↔ (rd2 4 m A).Canon ∧ (rd2 4 m A).den.k = X := by
  rw [k_den]
  exact and_and_and_comm
theorem atD2 {X : K2} : AtD2 m A X ↔ (rd2 8 m A).RedD ∧ (rd2 8 m A).denD.k = X := by
  rw [k_denD]
  unfold AtD2 AtD rd2 R2.RedD
  rw [pN_pow]
  exact and_and_and_comm
theorem atF6 {X : K6} : AtF6 m A X ↔ (rd6 4 m A).Canon ∧ (rd6 4 m A).den.k = X := by
  rw [K6.ext_iff]
  unfold AtF6
  rw [atF2, atF2, atF2]
  exact and3
theorem atD6 {X : K6} : AtD6 m A X ↔ (rd6 8 m A).RedD ∧ (rd6 8 m A).denD.k = X := by
  rw [K6.ext_iff]
  unfold AtD6
  rw [atD2, atD2, atD2]
  exact and3
theorem atF12 {X : K12} : AtF12 m A X ↔ (rd12 4 m A).Canon ∧ (rd12 4 m A).den.k = X := by
  rw [K12.ext_iff]
  unfold AtF12
  rw [atF6, atF6]
  exact and_and_and_comm

end Jit
end Verif
