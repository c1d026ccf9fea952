import Verif.Tower.Comp

/-! Cyclotomic squaring, compressed squaring, final exponentiation. -/

set_option linter.unusedSimpArgs false

namespace Verif
open Fp

/-! ### Code -/

/-- `sq_Fp4UseDbl`, bn.h:1509-1523 -/
def F2.sqFp4 (x0 x1 : F2) : F2 × F2 :=
  (F2.ofRaw (Fp12.sqFp4 x0.raw x1.raw).1 (Fp12.sqFp4_den x0.raw_canon x1.raw_canon).1,
   F2.ofRaw (Fp12.sqFp4 x0.raw x1.raw).2 (Fp12.sqFp4_den x0.raw_canon x1.raw_canon).2.1)

namespace F12

/-- `Fp12::sqru`, bn.h:1561-1610 -/
def sqru (x : F12) : F12 :=
  let z0 := x.a.a
  let z4 := x.a.b
  let z3 := x.a.c
  let z2 := x.b.a
  let z1 := x.b.b
  let z5 := x.b.c
  let t := F2.sqFp4 z0 z1
  let z0 := t.1 - z0
  let z0 := z0 + z0
  let z0 := z0 + t.1
  let z1 := t.2 + z1
  let z1 := z1 + z1
  let z1 := z1 + t.2
  let t := F2.sqFp4 z2 z3
  let s := F2.sqFp4 z4 z5
  let z4 := t.1 - z4
  let z4 := z4 + z4
  let z4 := z4 + t.1
  let z5 := t.2 + z5
  let z5 := z5 + z5
  let z5 := z5 + t.2
  let t0 := s.2.mulXi
  let z2 := t0 + z2
  let z2 := z2 + z2
  let z2 := z2 + t0
  let z3 := s.1 - z3
  let z3 := z3 + z3
  let z3 := z3 + s.1
  ⟨⟨z0, z4, z3⟩, ⟨z2, z1, z5⟩⟩

end F12

namespace Cp

/-- `CompressT(z, x)`, bn.h:2145-2157: the coordinates copied from x. -/
def ofF12 (x : F12) : Cp := ⟨x.b.a, x.a.c, x.a.b, x.b.c⟩
/-- the buffers -/
def raw (c : Cp) : RC := ⟨c.g2.raw, c.g3.raw, c.g4.raw, c.g5.raw⟩
theorem raw_canon (c : Cp) : c.raw.Canon :=
  ⟨c.g2.raw_canon, c.g3.raw_canon, c.g4.raw_canon, c.g5.raw_canon⟩
/-- canonical buffers as an object -/
def ofRaw (r : RC) (h : r.Canon) : Cp :=
  ⟨F2.ofRaw r.g2 h.1, F2.ofRaw r.g3 h.2.1, F2.ofRaw r.g4 h.2.2.1, F2.ofRaw r.g5 h.2.2.2⟩

/-- one pass of `CompressT::square_n`, zm2.cpp:2346-2530 -/
def square (c : Cp) : Cp := ofRaw (compSquare c.raw) (compSquare_den c.raw_canon).1
/-- `CompressT::square_n`, bn.h:2299-2304 -/
def squareN (c : Cp) : ℕ → Cp
  | 0 => c
  | n + 1 => (squareN c n).square

/-- `decompressBeforeInv`, bn.h:2179-2199: (nume, denomi) -/
def decompressBeforeInv (c : Cp) : F2 × F2 :=
  if c.g2.isZero then
    let nume := c.g4 + c.g4
    let nume := nume * c.g5
    (nume, c.g3)
  else
    let nume := c.g5.square
    let denomi := nume.mulXi
    let nume := c.g4.square
    let t := nume - c.g3
    let t := t + t
    let t := t + nume
    let nume := denomi + t
    let nume := nume.divBy4
    (nume, c.g2)

/-- `decompressAfterInv`, bn.h:2202-2217: the element completed from g1. -/
def decompressAfterInv (c : Cp) (g1 : F2) : F12 :=
  let t0 := g1.square
  let t1 := c.g3 * c.g4
  let t0 := t0 - t1
  let t0 := t0 + t0
  let t0 := t0 - t1
  let t1 := c.g2 * c.g5
  let t0 := t0 + t1
  let g0 := t0.mulXi
  let g0 : F2 := ⟨g0.a + 1, g0.b⟩
  ⟨⟨g0, c.g4, c.g3⟩, ⟨c.g2, g1, c.g5⟩⟩

/-- `decompress`, bn.h:2221-2228 -/
def decompress (c : Cp) : F12 :=
  let nd := c.decompressBeforeInv
  let denomi := nd.2⁻¹
  c.decompressAfterInv (nd.1 * denomi)

end Cp

namespace F12

/-- `CompressT::fixed_power`, bn.h:2310-2337 -/
def fixedPower (x : F12) : F12 :=
  let c55 := (Cp.ofF12 x).squareN 55
  let nd55 := c55.decompressBeforeInv
  let c62 := c55.squareN (62 - 55)
  let nd62 := c62.decompressBeforeInv
  let acc := nd55.2 * nd62.2
  let acc := acc⁻¹
  let t := acc * nd62.2
  let z := c55.decompressAfterInv (nd55.1 * t)
  let t := acc * nd55.2
  let d62 := c62.decompressAfterInv (nd62.1 * t)
  let z := z * x
  z * d62

/-- `Fp12::mapToCyclo`, bn.h:1731-1744 -/
def mapToCyclo (x : F12) : F12 :=
  let z : F12 := ⟨x.a, -x.b⟩
  let this := x⁻¹
  let z := z * this
  let this := z.frobenius2
  z * this

/-- the addition chain of `Fp12::final_exp` after `mapToCyclo`, bn.h:1819-1847 -/
def hardPart (f : F12) : F12 :=
  let f2z := f.fixedPower
  let f2z := f2z.sqru
  let f6z := f2z.sqru
  let f6z := f6z * f2z
  let f6z2 := f6z.fixedPower
  let a := f6z2.sqru
  let f12z3 := a.fixedPower
  let f6z : F12 := ⟨f6z.a, -f6z.b⟩
  let f12z3 : F12 := ⟨f12z3.a, -f12z3.b⟩
  let a := f12z3 * f6z2
  let a := a * f6z
  let b := a * f2z
  let z := a * f6z2
  let z := z * f
  let f2z := b.frobenius
  let z := z * f2z
  let f2z := a.frobenius2
  let z := z * f2z
  let f : F12 := ⟨f.a, -f.b⟩
  let b := b * f
  let f2z := b.frobenius3
  z * f2z

/-- `Fp12::final_exp`, bn.h:1776-1849 (non-SNARK) -/
def finalExp (x : F12) : F12 := hardPart x.mapToCyclo

end F12

/-! ### The sixth root of unity omega = norm(gamma) -/

/-- gamma^(p+1) as an element of Fp -/
noncomputable def omega : Fe := F2.gam.norm

theorem F2.norm_pow (x : F2) (n : ℕ) : (x ^ n).norm = x.norm ^ n := by
  induction n with
  | zero => rw [pow_zero, pow_zero]; simp only [F2.norm, F2.one_a, F2.one_b]; ring
  | succ n ih => rw [pow_succ, F2.norm_mul, ih, pow_succ]

theorem omega_pow (n : ℕ) : omega ^ n = 2 ^ ((p - 1) / 6 * n) := by
  unfold omega F2.gam
  rw [F2.norm_pow, F2.norm_xi, ← pow_mul]

theorem Fe.toZ_two_pow (n : ℕ) : ((2 : Fe) ^ n).toZ = 2 ^ n := by
  rw [Fe.toZ_npow, Fe.two_toZ]

theorem omega2_ne : omega ^ 2 ≠ 1 := by
  intro h
  have h1 := congrArg Fe.toZ h
  rw [omega_pow, Fe.toZ_two_pow, Fe.toZ_one, show (p - 1) / 6 * 2 = (p - 1) / 3 by rw [p_eq]] at h1
  exact two_pow_third h1
theorem omega3_ne : omega ^ 3 ≠ 1 := by
  intro h
  have h1 := congrArg Fe.toZ h
  rw [omega_pow, Fe.toZ_two_pow, Fe.toZ_one, show (p - 1) / 6 * 3 = (p - 1) / 2 by rw [p_eq]] at h1
  exact two_pow_half h1
theorem omega6 : omega ^ 6 = 1 := by
  apply Fe.toZ_inj
  rw [omega_pow, Fe.toZ_two_pow, Fe.toZ_one, show (p - 1) / 6 * 6 = p - 1 by rw [p_eq]]
  exact zmod_pow_card_sub two_ne

theorem omega_sq : omega ^ 2 = omega - 1 := by
  have h6 := omega6
  have h3 := omega3_ne
  have h2 := omega2_ne
  generalize omega = o at *
  have e1 : (o ^ 3 - 1) * (o ^ 3 + 1) = 0 := by linear_combination h6
  have e2 : o ^ 3 + 1 = 0 := (mul_eq_zero.1 e1).resolve_left (fun h => h3 (by linear_combination h))
  have e3 : (o + 1) * (o ^ 2 - o + 1) = 0 := by linear_combination e2
  have e4 : o ^ 2 - o + 1 = 0 := (mul_eq_zero.1 e3).resolve_left (fun h => h2 (by
    linear_combination (o - 1) * h))
  linear_combination e4

namespace F2
/-- omega in F2 -/
noncomputable def om : F2 := ofFe omega

theorem om_sq : om ^ 2 = om - 1 := by
  unfold om
  rw [← incl_apply, ← map_pow, omega_sq, map_sub, map_one]
theorem om_ne : om ≠ 0 := by
  intro h; have := om_sq; rw [h] at this; simp at this
theorem om_ne_one : 1 - om ≠ 0 := by
  intro h
  have h1 : om = 1 := by linear_combination -h
  have := om_sq; rw [h1] at this; simp at this

theorem gam_norm (i : ℕ) : (gam ^ i).conj * gam ^ i = om ^ i := by
  unfold om
  rw [← incl_apply, ← map_pow, show omega ^ i = (gam ^ i).norm from (norm_pow _ _).symm, incl_apply]
  exact F12.ofFe_norm _

end F2

namespace F12
open F2 (om)

theorem mk6_p2 (g0 g1 g2 g3 g4 g5 : F2) : mk6 g0 g1 g2 g3 g4 g5 ^ (p ^ 2) =
    mk6 g0 (om * g1) ((om - 1) * g2) (-g3) (-om * g4) ((1 - om) * g5) := by
  have h1 := F2.gam_norm 1
  rw [pow_one, pow_one] at h1
  rw [mk6_pow_p2, h1, F2.gam_norm, F2.gam_norm, F2.gam_norm, F2.gam_norm]
  have h := F2.om_sq
  refine F12.ext (F6.ext ?_ ?_ ?_) (F6.ext ?_ ?_ ?_) <;> simp only [mk6]
  · linear_combination g2 * h
  · linear_combination g4 * (om ^ 2 + om) * h
  · ring
  · linear_combination g3 * (om + 1) * h
  · linear_combination g5 * (om ^ 3 + om ^ 2 - 1) * h

theorem mk6_p4 (g0 g1 g2 g3 g4 g5 : F2) : mk6 g0 g1 g2 g3 g4 g5 ^ (p ^ 4) =
    mk6 g0 ((om - 1) * g1) (-om * g2) g3 ((om - 1) * g4) (-om * g5) := by
  rw [show p ^ 4 = p ^ 2 * p ^ 2 by rw [← pow_add], pow_mul, mk6_p2, mk6_p2]
  have h := F2.om_sq
  refine F12.ext (F6.ext ?_ ?_ ?_) (F6.ext ?_ ?_ ?_) <;> simp only [mk6]
  · linear_combination g2 * h
  · linear_combination g4 * h
  · linear_combination g1 * h
  · ring
  · linear_combination g5 * h

theorem mk6_p6 (g0 g1 g2 g3 g4 g5 : F2) : mk6 g0 g1 g2 g3 g4 g5 ^ (p ^ 6) =
    mk6 g0 (-g1) g2 (-g3) g4 (-g5) := by
  rw [show p ^ 6 = p ^ 4 * p ^ 2 by rw [← pow_add], pow_mul, mk6_p4, mk6_p2]
  have h := F2.om_sq
  refine F12.ext (F6.ext ?_ ?_ ?_) (F6.ext ?_ ?_ ?_) <;> simp only [mk6]
  · linear_combination -g2 * h
  · linear_combination -g4 * h
  · linear_combination g1 * h
  · linear_combination g5 * h

/-- conjugation over F6 -/
def conj (x : F12) : F12 := ⟨x.a, -x.b⟩

theorem pow_p6 (x : F12) : x ^ (p ^ 6) = x.conj := by
  conv_lhs => rw [eq_mk6 x, mk6_p6]
  rfl

theorem conj_conj' (x : F12) : x.conj.conj = x := by
  unfold conj; ext1
  · rfl
  · exact neg_neg x.b

theorem pow_p12 (x : F12) : x ^ (p ^ 12) = x := by
  rw [show p ^ 12 = p ^ 6 * p ^ 6 by rw [← pow_add], pow_mul, pow_p6, pow_p6, conj_conj']

theorem pow_p12_sub {x : F12} (h : x ≠ 0) : x ^ (p ^ 12 - 1) = 1 := by
  have h1 : x ^ (p ^ 12) = x ^ (p ^ 12 - 1) * x := by
    rw [← pow_succ]; congr 1
  rw [pow_p12] at h1
  exact (mul_right_cancel₀ h (by rw [one_mul]; exact h1)).symm

/-- the product in coordinates -/
theorem mk6_mul (a0 a1 a2 a3 a4 a5 b0 b1 b2 b3 b4 b5 : F2) :
    mk6 a0 a1 a2 a3 a4 a5 * mk6 b0 b1 b2 b3 b4 b5 =
    mk6 (a0 * b0 + F2.xi * (a1 * b5 + a2 * b4 + a3 * b3 + a4 * b2 + a5 * b1))
      (a0 * b1 + a1 * b0 + F2.xi * (a2 * b5 + a3 * b4 + a4 * b3 + a5 * b2))
      (a0 * b2 + a1 * b1 + a2 * b0 + F2.xi * (a3 * b5 + a4 * b4 + a5 * b3))
      (a0 * b3 + a1 * b2 + a2 * b1 + a3 * b0 + F2.xi * (a4 * b5 + a5 * b4))
      (a0 * b4 + a1 * b3 + a2 * b2 + a3 * b1 + a4 * b0 + F2.xi * (a5 * b5))
      (a0 * b5 + a1 * b4 + a2 * b3 + a3 * b2 + a4 * b1 + a5 * b0) := by
  ext1
  · simp only [mul_a, mk6]; ext1 <;> simp only [F6.mul_a, F6.mul_b, F6.mul_c, F6.add_a, F6.add_b, F6.add_c,
        F6.zero_a, F6.zero_b, F6.zero_c, F6.v] <;> ring
  · simp only [mul_b, mk6]; ext1 <;> simp only [F6.mul_a, F6.mul_b, F6.mul_c, F6.add_a, F6.add_b, F6.add_c,
        F6.zero_a, F6.zero_b, F6.zero_c, F6.v] <;> ring

theorem mk6_inj {a0 a1 a2 a3 a4 a5 b0 b1 b2 b3 b4 b5 : F2}
    (h : mk6 a0 a1 a2 a3 a4 a5 = mk6 b0 b1 b2 b3 b4 b5) :
    a0 = b0 ∧ a1 = b1 ∧ a2 = b2 ∧ a3 = b3 ∧ a4 = b4 ∧ a5 = b5 :=
  ⟨congrArg (fun x : F12 => x.a.a) h, congrArg (fun x : F12 => x.b.a) h, congrArg (fun x : F12 => x.a.b) h,
   congrArg (fun x : F12 => x.b.b) h, congrArg (fun x : F12 => x.a.c) h, congrArg (fun x : F12 => x.b.c) h⟩

/-- The cyclotomic subgroup. -/
def Cyclo (x : F12) : Prop := x ^ (p ^ 4 - p ^ 2 + 1) = 1

theorem p2_le : p ^ 2 ≤ p ^ 4 := Nat.pow_le_pow_right p_pos (by norm_num)

theorem Cyclo.rel {x : F12} (h : Cyclo x) : x ^ (p ^ 4) * x = x ^ (p ^ 2) := by
  have e : p ^ 4 + 1 = (p ^ 4 - p ^ 2 + 1) + p ^ 2 := by have := p2_le; omega
  rw [← pow_succ, e, pow_add, h, one_mul]

theorem Cyclo.ne {x : F12} (h : Cyclo x) : x ≠ 0 := by
  rintro rfl
  unfold Cyclo at h
  rw [zero_pow (by omega)] at h
  exact zero_ne_one h

theorem Cyclo.unit {x : F12} (h : Cyclo x) : x.conj * x = 1 := by
  have h1 := h.rel
  have h2 : x ^ (p ^ 6) * x ^ (p ^ 2) = x ^ (p ^ 4) := by
    rw [show p ^ 6 = p ^ 4 * p ^ 2 by rw [← pow_add], pow_mul, ← mul_pow, h1, ← pow_mul,
      show p ^ 2 * p ^ 2 = p ^ 4 by rw [← pow_add]]
  have h3 : x ^ (p ^ 2) ≠ 0 := pow_ne_zero _ h.ne
  have h4 : (x ^ (p ^ 6) * x) * x ^ (p ^ 2) = 1 * x ^ (p ^ 2) := by
    rw [one_mul, mul_right_comm, h2, h1]
  rw [← pow_p6]
  exact mul_right_cancel₀ h3 h4

/-- The Granger-Scott/Karabina relations between the coordinates. -/
structure Rels (z0 z1 z2 z3 z4 z5 : F2) : Prop where
  i : 2 * F2.xi * (z4 * z5) - z0 * z2 - F2.xi * (z1 * z3) = -z2
  ii : z4 * z4 + F2.xi * (z5 * z5) - z0 * z3 - z1 * z2 = z3
  iii : z2 * z2 + F2.xi * (z3 * z3) - z0 * z4 - F2.xi * (z1 * z5) = z4
  iv : 2 * (z2 * z3) - z0 * z5 - z1 * z4 = -z5
  v : z0 * z0 + F2.xi * (z1 * z1) - F2.xi * (z2 * z5 + z3 * z4) = z0
  vi : 2 * (z0 * z1) - z2 * z4 - F2.xi * (z3 * z5) = -z1
  vii : z0 * z0 - F2.xi * (z1 * z1) + 2 * F2.xi * (z3 * z4 - z2 * z5) = 1
  ix : 2 * (z0 * z3 - z1 * z2) + z4 * z4 - F2.xi * (z5 * z5) = 0

theorem Cyclo.rels {x : F12} (h : Cyclo x) : Rels x.a.a x.b.b x.b.a x.a.c x.a.b x.b.c := by
  have h1 := h.rel
  have h2 := h.unit
  rw [← pow_p6] at h2
  obtain ⟨⟨z0, z4, z3⟩, ⟨z2, z1, z5⟩⟩ := x
  rw [show (⟨⟨z0, z4, z3⟩, ⟨z2, z1, z5⟩⟩ : F12) = mk6 z0 z2 z4 z1 z3 z5 from rfl] at *
  rw [mk6_p4, mk6_p2, mk6_mul] at h1
  rw [mk6_p6, mk6_mul, one_mk6] at h2
  obtain ⟨e0, e1, e2, e3, e4, e5⟩ := mk6_inj h1
  obtain ⟨f0, f1, f2, f3, f4, f5⟩ := mk6_inj h2
  have ho := F2.om_ne
  have ho1 := F2.om_ne_one
  simp only [mk6]
  generalize om = o at *
  have c1 : ∀ {a b : F2}, o * a = o * b → a = b := fun h => mul_left_cancel₀ ho h
  have c2 : ∀ {a b : F2}, (1 - o) * a = (1 - o) * b → a = b := fun h => mul_left_cancel₀ ho1 h
  refine ⟨c1 ?_, c1 ?_, c2 ?_, c2 ?_, ?_, ?_, ?_, ?_⟩
  · linear_combination -e1
  · linear_combination -e4
  · linear_combination -e2
  · linear_combination -e5
  · linear_combination e0
  · linear_combination e3
  · linear_combination f0
  · linear_combination f4


theorem sqFp4_eq (x0 x1 : F2) :
    F2.sqFp4 x0 x1 = (x0 * x0 + F2.xi * (x1 * x1), 2 * (x0 * x1)) := by
  obtain ⟨h1, h2, h3, h4⟩ := Fp12.sqFp4_den x0.raw_canon x1.raw_canon
  rw [F2.den_raw, F2.den_raw] at h3 h4
  unfold F2.sqFp4
  rw [F2.ofRaw_eq h1, F2.ofRaw_eq h2, h3, h4]

theorem Cyclo.sqru {x : F12} (h : Cyclo x) : x.sqru = x * x := by
  obtain ⟨i, ii, iii, iv, v, vi, vii, ix⟩ := h.rels
  conv_rhs => rw [eq_mk6 x, mk6_mul]
  unfold F12.sqru
  simp only [sqFp4_eq, F2.mulXi_mul]
  refine F12.ext (F6.ext ?_ ?_ ?_) (F6.ext ?_ ?_ ?_) <;> simp only [mk6]
  · linear_combination 2 * v
  · linear_combination 2 * iii
  · linear_combination 2 * ii
  · linear_combination 2 * i
  · linear_combination 2 * vi
  · linear_combination 2 * iv

theorem Cyclo.one : Cyclo 1 := one_pow _
theorem Cyclo.mul {x y : F12} (hx : Cyclo x) (hy : Cyclo y) : Cyclo (x * y) := by
  unfold Cyclo at *; rw [mul_pow, hx, hy, one_mul]
theorem Cyclo.pow {x : F12} (hx : Cyclo x) (n : ℕ) : Cyclo (x ^ n) := by
  unfold Cyclo at *; rw [← pow_mul, mul_comm, pow_mul, hx, one_pow]
theorem Cyclo.zpow {x : F12} (hx : Cyclo x) (n : ℤ) : Cyclo (x ^ n) := by
  unfold Cyclo at *; rw [← zpow_natCast, ← zpow_mul, mul_comm, zpow_mul, zpow_natCast, hx, one_zpow]

theorem Cp.ext' {c d : Cp} (h2 : c.g2 = d.g2) (h3 : c.g3 = d.g3) (h4 : c.g4 = d.g4) (h5 : c.g5 = d.g5) :
    c = d := by
  cases c; cases d; cases h2; cases h3; cases h4; cases h5; rfl

theorem Cp.square_eq (c : Cp) : c.square = c.sq := by
  obtain ⟨h, e⟩ := compSquare_den c.raw_canon
  have e1 : c.raw.den = c := Cp.ext' (F2.den_raw _) (F2.den_raw _) (F2.den_raw _) (F2.den_raw _)
  rw [e1] at e
  rw [← e]
  exact Cp.ext' (F2.ofRaw_eq h.1) (F2.ofRaw_eq h.2.1) (F2.ofRaw_eq h.2.2.1) (F2.ofRaw_eq h.2.2.2)

theorem Cyclo.compSquare {x : F12} (h : Cyclo x) : (Cp.ofF12 x).square = Cp.ofF12 (x * x) := by
  obtain ⟨i, ii, iii, iv, v, vi, vii, ix⟩ := h.rels
  rw [Cp.square_eq]
  conv_rhs => rw [eq_mk6 x, mk6_mul]
  unfold Cp.sq Cp.ofF12
  refine Cp.ext' ?_ ?_ ?_ ?_ <;> simp only [mk6]
  · linear_combination 2 * i
  · linear_combination 2 * ii
  · linear_combination 2 * iii
  · linear_combination 2 * iv

theorem Cyclo.squareN {x : F12} (h : Cyclo x) (n : ℕ) :
    (Cp.ofF12 x).squareN n = Cp.ofF12 (x ^ 2 ^ n) := by
  induction n with
  | zero => rw [pow_zero, pow_one]; rfl
  | succ n ih =>
    show ((Cp.ofF12 x).squareN n).square = _
    rw [ih, (h.pow _).compSquare, ← pow_two, ← pow_mul, ← pow_succ]

/-- In the cyclotomic subgroup only 1 has g2 = g3 = 0. -/
theorem Cyclo.eq_one {x : F12} (h : Cyclo x) (h2 : x.b.a = 0) (h3 : x.a.c = 0) : x = 1 := by
  obtain ⟨i, ii, iii, iv, v, vi, vii, ix⟩ := h.rels
  rw [h2, h3] at i ii iii iv v vi vii ix
  have hxi := F2.xi_not_square
  have hom := F2.om_sq
  have h20 : (2 : F2) ≠ 0 := by
    intro h0
    have := F2.divBy2_mul 1
    rw [h0, mul_zero] at this
    exact zero_ne_one this
  have h5 : x.b.c = 0 := by
    by_contra h5
    apply hxi (x.a.b / x.b.c)
    field_simp
    linear_combination ix
  have h4 : x.a.b = 0 := by
    rw [h5] at ix
    have : x.a.b * x.a.b = 0 := by linear_combination ix
    exact mul_self_eq_zero.1 this
  rw [h4, h5] at v vi vii
  have h1 : x.b.b = 0 := by
    by_contra h1
    have e : 2 * x.a.a = -1 := mul_right_cancel₀ h1 (by linear_combination vi)
    apply hxi ((2 * om - 1) / (2 * x.b.b))
    field_simp
    linear_combination 4 * hom + 4 * vii - (2 * x.a.a - 1) * e
  have h0 : x.a.a = 1 := by
    rw [h1] at v vii
    linear_combination vii - v
  rw [eq_mk6 x, h0, h1, h2, h3, h4, h5]; rfl


theorem F2.four_ne : (4 : F2) ≠ 0 := by
  intro h0
  have := F2.divBy4_mul 1
  rw [h0, mul_zero] at this
  exact zero_ne_one this

/-- `decompressBeforeInv`: the fraction is the dropped coordinate g1, and the denominator vanishes only at 1. -/
theorem Cyclo.before {x : F12} (h : Cyclo x) :
    (Cp.ofF12 x).decompressBeforeInv.1 = x.b.b * (Cp.ofF12 x).decompressBeforeInv.2 ∧
    ((Cp.ofF12 x).decompressBeforeInv.2 = 0 → x = 1) := by
  obtain ⟨i, ii, iii, iv, v, vi, vii, ix⟩ := h.rels
  by_cases h2 : x.b.a = 0
  · have hz : (Cp.ofF12 x).g2.isZero = true := (F2.isZero_iff _).2 h2
    unfold Cp.decompressBeforeInv
    rw [if_pos hz]
    refine ⟨?_, fun h3 => h.eq_one h2 h3⟩
    dsimp only [Cp.ofF12]
    apply mul_left_cancel₀ F2.xi_ne
    rw [h2] at i
    linear_combination i
  · have hz : ¬ (Cp.ofF12 x).g2.isZero = true := fun e => h2 ((F2.isZero_iff _).1 e)
    unfold Cp.decompressBeforeInv
    rw [if_neg hz]
    refine ⟨?_, fun h3 => absurd h3 h2⟩
    dsimp only [Cp.ofF12]
    apply mul_left_cancel₀ F2.four_ne
    rw [mul_comm, F2.divBy4_mul, F2.mulXi_mul, F2.square_eq, F2.square_eq]
    linear_combination 2 * ii + ix

theorem _root_.Verif.F2.add_one_eq (y : F2) : (⟨y.a + 1, y.b⟩ : F2) = y + 1 := by
  refine F2.ext ?_ ?_
  · rw [F2.add_a, F2.one_a]
  · rw [F2.add_b, F2.one_b, add_zero]

theorem after_eq (c : Cp) (g : F2) : c.decompressAfterInv g =
    ⟨⟨F2.xi * (2 * (g * g) - 3 * (c.g3 * c.g4) + c.g2 * c.g5) + 1, c.g4, c.g3⟩, ⟨c.g2, g, c.g5⟩⟩ := by
  unfold Cp.decompressAfterInv
  dsimp only
  rw [F2.add_one_eq, F2.mulXi_mul, F2.square_eq]
  congr 3
  ring

theorem Cyclo.after {x : F12} (h : Cyclo x) :
    (Cp.ofF12 x).decompressAfterInv x.b.b = x := by
  obtain ⟨i, ii, iii, iv, v, vi, vii, ix⟩ := h.rels
  rw [after_eq]
  conv_rhs => rw [eq_mk6 x]
  simp only [Cp.ofF12, mk6]
  have e : F2.xi * (2 * (x.b.b * x.b.b) - 3 * (x.a.c * x.a.b) + x.b.a * x.b.c) + 1 = x.a.a := by
    linear_combination v - vii
  rw [e]

theorem Cyclo.decompress {x : F12} (h : Cyclo x) : (Cp.ofF12 x).decompress = x := by
  have hb := h.before
  have ha := h.after
  unfold Cp.decompress
  dsimp only
  rw [hb.1]
  by_cases h0 : (Cp.ofF12 x).decompressBeforeInv.2 = 0
  · have e := hb.2 h0
    rw [h0, mul_zero, zero_mul]
    rw [e] at ha ⊢
    exact ha
  · rw [mul_assoc, mul_inv_cancel₀ h0, mul_one]; exact ha

theorem order_odd : Odd (p ^ 4 - p ^ 2 + 1) := by rw [Nat.odd_iff, p_eq]; norm_num

theorem eq_one_of_pow_two {M : Type} [Monoid M] {x : M} {N : ℕ} (hN : Odd N) (h : x ^ N = 1)
    {k : ℕ} (hk : x ^ 2 ^ k = 1) : x = 1 := by
  have hc : Nat.Coprime (2 ^ k) N := Nat.Coprime.pow_left _ (Nat.coprime_two_left.2 hN)
  have := Nat.dvd_gcd (orderOf_dvd_of_pow_eq_one hk) (orderOf_dvd_of_pow_eq_one h)
  rw [Nat.coprime_iff_gcd_eq_one.1 hc] at this
  exact orderOf_eq_one_iff.1 (Nat.dvd_one.1 this)

theorem Cyclo.of_pow_two {x : F12} (h : Cyclo x) {k : ℕ} (hk : x ^ 2 ^ k = 1) : x = 1 :=
  eq_one_of_pow_two order_odd h hk

/-- the two batched decompressions of `fixed_power` -/
theorem Cyclo.batch {x u v : F12} (hu : Cyclo u) (hv : Cyclo v) (h1u : u = 1 → x = 1)
    (h1v : v = 1 → x = 1) (hu1 : x = 1 → u = 1) (hv1 : x = 1 → v = 1) :
    (Cp.ofF12 u).decompressAfterInv ((Cp.ofF12 u).decompressBeforeInv.1 *
      (((Cp.ofF12 u).decompressBeforeInv.2 * (Cp.ofF12 v).decompressBeforeInv.2)⁻¹ *
        (Cp.ofF12 v).decompressBeforeInv.2)) = u ∧
    (Cp.ofF12 v).decompressAfterInv ((Cp.ofF12 v).decompressBeforeInv.1 *
      (((Cp.ofF12 u).decompressBeforeInv.2 * (Cp.ofF12 v).decompressBeforeInv.2)⁻¹ *
        (Cp.ofF12 u).decompressBeforeInv.2)) = v := by
  have hbu := hu.before
  have hbv := hv.before
  have hau := hu.after
  have hav := hv.after
  rw [hbu.1, hbv.1]
  by_cases h1 : x = 1
  · have eu := hu1 h1
    have ev := hv1 h1
    subst eu
    subst ev
    have hd : (Cp.ofF12 1).decompressBeforeInv.2 = 0 := by
      unfold Cp.decompressBeforeInv
      rw [if_pos ((F2.isZero_iff (Cp.ofF12 1).g2).2 rfl)]
      rfl
    have hb : (1 : F12).b.b = 0 := rfl
    rw [hd, mul_zero, zero_mul]
    rw [hb] at hau
    exact ⟨hau, hau⟩
  · have n5 : (Cp.ofF12 u).decompressBeforeInv.2 ≠ 0 := fun e => h1 (h1u (hbu.2 e))
    have n6 : (Cp.ofF12 v).decompressBeforeInv.2 ≠ 0 := fun e => h1 (h1v (hbv.2 e))
    generalize (Cp.ofF12 u).decompressBeforeInv.2 = d5 at *
    generalize (Cp.ofF12 v).decompressBeforeInv.2 = d6 at *
    have e5 : u.b.b * d5 * ((d5 * d6)⁻¹ * d6) = u.b.b := by field_simp
    have e6 : v.b.b * d6 * ((d5 * d6)⁻¹ * d5) = v.b.b := by field_simp
    rw [e5, e6]
    exact ⟨hau, hav⟩

theorem squareN_add (c : Cp) (m n : ℕ) : (c.squareN m).squareN n = c.squareN (m + n) := by
  induction n with
  | zero => rfl
  | succ n ih => show ((c.squareN m).squareN n).square = _; rw [ih]; rfl

/-- 2^62 + 2^55 + 1, the absolute value of the curve parameter z -/
@[irreducible] def absZ : ℕ := 2 ^ 62 + 2 ^ 55 + 1

theorem absZ_eq : absZ = 2 ^ 62 + 2 ^ 55 + 1 := by unfold absZ; rfl

theorem Cyclo.fixedPower {x : F12} (h : Cyclo x) : x.fixedPower = x ^ absZ := by
  have key : ∀ m n : ℕ, ((Cp.ofF12 x).squareN m).squareN n = Cp.ofF12 (x ^ 2 ^ (m + n)) := by
    intro m n
    rw [squareN_add, h.squareN]
  have hb := fun m n : ℕ => Cyclo.batch (x := x) (h.pow (2 ^ m)) (h.pow (2 ^ n))
    (fun e => h.of_pow_two e) (fun e => h.of_pow_two e) (fun e => by rw [e, one_pow])
    (fun e => by rw [e, one_pow])
  have hz : x ^ absZ = x ^ 2 ^ 55 * x * x ^ 2 ^ (55 + (62 - 55)) := by
    rw [absZ_eq, ← pow_succ, ← pow_add]
    congr 1
  unfold F12.fixedPower
  dsimp only
  generalize 62 - 55 = n at *
  generalize 55 = m at *
  rw [key, h.squareN, (hb m (m + n)).1, (hb m (m + n)).2, hz]

/-! ### Final exponentiation -/

theorem mapToCyclo_eq (x : F12) : x.mapToCyclo = (x ^ (p ^ 6) * x⁻¹) ^ (p ^ 2) * (x ^ (p ^ 6) * x⁻¹) := by
  unfold F12.mapToCyclo
  dsimp only
  rw [frobenius2_eq, pow_p6]
  exact mul_comm _ _


theorem Cyclo.conj_eq {x : F12} (h : Cyclo x) : (⟨x.a, -x.b⟩ : F12) = x⁻¹ :=
  eq_inv_of_mul_eq_one_left h.unit

/-- the curve parameter z, as an integer -/
@[irreducible] noncomputable def zI : ℤ := -(absZ : ℤ)

/-- the exponent of the hard part -/
@[irreducible] noncomputable def lam (z P : ℤ) : ℤ :=
  (12 * z ^ 3 + 12 * z ^ 2 + 6 * z + 1) + P * (12 * z ^ 3 + 6 * z ^ 2 + 4 * z) +
    P ^ 2 * (12 * z ^ 3 + 6 * z ^ 2 + 6 * z) + P ^ 3 * (12 * z ^ 3 + 6 * z ^ 2 + 4 * z - 1)

theorem chain_aux {K : Type} [Field K] {f : K} (hf : f ≠ 0) (n P : ℤ) (fix sq conj f1 f2 f3 : K → K)
    (hfix : ∀ k : ℤ, fix (f ^ k) = f ^ (k * n)) (hsq : ∀ k : ℤ, sq (f ^ k) = f ^ (2 * k))
    (hconj : ∀ k : ℤ, conj (f ^ k) = f ^ (-k)) (h1 : ∀ k : ℤ, f1 (f ^ k) = f ^ (k * P))
    (h2 : ∀ k : ℤ, f2 (f ^ k) = f ^ (k * P ^ 2)) (h3 : ∀ k : ℤ, f3 (f ^ k) = f ^ (k * P ^ 3))
    {g f2z f6z f6z2 a f12z3 f6z' f12z3' a' a'' b z z' z1 z2 b' : K} (e : g = f ^ (1 : ℤ))
    (e1 : f2z = sq (fix g)) (e2 : f6z = sq f2z * f2z) (e3 : f6z2 = fix f6z) (e4 : a = sq f6z2)
    (e5 : f12z3 = fix a) (e6 : f6z' = conj f6z) (e7 : f12z3' = conj f12z3) (e8 : a' = f12z3' * f6z2)
    (e9 : a'' = a' * f6z') (e10 : b = a'' * f2z) (e11 : z = a'' * f6z2) (e12 : z' = z * g)
    (e13 : z1 = z' * f1 b) (e14 : z2 = z1 * f2 a'') (e15 : b' = b * conj g) :
    z2 * f3 b' = f ^ lam (-n) P := by
  have hmul : ∀ k l : ℤ, f ^ k * f ^ l = f ^ (k + l) := fun k l => (zpow_add₀ hf k l).symm
  rw [e, hfix, hsq] at e1
  rw [e1, hsq, hmul] at e2
  rw [e2, hfix] at e3
  rw [e3, hsq] at e4
  rw [e4, hfix] at e5
  rw [e2, hconj] at e6
  rw [e5, hconj] at e7
  rw [e7, e3, hmul] at e8
  rw [e8, e6, hmul] at e9
  rw [e9, e1, hmul] at e10
  rw [e9, e3, hmul] at e11
  rw [e11, e, hmul] at e12
  rw [e12, e10, h1, hmul] at e13
  rw [e13, e9, h2, hmul] at e14
  rw [e10, e, hconj, hmul] at e15
  rw [e14, e15, h3, hmul]
  unfold lam
  congr 1
  ring

theorem Cyclo.fix_zpow {f : F12} (h : Cyclo f) (k : ℤ) : (f ^ k).fixedPower = f ^ (k * absZ) := by
  rw [(h.zpow k).fixedPower, zpow_mul, zpow_natCast]
theorem Cyclo.sqru_zpow {f : F12} (h : Cyclo f) (k : ℤ) : (f ^ k).sqru = f ^ (2 * k) := by
  rw [(h.zpow k).sqru, ← zpow_add₀ h.ne, two_mul]
theorem zpow_neg_aux {K : Type} [Field K] {f c y : K} {k : ℤ} (hy : f ^ k = y) (h : c * y = 1) :
    c = f ^ (-k) := by
  rw [zpow_neg, hy]; exact eq_inv_of_mul_eq_one_left h
theorem Cyclo.conj_zpow {f : F12} (h : Cyclo f) (k : ℤ) : F12.conj (f ^ k) = f ^ (-k) :=
  zpow_neg_aux rfl (h.zpow k).unit
theorem frobenius_zpow (f : F12) (k : ℤ) : (f ^ k).frobenius = f ^ (k * p) := by
  rw [frobenius_eq, zpow_mul, zpow_natCast]
theorem frobenius2_zpow (f : F12) (k : ℤ) : (f ^ k).frobenius2 = f ^ (k * (p : ℤ) ^ 2) := by
  rw [frobenius2_eq, zpow_mul, ← Nat.cast_pow, zpow_natCast]
theorem frobenius3_zpow (f : F12) (k : ℤ) : (f ^ k).frobenius3 = f ^ (k * (p : ℤ) ^ 3) := by
  rw [frobenius3_eq, zpow_mul, ← Nat.cast_pow, zpow_natCast]

theorem Cyclo.hardPart {f : F12} (h : Cyclo f) : f.hardPart = f ^ lam zI (p : ℤ) := by
  unfold F12.hardPart zI
  exact chain_aux h.ne (absZ : ℤ) (p : ℤ) F12.fixedPower F12.sqru F12.conj F12.frobenius
    F12.frobenius2 F12.frobenius3 h.fix_zpow h.sqru_zpow h.conj_zpow (frobenius_zpow f)
    (frobenius2_zpow f) (frobenius3_zpow f) (zpow_one f).symm
    rfl rfl rfl rfl rfl rfl rfl rfl rfl rfl rfl rfl rfl rfl rfl

theorem easy_aux {K : Type} [Field K] {x : K} (hx : x ≠ 0) (A B : ℕ) (hA : 1 ≤ A) :
    (x ^ A * x⁻¹) ^ B * (x ^ A * x⁻¹) = x ^ ((A - 1) * (B + 1)) := by
  have : x ^ A * x⁻¹ = x ^ (A - 1) := by
    obtain ⟨a, rfl⟩ := Nat.exists_eq_add_of_le' hA
    rw [pow_succ, mul_assoc, mul_inv_cancel₀ hx, mul_one, Nat.add_sub_cancel]
  rw [this, ← pow_succ, ← pow_mul]

theorem mapToCyclo_pow {x : F12} (hx : x ≠ 0) : x.mapToCyclo = x ^ ((p ^ 6 - 1) * (p ^ 2 + 1)) := by
  rw [mapToCyclo_eq, easy_aux hx _ _ (Nat.one_le_pow _ _ (by rw [p_eq]; norm_num))]

theorem easy_mul : (p ^ 6 - 1) * (p ^ 2 + 1) * (p ^ 4 - p ^ 2 + 1) = p ^ 12 - 1 := by
  rw [p_eq]; norm_num

theorem mapToCyclo_cyclo {x : F12} (hx : x ≠ 0) : Cyclo x.mapToCyclo := by
  unfold Cyclo
  rw [mapToCyclo_pow hx, ← pow_mul, easy_mul]
  exact pow_p12_sub hx

theorem finalExp_zpow {x : F12} (hx : x ≠ 0) :
    x.finalExp = x ^ ((((p ^ 6 - 1) * (p ^ 2 + 1) : ℕ) : ℤ) * lam zI p) := by
  unfold F12.finalExp
  rw [(mapToCyclo_cyclo hx).hardPart, mapToCyclo_pow hx, zpow_mul, zpow_natCast]


/-- the factor by which the exponent of `final_exp` differs from (p^12 - 1)/r -/
@[irreducible] noncomputable def mFac (z : ℤ) : ℤ := 2 * z * (6 * z ^ 2 + 3 * z + 1)

theorem zI_eq : zI = -(2 ^ 62 + 2 ^ 55 + 1) := by
  unfold zI; rw [absZ_eq]; norm_num

theorem lam_eq : (((p ^ 6 - 1) * (p ^ 2 + 1) : ℕ) : ℤ) * lam zI p =
    (((p ^ 12 - 1) / r : ℕ) : ℤ) * mFac zI := by
  rw [zI_eq]
  unfold lam mFac r
  rw [p_eq]
  norm_num

theorem mFac_coprime : Int.gcd (mFac zI) r = 1 := by
  rw [zI_eq]; unfold mFac r; norm_num

theorem r_dvd : (p ^ 12 - 1) / r * r = p ^ 12 - 1 := by
  unfold r; rw [p_eq]; norm_num

/-- the reduced exponent of the pairing value -/
@[irreducible] noncomputable def redExp : ℕ := (p ^ 12 - 1) / r

theorem finalExp_eq {x : F12} (hx : x ≠ 0) : x.finalExp = (x ^ redExp) ^ mFac zI := by
  rw [finalExp_zpow hx, lam_eq, zpow_mul, zpow_natCast]
  unfold redExp; rfl

theorem redExp_pow {x : F12} (hx : x ≠ 0) : (x ^ redExp) ^ r = 1 := by
  have e : redExp * r = p ^ 12 - 1 := by unfold redExp; exact r_dvd
  rw [← pow_mul, e]
  exact pow_p12_sub hx

theorem zpow_root {K : Type} [Field K] {y : K} {n : ℕ} (h : y ^ n = 1) (m : ℤ) : (y ^ m) ^ n = 1 := by
  rw [← zpow_natCast, ← zpow_mul, mul_comm, zpow_mul, zpow_natCast, h, one_zpow]

theorem zpow_eq_one_coprime {K : Type} [Field K] {y : K} {n : ℕ} (h : y ^ n = 1) {m : ℤ}
    (hm : Int.gcd m n = 1) (h1 : y ^ m = 1) : y = 1 := by
  rcases eq_or_ne y 0 with rfl | hy
  · rcases Nat.eq_zero_or_pos n with rfl | hn
    · rw [Nat.cast_zero, Int.gcd_zero_right] at hm
      rcases Int.natAbs_eq m with e | e <;> rw [hm] at e <;> rw [e] at h1 <;> simp at h1
    · rw [zero_pow hn.ne'] at h; exact absurd h zero_ne_one
  · have e := Int.gcd_eq_gcd_ab m n
    rw [hm] at e
    calc y = y ^ ((1 : ℕ) : ℤ) := by rw [Nat.cast_one, zpow_one]
      _ = 1 := by
        rw [e, zpow_add₀ hy, zpow_mul, zpow_mul, h1, zpow_natCast, h, one_zpow, one_zpow, one_mul]

theorem finalExp_pow_r {x : F12} (hx : x ≠ 0) : x.finalExp ^ r = 1 := by
  rw [finalExp_eq hx]; exact zpow_root (redExp_pow hx) _

theorem finalExp_eq_one {x : F12} (hx : x ≠ 0) : x.finalExp = 1 ↔ x ^ redExp = 1 := by
  rw [finalExp_eq hx]
  exact ⟨fun h => zpow_eq_one_coprime (redExp_pow hx) mFac_coprime h, fun h => by rw [h, one_zpow]⟩

theorem finalExp_mul {x y : F12} (hx : x ≠ 0) (hy : y ≠ 0) :
    (x * y).finalExp = x.finalExp * y.finalExp := by
  rw [finalExp_eq (mul_ne_zero hx hy), finalExp_eq hx, finalExp_eq hy, mul_pow, mul_zpow]

theorem finalExp_one : (1 : F12).finalExp = 1 := (finalExp_eq_one one_ne_zero).2 (one_pow _)

theorem redExp_p6 : ∃ k, redExp = (p ^ 6 - 1) * k := by
  refine ⟨(p ^ 6 + 1) / r, ?_⟩
  unfold redExp r; rw [p_eq]; norm_num

theorem pow_p6_sub {x : F12} (hx : x ≠ 0) (h : x ^ p ^ 6 = x) : x ^ (p ^ 6 - 1) = 1 := by
  have hp : p ^ 6 = (p ^ 6 - 1) + 1 := (Nat.sub_add_cancel (Nat.one_le_pow _ _ (by rw [p_eq]; norm_num))).symm
  rw [hp, pow_succ] at h
  exact mul_right_cancel₀ hx (by rw [one_mul]; exact h)

theorem finalExp_sub {x : F12} (hx : x ≠ 0) (h : x ^ p ^ 6 = x) : x.finalExp = 1 := by
  obtain ⟨k, hk⟩ := redExp_p6
  rw [finalExp_eq_one hx, hk, pow_mul, pow_p6_sub hx h, one_pow]

theorem finalExp_zero : (0 : F12).finalExp = 0 := by
  unfold F12.finalExp
  rw [mapToCyclo_eq, _root_.inv_zero, mul_zero, mul_zero]
  unfold F12.hardPart
  dsimp only
  rw [frobenius3_eq]
  have : ∀ y : F12, (y * (⟨(0 : F12).a, -(0 : F12).b⟩ : F12)) = 0 := by
    intro y
    have e : (⟨(0 : F12).a, -(0 : F12).b⟩ : F12) = 0 := by
      rw [zero_a, zero_b, neg_zero]; rfl
    rw [e, mul_zero]
  rw [this, zero_pow (pow_ne_zero _ p_pos.ne'), mul_zero]

end F12
end Verif
