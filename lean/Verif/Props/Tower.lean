import Verif.Tower.Wrap

/-!
Property theorems C29-C35 and the Fp2 part of C53: the extension tower, Frobenius maps, cyclotomic
arithmetic and final exponentiation.

Vocabulary. `R2`, `R6`, `R12` are the raw buffers of `Fp2`, `Fp6`, `Fp12` objects (natural numbers in
256-bit buffers); `Canon` says every buffer is below p. `F2`, `F6`, `F12` are canonical objects and the
operators `+ - * ⁻¹` on them are the modelled code. `residue n` is the element of Z/pZ a buffer stands for.
-/

namespace Verif
open Fp

/-! ### C29 -/

/-- **C29** `Fp2::add`, `sub`, `neg`: componentwise in Z/pZ, canonical results. -/
theorem C29_addsub {x y : R2} (hx : x.Canon) (hy : y.Canon) :
    ((Fp2.add x y).Canon ∧ residue (Fp2.add x y).a = residue x.a + residue y.a ∧
      residue (Fp2.add x y).b = residue x.b + residue y.b) ∧
    ((Fp2.sub x y).Canon ∧ residue (Fp2.sub x y).a = residue x.a - residue y.a ∧
      residue (Fp2.sub x y).b = residue x.b - residue y.b) ∧
    ((Fp2.neg x).Canon ∧ residue (Fp2.neg x).a = -residue x.a ∧ residue (Fp2.neg x).b = -residue x.b) :=
  ⟨⟨⟨add_lt hx.1 hy.1, add_lt hx.2 hy.2⟩, residue_add hx.1 hy.1, residue_add hx.2 hy.2⟩,
   ⟨⟨sub_lt hx.1 hy.1, sub_lt hx.2 hy.2⟩, residue_sub hx.1 hy.1, residue_sub hx.2 hy.2⟩,
   ⟨⟨neg_lt hx.1, neg_lt hx.2⟩, residue_neg hx.1, residue_neg hx.2⟩⟩

/-- **C29** `Fp2::mul` (generated code with lazy reduction): (a + bu)(c + du) with u² = -1. -/
theorem C29_mul {x y : R2} (hx : x.Canon) (hy : y.Canon) : (Fp2.mul x y).Canon ∧
    residue (Fp2.mul x y).a = residue x.a * residue y.a - residue x.b * residue y.b ∧
    residue (Fp2.mul x y).b = residue x.a * residue y.b + residue x.b * residue y.a :=
  Fp2.mul_spec hx hy

/-- **C29** `Fp2::square`. -/
theorem C29_square {x : R2} (hx : x.Canon) : (Fp2.square x).Canon ∧
    residue (Fp2.square x).a = residue x.a * residue x.a - residue x.b * residue x.b ∧
    residue (Fp2.square x).b = residue x.a * residue x.b + residue x.b * residue x.a :=
  Fp2.square_spec hx

/-- **C29** `mul_xi` multiplies by 1 + u; `mul_Fp_0` by an Fp element; `divBy2`, `divBy4` halve and quarter. -/
theorem C29_scale {x : R2} {y : ℕ} (hx : x.Canon) (hy : Canon y) :
    ((Fp2.mulXi x).Canon ∧ residue (Fp2.mulXi x).a = residue x.a - residue x.b ∧
      residue (Fp2.mulXi x).b = residue x.a + residue x.b) ∧
    ((Fp2.mulFp0 x y).Canon ∧ residue (Fp2.mulFp0 x y).a = residue x.a * residue y ∧
      residue (Fp2.mulFp0 x y).b = residue x.b * residue y) ∧
    ((Fp2.divBy2 x).Canon ∧ residue (Fp2.divBy2 x).a = residue x.a / 2 ∧
      residue (Fp2.divBy2 x).b = residue x.b / 2) ∧
    ((Fp2.divBy4 x).Canon ∧ residue (Fp2.divBy4 x).a = residue x.a / 4 ∧
      residue (Fp2.divBy4 x).b = residue x.b / 4) :=
  ⟨⟨⟨sub_lt hx.1 hx.2, add_lt hx.1 hx.2⟩, residue_sub hx.1 hx.2, residue_add hx.1 hx.2⟩,
   ⟨⟨mul_lt hx.1 hy, mul_lt hx.2 hy⟩, residue_mul hx.1 hy, residue_mul hx.2 hy⟩,
   ⟨⟨(divBy2_spec hx.1).1, (divBy2_spec hx.2).1⟩, residue_divBy2 hx.1, residue_divBy2 hx.2⟩,
   ⟨⟨(divBy4_spec hx.1).1, (divBy4_spec hx.2).1⟩, residue_divBy4 hx.1, residue_divBy4 hx.2⟩⟩

/-- **C29** `mul_x` multiplies by u, `mul_Fp_1` by an Fp multiple of u. -/
theorem C29_mul_u (x : F2) (y : Fe) :
    x.mulX.a = -x.b ∧ x.mulX.b = x.a ∧ (x.mulFp1 y).a = -(x.b * y) ∧ (x.mulFp1 y).b = x.a * y :=
  ⟨rfl, rfl, rfl, rfl⟩

/-- **C29** `Fp2::inverse`; the inverse of 0 is 0. -/
theorem C29_inverse (x : F2) : (x ≠ 0 → x⁻¹ * x = 1) ∧ (0 : F2)⁻¹ = 0 :=
  ⟨fun h => inv_mul_cancel₀ h, F2.inv_zero'⟩

/-- **C29** `isZero` and `operator==` decide the stored values. -/
theorem C29_eq (x y : F2) : (x.isZero = true ↔ x = 0) ∧ (F2.eq x y = true ↔ x = y) :=
  ⟨F2.isZero_iff x, F2.eq_iff x y⟩

example : (⟨p - 1, p - 1⟩ : R2).Canon ∧ Fp2.mul ⟨p - 1, p - 1⟩ ⟨p - 1, p - 2⟩ ≠ ⟨0, 0⟩ ∧
    Fp2.square ⟨p - 1, p - 1⟩ = Fp2.mul ⟨p - 1, p - 1⟩ ⟨p - 1, p - 1⟩ ∧
    Fp2.mulXi ⟨3, 5⟩ = ⟨p - 2, 8⟩ ∧ Fp2.divBy2 ⟨3, 4⟩ = ⟨(p + 3) / 2, 2⟩ := by decide +kernel

example : (⟨1, 1⟩ : F2) ≠ 0 ∧ F2.eq ⟨1, 1⟩ ⟨1, 0⟩ = false ∧ F2.isZero ⟨0, 1⟩ = false := by
  refine ⟨F2.xi_ne, by decide +kernel, by decide +kernel⟩

/-! ### C30 -/

/-- **C30** `Fp6` add, sub, neg are componentwise. -/
theorem C30_addsub (x y : F6) :
    x + y = ⟨x.a + y.a, x.b + y.b, x.c + y.c⟩ ∧ x - y = ⟨x.a - y.a, x.b - y.b, x.c - y.c⟩ ∧
    -x = ⟨-x.a, -x.b, -x.c⟩ := ⟨rfl, rfl, rfl⟩

/-- **C30** `Fp6::mul` (generated code) multiplies a + bv + cv² with v³ = 1 + u. -/
theorem C30_mul (x y : F6) : x * y =
    ⟨x.a * y.a + (⟨1, 1⟩ : F2) * (x.b * y.c + x.c * y.b),
     x.a * y.b + x.b * y.a + (⟨1, 1⟩ : F2) * (x.c * y.c),
     x.a * y.c + x.b * y.b + x.c * y.a⟩ :=
  F6.ext (F6.mul_a x y) (F6.mul_b x y) (F6.mul_c x y)

/-- **C30** the result of `Fp6::mul` on canonical buffers is canonical. -/
theorem C30_canon {x y : R6} (hx : x.Canon) (hy : y.Canon) : (Fp6.mul x y).Canon := Fp6.mul_canon hx hy

/-- **C30** `Fp6Dbl::mul` keeps its six 512-bit results below p·2^256. -/
theorem C30_lazy {x y : R6} (hx : x.Canon) (hy : y.Canon) :
    (Fp6.dMul x y).a.a < p * 2 ^ 256 ∧ (Fp6.dMul x y).a.b < p * 2 ^ 256 ∧
    (Fp6.dMul x y).b.a < p * 2 ^ 256 ∧ (Fp6.dMul x y).b.b < p * 2 ^ 256 ∧
    (Fp6.dMul x y).c.a < p * 2 ^ 256 ∧ (Fp6.dMul x y).c.b < p * 2 ^ 256 := by
  have h := (Fp6.dMul_den' hx hy).1
  have e : p * 2 ^ 256 = pN := by rw [pN_eq]; unfold w256; rfl
  rw [e]
  exact ⟨h.1.1, h.1.2, h.2.1.1, h.2.1.2, h.2.2.1, h.2.2.2⟩

/-- **C30** `Fp6::square`. -/
theorem C30_square (x : F6) : x.square = x * x := F6.square_eq x

/-- **C30** `Fp6::inverse`; the inverse of 0 is 0. -/
theorem C30_inverse (x : F6) : (x ≠ 0 → x⁻¹ * x = 1) ∧ (0 : F6)⁻¹ = 0 :=
  ⟨fun h => inv_mul_cancel₀ h, F6.inv_zero'⟩

/-- **C30** `isZero` and `operator==`. -/
theorem C30_eq (x y : F6) : (x.isZero = true ↔ x = 0) ∧ (F6.eq x y = true ↔ x = y) :=
  ⟨F6.isZero_iff x, F6.eq_iff x y⟩

example : (⟨0, 1, 0⟩ : F6) * ⟨0, 1, 0⟩ * ⟨0, 1, 0⟩ = ⟨⟨1, 1⟩, 0, 0⟩ := F6.v_cube
example : (⟨⟨p - 1, p - 1⟩, ⟨p - 1, p - 1⟩, ⟨p - 1, p - 1⟩⟩ : R6).Canon := by decide +kernel

/-! ### C31 -/

/-- **C31** `Fp12` add, sub, neg are componentwise. -/
theorem C31_addsub (x y : F12) :
    x + y = ⟨x.a + y.a, x.b + y.b⟩ ∧ x - y = ⟨x.a - y.a, x.b - y.b⟩ ∧ -x = ⟨-x.a, -x.b⟩ := ⟨rfl, rfl, rfl⟩

/-- **C31** `Fp12::mul` (generated code) multiplies a + bw with w² = v. -/
theorem C31_mul (x y : F12) : x * y =
    ⟨x.a * y.a + (⟨0, 1, 0⟩ : F6) * (x.b * y.b), x.a * y.b + x.b * y.a⟩ :=
  F12.ext (F12.mul_a x y) (F12.mul_b x y)

/-- **C31** results of `Fp12::mul` and `Fp12::square` on canonical buffers are canonical. -/
theorem C31_canon {x y : R12} (hx : x.Canon) (hy : y.Canon) :
    (Fp12.mul x y).Canon ∧ (Fp12.square x).Canon := ⟨(Fp12.mul_den hx hy).1, (Fp12.square_den hx).1⟩

/-- **C31** `Fp12::square`. -/
theorem C31_square (x : F12) : x.square = x * x := F12.square_eq x

/-- **C31** `Fp12::inverse`; the inverse of 0 is 0. -/
theorem C31_inverse (x : F12) : (x ≠ 0 → x⁻¹ * x = 1) ∧ (0 : F12)⁻¹ = 0 :=
  ⟨fun h => inv_mul_cancel₀ h, F12.inv_zero'⟩

/-- **C31** `isZero` and `operator==`. -/
theorem C31_eq (x y : F12) : (x.isZero = true ↔ x = 0) ∧ (F12.eq x y = true ↔ x = y) :=
  ⟨F12.isZero_iff x, F12.eq_iff x y⟩

/-- **C31** the multiplicative group has exponent dividing p^12 - 1, as in the field with p^12 elements. -/
theorem C31_order {x : F12} (hx : x ≠ 0) : x ^ (p ^ 12 - 1) = 1 := F12.pow_p12_sub hx

example : (⟨0, 1⟩ : F12) * ⟨0, 1⟩ = ⟨⟨0, 1, 0⟩, 0⟩ := F12.w_mul_w

/-! ### C32 -/

/-- **C32** `mul_Fp2_024`: multiplication by the line value (a, 0, c) + (0, b, 0)w. -/
theorem C32_mul024 (z : F12) (x : F6) : z.mul024 x = z * ⟨⟨x.a, 0, x.c⟩, ⟨0, x.b, 0⟩⟩ := F12.mul024_eq z x

/-- **C32** `mul_Fp2_024_Fp2_024`: the product of two line values. -/
theorem C32_mul024_024 (x y : F6) :
    F12.mul024_024 x y = ⟨⟨x.a, 0, x.c⟩, ⟨0, x.b, 0⟩⟩ * ⟨⟨y.a, 0, y.c⟩, ⟨0, y.b, 0⟩⟩ := F12.mul024_024_eq x y

/-- **C32** both store canonical buffers. -/
theorem C32_canon {z : R12} {x y : R6} (hz : z.Canon) (hx : x.Canon) (hy : y.Canon) :
    (Fp12.mul024 z x).Canon ∧ (Fp12.mul024_024 x y).Canon :=
  ⟨(Fp12.mul024_den hz hx).1, (Fp12.mul024_024_den hx hy).1⟩

example : F12.mul024_024 ⟨1, ⟨1, 1⟩, 0⟩ ⟨0, 1, 1⟩ ≠ 0 := by
  rw [C32_mul024_024]
  refine mul_ne_zero ?_ ?_ <;> decide +kernel

/-! ### C33 -/

/-- **C33** `Fp12::Frobenius` is x ↦ x^p. -/
theorem C33_frobenius (x : F12) : x.frobenius = x ^ p := F12.frobenius_eq x
/-- **C33** `Fp12::Frobenius2` is x ↦ x^(p²). -/
theorem C33_frobenius2 (x : F12) : x.frobenius2 = x ^ (p ^ 2) := F12.frobenius2_eq x
/-- **C33** `Fp12::Frobenius3` is x ↦ x^(p³). -/
theorem C33_frobenius3 (x : F12) : x.frobenius3 = x ^ (p ^ 3) := F12.frobenius3_eq x

example : (⟨⟨⟨0, 1⟩, 0, 0⟩, 0⟩ : F12).frobenius ≠ ⟨⟨⟨0, 1⟩, 0, 0⟩, 0⟩ := by decide +kernel

/-! ### C34 -/

/-- **C34** `sqru` squares on the cyclotomic subgroup. -/
theorem C34_sqru {x : F12} (h : x ^ (p ^ 4 - p ^ 2 + 1) = 1) : x.sqru = x * x := F12.Cyclo.sqru h

/-- **C34** compress, square n times, decompress: x^(2^n), for every n. -/
theorem C34_square_n {x : F12} (h : x ^ (p ^ 4 - p ^ 2 + 1) = 1) (n : ℕ) :
    ((Cp.ofF12 x).squareN n).decompress = x ^ 2 ^ n := by
  rw [F12.Cyclo.squareN h, (F12.Cyclo.pow h _).decompress]

/-- **C34** `fixed_power` is x ↦ x^|z| on the cyclotomic subgroup. -/
theorem C34_fixed_power {x : F12} (h : x ^ (p ^ 4 - p ^ 2 + 1) = 1) :
    x.fixedPower = x ^ (2 ^ 62 + 2 ^ 55 + 1) := by
  rw [← F12.absZ_eq]; exact F12.Cyclo.fixedPower h

/-- **C34** `mapToCyclo` is x ↦ x^((p^6-1)(p²+1)) and lands in the subgroup. -/
theorem C34_mapToCyclo {x : F12} (hx : x ≠ 0) :
    x.mapToCyclo = x ^ ((p ^ 6 - 1) * (p ^ 2 + 1)) ∧ x.mapToCyclo ^ (p ^ 4 - p ^ 2 + 1) = 1 :=
  ⟨F12.mapToCyclo_pow hx, F12.mapToCyclo_cyclo hx⟩

/-- **C34** in the subgroup the conjugate is the inverse. -/
theorem C34_conj {x : F12} (h : x ^ (p ^ 4 - p ^ 2 + 1) = 1) : (⟨x.a, -x.b⟩ : F12) * x = 1 :=
  F12.Cyclo.unit h

/-- a cyclotomic element other than 1, so the hypotheses above are met non-trivially -/
example : ∃ x : F12, x ≠ 1 ∧ x ^ (p ^ 4 - p ^ 2 + 1) = 1 := by
  refine ⟨(⟨1, 1⟩ : F12).mapToCyclo, by decide +kernel, F12.mapToCyclo_cyclo (by decide +kernel)⟩

/-! ### C35 -/

/-- **C35** `final_exp`: the (m·(p^12-1)/r)-th power, m = 2z(6z²+3z+1) coprime to r. -/
theorem C35_power {x : F12} (hx : x ≠ 0) (z : ℤ) (hz : z = -(2 ^ 62 + 2 ^ 55 + 1)) :
    x.finalExp = (x ^ ((p ^ 12 - 1) / r)) ^ (2 * z * (6 * z ^ 2 + 3 * z + 1)) ∧
    (p ^ 12 - 1) / r * r = p ^ 12 - 1 ∧ Int.gcd (2 * z * (6 * z ^ 2 + 3 * z + 1)) r = 1 := by
  have e := F12.zI_eq
  rw [← hz] at e
  have h1 := F12.finalExp_eq hx
  have h2 := F12.mFac_coprime
  rw [e] at h1 h2
  unfold F12.mFac at h1 h2
  unfold F12.redExp at h1
  exact ⟨h1, F12.r_dvd, h2⟩

/-- **C35** the result is an r-th root of unity. -/
theorem C35_root {x : F12} (hx : x ≠ 0) : x.finalExp ^ r = 1 := F12.finalExp_pow_r hx

/-- **C35** the result is 1 exactly when x^((p^12-1)/r) = 1: nothing else is lost. -/
theorem C35_kernel {x : F12} (hx : x ≠ 0) : x.finalExp = 1 ↔ x ^ ((p ^ 12 - 1) / r) = 1 := by
  have := F12.finalExp_eq_one hx
  unfold F12.redExp at this
  exact this

/-- **C35** factors from the subfield fixed by the p^6-power map (Fp6 and its subfields) are erased. -/
theorem C35_subfield {x : F12} (hx : x ≠ 0) (h : x ^ p ^ 6 = x) : x.finalExp = 1 := F12.finalExp_sub hx h

/-- **C35** `final_exp` is multiplicative, and 0 ↦ 0. -/
theorem C35_mul {x y : F12} (hx : x ≠ 0) (hy : y ≠ 0) :
    (x * y).finalExp = x.finalExp * y.finalExp ∧ (0 : F12).finalExp = 0 :=
  ⟨F12.finalExp_mul hx hy, F12.finalExp_zero⟩

/-- the final exponentiation is not the constant 1 -/
example : (⟨1, 1⟩ : F12) ≠ 0 ∧ (⟨1, 1⟩ : F12).finalExp ≠ 1 := by
  refine ⟨by decide +kernel, by decide +kernel⟩

/-! ### C53, Fp2 part -/

/-- **C53** `Fp2T::squareC` does not square: at x = 1 + 2u (Montgomery buffers 1, 2) the stored real part is
not a² - b². -/
theorem C53_fp2_squareC_wrong : ∃ x : R2, x.Canon ∧
    residue (Fp2.squareC x).a ≠ residue x.a * residue x.a - residue x.b * residue x.b := by
  refine ⟨⟨1, 2⟩, by decide +kernel, ?_⟩
  have h : (⟨1, 2⟩ : R2).Canon := by decide +kernel
  rw [← (C29_square h).2.1]
  intro e
  have := residue_inj (x := (Fp2.squareC ⟨1, 2⟩).a) (y := (Fp2.square ⟨1, 2⟩).a) (by decide +kernel)
    (by decide +kernel) e
  revert this
  decide +kernel

end Verif
