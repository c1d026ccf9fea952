import Verif.Fp.Sqrt
import Verif.Fp.Fallback

/-!
Property theorems C19-C28 and C53: `mie::Fp` and `mie::Fp::Dbl`.

Vocabulary of the statements (Fp/Spec.lean): an `Fp` object is the number in its 256-bit buffer, a `Dbl`
object the number in its 512-bit buffer; `Canon x` says the buffer number is below p; `residue x` is the
element x / 2^256 of Z/pZ it represents (Montgomery form), `residueD X` = X / 2^512 for a `Dbl`.
-/

namespace Verif
open Fp

/-- the curve parameter z of `CurveFp254BNb`, bn.h:80-82 -/
def curveZ : ℤ := -(2 ^ 62 + 2 ^ 55 + 1)

/-- **C19** p and r are the values of the two polynomials at z, both prime, p = 3 mod 4, p has 254
bits, and r = p + 1 - t for the trace t = 6z^2+1. -/
theorem C19_params :
    (p : ℤ) = 36 * curveZ ^ 4 + 36 * curveZ ^ 3 + 24 * curveZ ^ 2 + 6 * curveZ + 1 ∧
    (r : ℤ) = 36 * curveZ ^ 4 + 36 * curveZ ^ 3 + 18 * curveZ ^ 2 + 6 * curveZ + 1 ∧
    (r : ℤ) = p + 1 - (6 * curveZ ^ 2 + 1) ∧
    Nat.Prime p ∧ Nat.Prime r ∧ p % 4 = 3 ∧ 2 ^ 253 < p ∧ p < 2 ^ 254 := by
  refine ⟨by decide +kernel, by decide +kernel, by decide +kernel, p_prime, r_prime,
    by decide +kernel, by decide +kernel, by decide +kernel⟩

/-- **C19** the documented decimal constants. -/
theorem C19_decimal :
    p = 16798108731015832284940804142231733909889187121439069848933715426072753864723 ∧
    r = 16798108731015832284940804142231733909759579603404752749028378864165570215949 := by
  decide +kernel

/-- **C20** `Fp::add` -/
theorem C20_add {x y : ℕ} (hx : Canon x) (hy : Canon y) :
    Canon (Fp.add x y) ∧ residue (Fp.add x y) = residue x + residue y :=
  ⟨add_lt hx hy, residue_add hx hy⟩

/-- **C20** `Fp::sub` -/
theorem C20_sub {x y : ℕ} (hx : Canon x) (hy : Canon y) :
    Canon (Fp.sub x y) ∧ residue (Fp.sub x y) = residue x - residue y :=
  ⟨sub_lt hx hy, residue_sub hx hy⟩

/-- **C20** `Fp::neg` -/
theorem C20_neg {x : ℕ} (hx : Canon x) :
    Canon (Fp.neg x) ∧ residue (Fp.neg x) = -residue x :=
  ⟨neg_lt hx, residue_neg hx⟩

example : Canon (p - 1) ∧ Canon 5 ∧ Fp.add (p - 1) 5 = 4 ∧ Fp.sub 5 (p - 1) = 6 ∧ Fp.neg 0 = 0 ∧
    Fp.neg 5 = p - 5 := by decide +kernel

/-- **C21** `Fp::mul` -/
theorem C21_mul {x y : ℕ} (hx : Canon x) (hy : Canon y) :
    Canon (Fp.mul x y) ∧ residue (Fp.mul x y) = residue x * residue y :=
  ⟨mul_lt hx hy, residue_mul hx hy⟩

/-- **C21** `Fp::square` -/
theorem C21_square {x : ℕ} (hx : Canon x) :
    Canon (Fp.square x) ∧ residue (Fp.square x) = residue x ^ 2 :=
  ⟨mul_lt hx hx, by rw [pow_two]; exact residue_mul hx hx⟩

-- the operand with the largest intermediate values
example : Canon (p - 1) ∧ Fp.mul (p - 1) (p - 1) * 2 ^ 256 % p = 1 := by decide +kernel

/-- **C22** `Fp(x)` for a `Vuint` x of at most 5 words (in particular every x < p) stores the canonical
element representing x; a longer x exits for capacity. -/
theorem C22_set {x : List ℕ} (hx : WF x) :
    (x.length ≤ 5 → ∃ y, Fp.set x = .ok y ∧ Canon y ∧ residue y = (val x : ZMod p)) ∧
    (5 < x.length → Fp.set x = .exit) :=
  ⟨set_spec hx, set_exit hx⟩

/-- **C22** `Fp(i)` for an `int` i other than INT_MIN represents i. -/
theorem C22_setInt {i : ℤ} (h1 : -2 ^ 31 < i) (h2 : i < 2 ^ 31) :
    ∃ y, Fp.setInt i = .ok y ∧ Canon y ∧ residue y = (i : ZMod p) :=
  setInt_spec h1 h2

/-- **C22** `get()` returns a well-formed number below p that represents the element. -/
theorem C22_get {x : ℕ} (hx : Canon x) :
    ∃ z, Fp.get x = .ok z ∧ WF z ∧ val z < p ∧ (val z : ZMod p) = residue x :=
  get_spec hx

/-- **C22** set then get returns the number, for every number below p. -/
theorem C22_get_set {x : List ℕ} (hx : WF x) (hp : val x < p) :
    ∃ y, Fp.set x = .ok y ∧ Fp.get y = .ok x := by
  have h4 := p_lt_W
  obtain ⟨y, e, hy, hr⟩ := set_spec hx
    (le_trans (length_le_of_lt 4 hx (by norm_num; omega) (by norm_num)) (by norm_num))
  obtain ⟨z, e2, wz, hz, hr2⟩ := get_spec hy
  rw [hr] at hr2
  rw [WF.ext wz hx (cast_inj hz hp hr2)] at e2
  exact ⟨y, e, e2⟩

/-- **C22** get then set returns the same object, for every canonical object. -/
theorem C22_set_get {x : ℕ} (hx : Canon x) :
    ∃ z, Fp.get x = .ok z ∧ Fp.set z = .ok x := by
  have h4 := p_lt_W
  obtain ⟨z, e, wz, hz, hr⟩ := get_spec hx
  obtain ⟨y, e2, hy, hr2⟩ := set_spec wz
    (le_trans (length_le_of_lt 4 wz (by norm_num; omega) (by norm_num)) (by norm_num))
  rw [hr] at hr2
  rw [residue_inj hy hx hr2] at e2
  exact ⟨z, e, e2⟩

/-- **C22** `getLow()` and `isOdd()` are those of the number `get()` returns. -/
theorem C22_getLow {x : ℕ} (hx : Canon x) :
    ∃ z, Fp.get x = .ok z ∧ Fp.getLow x = val z % 2 ^ 64 ∧ (Fp.isOdd x = true ↔ val z % 2 = 1) := by
  obtain ⟨h1, h2⟩ := fromMont_spec hx
  obtain ⟨z, e, wz, vz⟩ := setUnits4_spec (W4.of_ok (fromMont x))
  rw [W4.val_of_lt (lt_W h1)] at vz
  have hl : getLow x = val z % 2 ^ 64 := by
    rw [vz]; unfold getLow W4.of; norm_num
  refine ⟨z, e, hl, ?_⟩
  unfold isOdd
  rw [hl, Nat.and_one_is_mod]
  simp only [decide_eq_true_eq]
  norm_num

example : WF pV ∧ Fp.set [3] = .ok (3 * montR % p) ∧ Fp.setInt (-3) = .ok (p - 3 * montR % p) ∧
    Fp.get (3 * montR % p) = .ok [3] ∧ Fp.setInt (-2 ^ 31) = .ub := by decide +kernel

/-- **C23** `==` on canonical objects is equality of residues, `isZero` is residue 0. -/
theorem C23_eq {x y : ℕ} (hx : Canon x) (hy : Canon y) :
    (Fp.eq x y = true ↔ residue x = residue y) ∧ (Fp.isZero x = true ↔ residue x = 0) := by
  constructor
  · rw [eq_iff (lt_W hx) (lt_W hy)]
    exact ⟨fun h => by rw [h], fun h => residue_inj hx hy h⟩
  · rw [isZero_iff (lt_W hx)]
    exact ⟨fun h => by rw [h, residue_zero],
      fun h => residue_inj hx p_pos (by rw [h, residue_zero])⟩

-- canonicity is needed: p and 0 represent the same residue but compare different
example : Canon 5 ∧ Canon (p - 1) ∧ Fp.eq 5 (p - 1) = false ∧ Fp.eq p 0 = false := by decide +kernel

/-- **C24** `Fp::inv`: terminates with a table index in range, and returns the canonical inverse; the
inverse of 0 is 0. -/
theorem C24_inv {x : ℕ} (hx : Canon x) :
    (residue x ≠ 0 → ∃ y, Fp.inv x = .ok y ∧ Canon y ∧ residue x * residue y = 1) ∧
    (residue x = 0 → Fp.inv x = .ok 0) := by
  constructor
  · intro h; exact inv_spec hx (fun h0 => h (by rw [h0, residue_zero]))
  · intro h
    rw [residue_inj hx p_pos (by rw [h, residue_zero])]
    exact inv_zero

/-- **C24** the canonical objects with the code's operations (`Fp::add`, `sub`, `neg`, `mul`, `inv`, `/`,
`Fp(0)`, `Fp(1)`) are a field, isomorphic to Z/pZ by `residue`. -/
theorem C24_field :
    (∀ x y : Fe, (x / y).toZ = x.toZ / y.toZ) ∧ (∀ x : Fe, Fp.inv x.n = .ok (x⁻¹).n) ∧
    ∃ e : Fe ≃+* ZMod p, ∀ x : Fe, e x = residue x.n :=
  ⟨Fe.toZ_div, Fe.inv_ok, Fe.equivZ, fun _ => rfl⟩

example : Canon 2 ∧ (Fp.inv 2 >>= fun y => .ok (Fp.mul 2 y)) = .ok montR := by decide +kernel

/-- **C25** `divBy2`, `divBy4` -/
theorem C25_div {x : ℕ} (hx : Canon x) :
    (Canon (Fp.divBy2 x) ∧ residue (Fp.divBy2 x) = residue x / 2) ∧
    (Canon (Fp.divBy4 x) ∧ residue (Fp.divBy4 x) = residue x / 4) :=
  ⟨⟨(divBy2_spec hx).1, residue_divBy2 hx⟩, (divBy4_spec hx).1, residue_divBy4 hx⟩

example : Canon 7 ∧ Fp.divBy2 7 = (p + 7) / 2 ∧ Fp.divBy4 8 = 2 := by decide +kernel

/-- **C26** `squareRoot(y, x)`: true exactly for squares; then y*y = x; otherwise y is unchanged. -/
theorem C26_squareRoot (y x : Fe) :
    ((Fp.squareRootInto y x).1 = true ↔ ∃ s : ZMod p, s * s = residue x.n) ∧
    ((Fp.squareRootInto y x).1 = true →
      residue (Fp.squareRootInto y x).2.n * residue (Fp.squareRootInto y x).2.n = residue x.n) ∧
    ((Fp.squareRootInto y x).1 = false → (Fp.squareRootInto y x).2 = y) := by
  have hs : ∀ t, Fp.squareRoot x = some t → residue t.n * residue t.n = residue x.n := by
    intro t ht
    have := congrArg Fe.toZ (Fe.squareRoot_some ht)
    rw [Fe.toZ_mul] at this
    exact this
  have hsq : (∃ s : ZMod p, s * s = residue x.n) → (Fp.squareRoot x).isSome := by
    rintro ⟨s, h⟩
    have : Fe.ofZ s * Fe.ofZ s = x := Fe.toZ_inj (by
      rw [Fe.toZ_mul, Fe.toZ_ofZ]; exact h)
    rw [← this]; exact Fe.squareRoot_of_square _
  have hcase : (∃ t, Fp.squareRoot x = some t ∧ Fp.squareRootInto y x = (true, t)) ∨
      (Fp.squareRoot x = none ∧ Fp.squareRootInto y x = (false, y)) := Fe.squareRootInto_cases y x
  rcases hcase with ⟨t, h1, h2⟩ | ⟨h1, h2⟩
  · rw [h2]
    exact ⟨⟨fun _ => ⟨_, hs t h1⟩, fun _ => rfl⟩, fun _ => hs t h1, fun h => absurd h (by simp)⟩
  · rw [h2]
    refine ⟨⟨fun h => absurd h (by simp), fun h => ?_⟩, fun h => absurd h (by simp), fun _ => rfl⟩
    have := hsq h
    rw [h1] at this
    exact absurd this (by simp)

-- 4 is a square (root 2 or -2), -1 is not
example : (Fp.squareRootInto 0 ⟨4 * montR % p, by decide +kernel⟩).1 = true ∧
    Fp.squareRootInto 1 ⟨p - montR, by decide +kernel⟩ = (false, 1) := by decide +kernel

/-- **C27** `Dbl::mod`, for every value below p * 2^256 -/
theorem C27_mod {X : ℕ} (h : X < p * 2 ^ 256) :
    Canon (Fp.dblMod X) ∧ residue (Fp.dblMod X) = residueD X := by
  rw [show (2 : ℕ) ^ 256 = W256 by decide +kernel] at h
  exact ⟨(dblMod_spec h).1, residue_dblMod h⟩

/-- **C27** `Dbl::mul` is the exact product of any two buffers. -/
theorem C27_mul {x y : ℕ} (hx : x < 2 ^ 256) (hy : y < 2 ^ 256) : Fp.dblMul x y = x * y := by
  rw [show (2 : ℕ) ^ 256 = W256 by decide +kernel] at hx hy
  exact dblMul_val hx hy

/-- **C27** `Dbl::add`, `Dbl::sub` are exact modulo p * 2^256 and stay below it. -/
theorem C27_addsub {X Y : ℕ} (hX : X < p * 2 ^ 256) (hY : Y < p * 2 ^ 256) :
    Fp.dblAdd X Y = (X + Y) % (p * 2 ^ 256) ∧
    (Fp.dblSub X Y : ℤ) = ((X : ℤ) - Y) % (p * 2 ^ 256 : ℕ) := by
  rw [show (2 : ℕ) ^ 256 = W256 by decide +kernel] at *
  have h4 := pN_lt
  have hA := dblAdd_val (x := X) (y := Y)
  have hS := dblSub_val (x := X) (y := Y)
  obtain ⟨pN, hN⟩ : ∃ n, n = p * W256 := ⟨_, rfl⟩
  rw [← hN] at h4 hA hS hX hY ⊢
  clear hN
  constructor
  · rw [hA (by omega)]
    split
    · rw [Nat.mod_eq_of_lt (by omega)]
    · rw [Nat.mod_eq_sub_mod (by omega), Nat.mod_eq_of_lt (by omega)]
  · rw [hS (by omega) (by omega) (by omega)]
    split
    · rw [Int.emod_eq_of_lt (by omega) (by omega)]; omega
    · rw [← Int.add_emod_right, Int.emod_eq_of_lt (by omega) (by omega)]; omega

/-- **C27** the unreduced variants are exact as long as they stay inside the buffer. -/
theorem C27_NC {X Y : ℕ} :
    (X + Y < 2 ^ 512 → Fp.dblAddNC X Y = X + Y) ∧
    (X < 2 ^ 512 → Y ≤ X → Fp.dblSubNC X Y = X - Y) ∧
    (X + Y < 2 ^ 256 → Fp.addNC X Y = X + Y) ∧
    (X < 2 ^ 256 → Y ≤ X → Fp.subNC X Y = X - Y) := by
  rw [show (2 : ℕ) ^ 512 = W512 by decide +kernel, show (2 : ℕ) ^ 256 = W256 by decide +kernel]
  exact ⟨dblAddNC_val, dblSubNC_val, addNC_val, subNC_val⟩

/-- **C27** `Dbl::neg` returns p * 2^256 - X, which represents the negative; for X = 0 the result is
p * 2^256 itself, i.e. not reduced (the zero test of the generated code never succeeds). -/
theorem C27_neg {X : ℕ} (hX : X < p * 2 ^ 256) :
    Fp.dblNeg X = p * 2 ^ 256 - X ∧ residueD (Fp.dblNeg X) = -residueD X := by
  rw [show (2 : ℕ) ^ 256 = W256 by decide +kernel] at *
  have e := dblNeg_val hX.le
  refine ⟨e, ?_⟩
  unfold residueD
  rw [e, Nat.cast_sub hX.le, Nat.cast_mul, cast_p]
  generalize (2 : ZMod p) ^ 512 = R
  ring

/-- **C27** (deviation) the negative of 0 is not below p * 2^256. -/
theorem C27_neg_zero_not_reduced : ¬ Fp.dblNeg 0 < p * 2 ^ 256 := by decide +kernel

example : p * p < p * 2 ^ 256 ∧ Fp.dblMod (p * p) = 0 ∧ Fp.dblMod (p * 2 ^ 256 - 1) < p ∧
    Fp.dblAdd (p * 2 ^ 256 - 1) 2 = 1 ∧ Fp.dblSub 1 2 = p * 2 ^ 256 - 1 := by decide +kernel

/-- **C28** `fast_modp` up to 6p (in fact below 7 * 2^253), and the fused 2z + 3x. -/
theorem C28_fast :
    (∀ z, z ≤ 6 * p → Fp.fastModp z = z % p) ∧
    (∀ z, z < 7 * 2 ^ 253 → Fp.fastModp z = z % p) ∧
    (∀ z x, Canon z → Canon x → Canon (Fp.add2z3x z x) ∧
      residue (Fp.add2z3x z x) = 2 * residue z + 3 * residue x) := by
  refine ⟨fun z hz => fastModp_val (lt_of_le_of_lt hz (by decide +kernel)),
    fun z hz => fastModp_val hz, fun z x hz hx => ?_⟩
  rw [add2z3x_val hz hx]
  refine ⟨Nat.mod_lt _ p_pos, ?_⟩
  unfold residue
  rw [cast_mod]; push_cast; ring

-- the bound is not vacuous: a value where the table index is 6, and one where the routine is wrong
example : Fp.fastModp (6 * p) = 0 ∧ Fp.fastModp (6 * p - 1) = p - 1 ∧
    Fp.fastModp (2 ^ 256 - 1) ≠ (2 ^ 256 - 1) % p := by decide +kernel

/-- **C53** (part) the C routines `Fp_addC`, `Fp_addNC_C`, `Fp_subNC_C` and all `FpDbl_*C` routines agree
with the generated code on the ranges on which the generated code is specified. -/
theorem C53_agree :
    (∀ x y, Canon x → Canon y → addC x y = .ok (Fp.add x y)) ∧
    (∀ x y, x + y < 2 ^ 256 → addNC_C x y = .ok (Fp.addNC x y)) ∧
    (∀ x y, x < 2 ^ 256 → y ≤ x → subNC_C x y = .ok (Fp.subNC x y)) ∧
    (∀ X Y, X < p * 2 ^ 256 → Y < p * 2 ^ 256 → dblAddC X Y = .ok (Fp.dblAdd X Y)) ∧
    (∀ X Y, X < p * 2 ^ 256 → Y < p * 2 ^ 256 → dblSubC X Y = .ok (Fp.dblSub X Y)) ∧
    (∀ X Y, X + Y < 2 ^ 512 → dblAddNC_C X Y = .ok (Fp.dblAddNC X Y)) ∧
    (∀ X Y, X < 2 ^ 512 → Y ≤ X → dblSubNC_C X Y = .ok (Fp.dblSubNC X Y)) ∧
    (∀ x y, x < 2 ^ 256 → y < 2 ^ 256 → dblMulC x y = .ok (Fp.dblMul x y)) ∧
    (∀ X, X < p * 2 ^ 256 → dblModC X = .ok (Fp.dblMod X)) ∧
    (∀ X, 0 < X → X < p * 2 ^ 256 → dblNegC X = .ok (Fp.dblNeg X)) := by
  rw [show (2 : ℕ) ^ 512 = W512 by decide +kernel, show (2 : ℕ) ^ 256 = W256 by decide +kernel]
  refine ⟨fun x y => addC_spec, fun x y h => ?_, fun x y h h' => ?_, fun x y => dblAddC_spec,
    fun x y => dblSubC_spec, fun x y h => ?_, fun x y h h' => ?_, fun x y h h' => ?_,
    fun x h => ?_, fun x h0 h => ?_⟩
  · rw [addNC_C_spec h, addNC_val h]
  · rw [subNC_C_spec h h', subNC_val h h']
  · rw [dblAddNC_C_spec h, dblAddNC_val h]
  · rw [dblSubNC_C_spec h h', dblSubNC_val h h']
  · rw [dblMulC_spec h h', dblMul_val h h']
  · obtain ⟨y, e, hy, hm⟩ := dblModC_spec h
    obtain ⟨h1, h2⟩ := dblMod_spec h
    rw [e]
    rw [← h2] at hm
    have hc := cast_eq_of_mod hm
    push_cast at hc
    have hW := W_ne
    push_cast at hW
    rw [cast_inj hy h1 (mul_left_cancel₀ hW hc)]
  · rw [dblNegC_spec h, if_neg (by omega), dblNeg_val h.le]

/-- **C53** (deviation) `Fp_subC` is right only when x < y: for x ≥ y it never returns a value, so in
particular the property "agrees with `Fp::sub`" is false; `Fp_negC` then fails for 0. -/
theorem C53_subC_wrong :
    (∀ x y, Canon x → Canon y → x < y → subC x y = .ok (Fp.sub x y)) ∧
    (∀ x y z, Canon x → y ≤ x → subC x y ≠ .ok z) ∧
    ¬ (∀ x y, Canon x → Canon y → subC x y = .ok (Fp.sub x y)) ∧
    negC 0 = .ub := by
  refine ⟨fun x y => subC_lt, fun x y z hx h => subC_ge hx h z, fun h => ?_, by decide +kernel⟩
  exact subC_ge (x := 5) (y := 3) (by decide +kernel) (by norm_num) _
    (h 5 3 (by decide +kernel) (by decide +kernel))

/-- **C53** (deviation) `Fp_mulC` calls itself through `x.get()` and never returns, whatever the rest of
its body does and however deep the call stack. -/
theorem C53_mulC_diverges (body : ℕ → ℕ → Res ℕ) (depth x y : ℕ) :
    mulC body depth x y = .diverge :=
  mulC_diverge body depth x y

example : Canon 5 ∧ Canon (p - 2) ∧ subC 5 (p - 2) = .ok 7 ∧ subC 5 3 = .ub ∧
    subC (p - 2) 3 = .exit := by decide +kernel

end Verif
