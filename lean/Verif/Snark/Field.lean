import Verif.Snark.Curve
import Verif.Tower.Cyclo

/-!
The tower of the SNARK build as fields, p-th powers in coordinates, the cyclotomic subgroup (the same statements as for the
default tower in `Tower/`, with xi = 9 + u in place of 1 + u).
-/

set_option linter.unusedSimpArgs false

namespace Verif.Snark

/-- a² + b² -/
noncomputable def G2.norm (x : G2) : ZMod p := x.a * x.a + x.b * x.b
theorem G2.norm_mul (x y : G2) : (x * y).norm = x.norm * y.norm := by
  simp only [G2.norm, G2.mul_a, G2.mul_b]; ring
theorem G2.norm_xi : G2.xi.norm = 82 := by simp only [G2.norm, G2.xi]; norm_num

theorem n82_ne : (82 : ZMod p) ≠ 0 := by
  have : ((82 : ℕ) : ZMod p) ≠ 0 := by
    rw [Ne, ZMod.natCast_eq_zero_iff]
    intro h; exact absurd (Nat.le_of_dvd (by norm_num) h) (by rw [p_eq]; norm_num)
  exact_mod_cast this

theorem pow_ne_one {n : ℕ} (hn : n < 2 ^ 256) (h2 : powMod p 256 82 n ≠ 1) : (82 : ZMod p) ^ n ≠ 1 := by
  have h := powMod_eq p 256 82 n hn
  rw [h] at h2
  intro h3
  apply h2
  have h4 : ((82 ^ n : ℕ) : ZMod p) = ((1 : ℕ) : ZMod p) := by rw [Nat.cast_pow, Nat.cast_one]; exact_mod_cast h3
  have h5 := (ZMod.natCast_eq_natCast_iff' _ _ _).1 h4
  rw [h5, Nat.mod_eq_of_lt (by rw [p_eq]; norm_num)]

theorem pow_third : (82 : ZMod p) ^ ((p - 1) / 3) ≠ 1 := pow_ne_one (by rw [p_eq]; norm_num) (by decide +kernel)
theorem pow_half : (82 : ZMod p) ^ ((p - 1) / 2) ≠ 1 := pow_ne_one (by rw [p_eq]; norm_num) (by decide +kernel)

theorem pow_card_sub {x : ZMod p} (hx : x ≠ 0) : x ^ (p - 1) = 1 := ZMod.pow_card_sub_one_eq_one hx

theorem not_cube (x : ZMod p) : x * x * x ≠ 82 := by
  intro h1
  have hx : x ≠ 0 := by
    intro h0; rw [h0] at h1; apply n82_ne; rw [← h1]; ring
  apply pow_third
  rw [← h1, show x * x * x = x ^ 3 by ring, ← pow_mul,
    show 3 * ((p - 1) / 3) = p - 1 by rw [p_eq], pow_card_sub hx]

theorem not_square (x : ZMod p) : x * x ≠ 82 := by
  intro h1
  have hx : x ≠ 0 := by
    intro h0; rw [h0] at h1; apply n82_ne; rw [← h1]; ring
  apply pow_half
  rw [← h1, show x * x = x ^ 2 by ring, ← pow_mul,
    show 2 * ((p - 1) / 2) = p - 1 by rw [p_eq], pow_card_sub hx]

theorem G2.xi_not_cube (x : G2) : x * x * x ≠ G2.xi := by
  intro h
  have h1 := congrArg G2.norm h
  rw [G2.norm_mul, G2.norm_mul, G2.norm_xi] at h1
  exact not_cube _ h1

theorem G2.xi_not_square (x : G2) : x * x ≠ G2.xi := by
  intro h
  have h1 := congrArg G2.norm h
  rw [G2.norm_mul, G2.norm_xi] at h1
  exact not_square _ h1

namespace G6

/-- the norm to G2 -/
noncomputable def norm (x : G6) : G2 :=
  x.a * x.a * x.a + G2.xi * (x.b * x.b * x.b) + G2.xi * G2.xi * (x.c * x.c * x.c)
    - 3 * G2.xi * (x.a * x.b * x.c)

theorem norm_mul (x y : G6) : (x * y).norm = x.norm * y.norm := by
  simp only [norm, mul_a, mul_b, mul_c]; ring

/-- f + e v has nonzero norm unless f = e = 0. -/
theorem lin_zero {f e : G2} (h : f * f * f + G2.xi * (e * e * e) = 0) : f = 0 ∧ e = 0 := by
  by_cases he : e = 0
  · refine ⟨?_, he⟩
    rw [he] at h
    have : f * f * f = 0 := by linear_combination h
    simpa using this
  · exfalso
    apply G2.xi_not_cube (-f / e)
    field_simp
    linear_combination -h

theorem norm_eq_zero {x : G6} (h : x.norm = 0) : x = 0 := by
  -- x (c v - b) = (xi c^2 - a b) + (a c - b^2) v
  have h1 : (x * ⟨-x.b, x.c, 0⟩).norm = 0 := by rw [norm_mul, h, zero_mul]
  have h2 : x * ⟨-x.b, x.c, 0⟩ = ⟨G2.xi * (x.c * x.c) - x.a * x.b, x.a * x.c - x.b * x.b, 0⟩ := by
    ext1 <;> simp only [mul_a, mul_b, mul_c] <;> ring
  rw [h2] at h1
  have h3 := lin_zero (f := G2.xi * (x.c * x.c) - x.a * x.b) (e := x.a * x.c - x.b * x.b) (by
    unfold norm at h1; linear_combination h1)
  obtain ⟨h4, h5⟩ := h3
  by_cases hc : x.c = 0
  · rw [hc] at h5
    have hb : x.b = 0 := by
      have : x.b * x.b = 0 := by linear_combination -h5
      simpa using this
    have ha : x.a = 0 := by
      unfold norm at h; rw [hb, hc] at h
      have : x.a * x.a * x.a = 0 := by linear_combination h
      simpa using this
    exact G6.ext ha hb hc
  · exfalso
    -- a = b^2/c, xi c^2 = b^3/c
    apply G2.xi_not_cube (x.b / x.c)
    field_simp
    linear_combination (-x.b) * h5 - x.c * h4

theorem norm_ne {x : G6} (h : x ≠ 0) : x.norm ≠ 0 := fun h1 => h (norm_eq_zero h1)

/-- the inverse by the norm -/
@[irreducible] noncomputable def invN (x : G6) : G6 :=
    ⟨(x.a * x.a - G2.xi * (x.b * x.c)) * x.norm⁻¹, (G2.xi * (x.c * x.c) - x.a * x.b) * x.norm⁻¹,
      (x.b * x.b - x.a * x.c) * x.norm⁻¹⟩
noncomputable instance : Inv G6 := ⟨invN⟩

theorem inv_def (x : G6) : x⁻¹ =
    ⟨(x.a * x.a - G2.xi * (x.b * x.c)) * x.norm⁻¹, (G2.xi * (x.c * x.c) - x.a * x.b) * x.norm⁻¹,
      (x.b * x.b - x.a * x.c) * x.norm⁻¹⟩ := by
  show invN x = _
  unfold invN; rfl

theorem mul_inv' {x : G6} (h : x ≠ 0) : x * x⁻¹ = 1 := by
  have h1 := norm_ne h
  rw [inv_def]
  generalize hN : x.norm = N at *
  unfold norm at hN
  ext1 <;> simp only [mul_a, mul_b, mul_c, one_a, one_b, one_c] <;> field_simp
  · linear_combination hN
  · ring
  · ring

theorem inv_zero' : (0 : G6)⁻¹ = 0 := by
  rw [inv_def]; ext1 <;> simp only [zero_a, zero_b, zero_c] <;> ring

theorem zero_ne_one' : (0 : G6) ≠ 1 := by
  intro h
  have h1 : (0 : G6).a = (1 : G6).a := by rw [h]
  rw [zero_a, one_a] at h1
  exact zero_ne_one h1

instance : Nontrivial G6 := ⟨0, 1, zero_ne_one'⟩

noncomputable instance : Field G6 := mkField (fun x => x⁻¹) (fun _ h => mul_inv' h) inv_zero'

/-- v is not a square: its norm xi is not. -/
theorem v_not_square (x : G6) : x * x ≠ v := by
  intro h
  have h1 := congrArg norm h
  rw [norm_mul] at h1
  apply G2.xi_not_square x.norm
  rw [h1]; simp only [norm, v]; ring

end G6

namespace G12

/-- the norm to G6 -/
noncomputable def norm (x : G12) : G6 := x.a * x.a - G6.v * (x.b * x.b)

theorem norm_mul (x y : G12) : (x * y).norm = x.norm * y.norm := by
  simp only [norm, mul_a, mul_b]; ring

theorem norm_eq_zero {x : G12} (h : x.norm = 0) : x = 0 := by
  unfold norm at h
  by_cases hb : x.b = 0
  · rw [hb] at h
    have : x.a * x.a = 0 := by linear_combination h
    exact G12.ext (mul_self_eq_zero.1 this) hb
  · exfalso
    apply G6.v_not_square (x.a / x.b)
    field_simp
    linear_combination h

theorem norm_ne {x : G12} (h : x ≠ 0) : x.norm ≠ 0 := fun h1 => h (norm_eq_zero h1)

/-- the inverse by the norm -/
@[irreducible] noncomputable def invN (x : G12) : G12 := ⟨x.a * x.norm⁻¹, -(x.b * x.norm⁻¹)⟩
noncomputable instance : Inv G12 := ⟨invN⟩

theorem inv_def (x : G12) : x⁻¹ = ⟨x.a * x.norm⁻¹, -(x.b * x.norm⁻¹)⟩ := by
  show invN x = _
  unfold invN; rfl

theorem mul_inv' {x : G12} (h : x ≠ 0) : x * x⁻¹ = 1 := by
  have h1 := Verif.F12.mul_inv_aux (a := x.a) (b := x.b) (v := G6.v) (N := x.norm) rfl (norm_ne h)
  rw [inv_def]
  ext1
  · rw [mul_a]; exact h1.1
  · rw [mul_b]; exact h1.2

theorem inv_zero' : (0 : G12)⁻¹ = 0 := by
  rw [inv_def]; ext1 <;> simp only [zero_a, zero_b] <;> ring

theorem zero_ne_one' : (0 : G12) ≠ 1 := by
  intro h
  have h1 : (0 : G12).a = (1 : G12).a := by rw [h]
  rw [zero_a, one_a] at h1
  exact zero_ne_one h1

instance : Nontrivial G12 := ⟨0, 1, zero_ne_one'⟩

theorem zero_ring : (@OfNat.ofNat G12 0 (@Zero.toOfNat0 G12 MulZeroClass.toZero)) = (@OfNat.ofNat G12 0 _) := rfl
theorem inv_zero_ring : Inv.inv (@OfNat.ofNat G12 0 (@Zero.toOfNat0 G12 MulZeroClass.toZero)) =
    (@OfNat.ofNat G12 0 (@Zero.toOfNat0 G12 MulZeroClass.toZero)) := by
  rw [zero_ring]; exact inv_zero'

noncomputable instance : Field G12 := mkField Inv.inv (fun _ h => mul_inv' h) inv_zero_ring

end G12

/-! ### p-th powers -/

namespace G2

/-- embedding of Fp -/
def ofZ (x : ZMod p) : G2 := ⟨x, 0⟩

theorem eq_ofZ (x : G2) : x = ofZ x.a + ofZ x.b * u := by
  ext1 <;> simp only [add_a, add_b, mul_a, mul_b, ofZ, u] <;> ring

/-- embedding of Fp as a ring homomorphism -/
noncomputable def incl : (ZMod p) →+* G2 where
  toFun := ofZ
  map_one' := rfl
  map_zero' := rfl
  map_mul' x y := by ext1 <;> simp only [mul_a, mul_b, ofZ] <;> ring
  map_add' x y := by ext1 <;> simp only [add_a, add_b, ofZ] <;> ring

theorem incl_apply (x : (ZMod p)) : incl x = ofZ x := rfl

/-- conjugation -/
def conj (x : G2) : G2 := ⟨x.a, -x.b⟩

theorem conj_mul (x y : G2) : (x * y).conj = x.conj * y.conj := by
  unfold conj; ext1 <;> simp only [mul_a, mul_b] <;> ring

instance : CharP G2 p := (incl.charP_iff incl.injective p).1 inferInstance

theorem u_pow_p : u ^ p = -u := by
  have e : p = 2 * ((p - 3) / 2 + 1) + 1 := by rw [p_eq]
  have h4 : (p - 3) / 2 + 1 = 2 * ((p - 3) / 4) + 1 := by rw [p_eq]
  rw [e, pow_succ, pow_mul, pow_two, u_sq, h4, pow_succ, pow_mul]
  ring

theorem pow_p (x : G2) : x ^ p = x.conj := by
  conv_lhs => rw [eq_ofZ x]
  rw [add_pow_char, mul_pow, u_pow_p, ← incl_apply, ← incl_apply, ← map_pow, ← map_pow, ZMod.pow_card,
    ZMod.pow_card]
  rw [incl_apply, incl_apply]
  ext1 <;> simp only [add_a, add_b, mul_a, mul_b, neg_a, neg_b, ofZ, u, conj] <;> ring

theorem pow_p2 (x : G2) : x ^ (p ^ 2) = x := by
  rw [pow_two, pow_mul, pow_p, pow_p]
  unfold conj; ext1 <;> simp

/-- gamma = xi^((p-1)/6) -/
noncomputable def gam : G2 := Classical.choose (⟨_, rfl⟩ : ∃ g, g = xi ^ ((p - 1) / 6))
theorem gam_eq : gam = xi ^ ((p - 1) / 6) := Classical.choose_spec (⟨_, rfl⟩ : ∃ g, g = xi ^ ((p - 1) / 6))

theorem conj_conj (g : G2) : g.conj.conj = g := by
  unfold conj; ext1 <;> simp

end G2

namespace G12

/-- the element with coefficients g_i of w^i over G2 -/
def mk6 (g0 g1 g2 g3 g4 g5 : G2) : G12 := ⟨⟨g0, g2, g4⟩, ⟨g1, g3, g5⟩⟩

/-- embedding of G2 -/
noncomputable def incl : G2 →+* G12 where
  toFun x := ⟨⟨x, 0, 0⟩, 0⟩
  map_one' := rfl
  map_zero' := rfl
  map_mul' x y := by
    ext1
    · simp only [mul_a]; ext1 <;> simp only [G6.mul_a, G6.mul_b, G6.mul_c, G6.add_a, G6.add_b, G6.add_c,
        G6.zero_a, G6.zero_b, G6.zero_c] <;> ring
    · simp only [mul_b]; ring
  map_add' x y := by
    ext1
    · simp only [add_a]; ext1 <;> simp only [G6.add_a, G6.add_b, G6.add_c] <;> ring
    · simp only [add_b]; ring

theorem incl_apply (x : G2) : incl x = ⟨⟨x, 0, 0⟩, 0⟩ := rfl

theorem w2 : w * w = mk6 0 0 1 0 0 0 := w_sq

theorem incl_mul_mk6 (x g0 g1 g2 g3 g4 g5 : G2) : incl x * mk6 g0 g1 g2 g3 g4 g5 =
    mk6 (x * g0) (x * g1) (x * g2) (x * g3) (x * g4) (x * g5) := by
  rw [incl_apply]
  ext1
  · simp only [mul_a, mk6]; ext1 <;> simp only [G6.mul_a, G6.mul_b, G6.mul_c, G6.add_a, G6.add_b, G6.add_c,
        G6.zero_a, G6.zero_b, G6.zero_c, G6.v] <;> ring
  · simp only [mul_b, mk6]; ext1 <;> simp only [G6.mul_a, G6.mul_b, G6.mul_c, G6.add_a, G6.add_b, G6.add_c,
        G6.zero_a, G6.zero_b, G6.zero_c, G6.v] <;> ring

theorem mk6_mul_w (g0 g1 g2 g3 g4 g5 : G2) : mk6 g0 g1 g2 g3 g4 g5 * w =
    mk6 (G2.xi * g5) g0 g1 g2 g3 g4 := by
  ext1
  · simp only [mul_a, mk6, w]; ext1 <;> simp only [G6.mul_a, G6.mul_b, G6.mul_c, G6.add_a, G6.add_b, G6.add_c,
        G6.zero_a, G6.zero_b, G6.zero_c, G6.one_a, G6.one_b, G6.one_c, G6.v] <;> ring
  · simp only [mul_b, mk6, w]; ext1 <;> simp only [G6.mul_a, G6.mul_b, G6.mul_c, G6.add_a, G6.add_b, G6.add_c,
        G6.zero_a, G6.zero_b, G6.zero_c, G6.one_a, G6.one_b, G6.one_c, G6.v] <;> ring

theorem mk6_add (g0 g1 g2 g3 g4 g5 h0 h1 h2 h3 h4 h5 : G2) :
    mk6 g0 g1 g2 g3 g4 g5 + mk6 h0 h1 h2 h3 h4 h5 =
    mk6 (g0 + h0) (g1 + h1) (g2 + h2) (g3 + h3) (g4 + h4) (g5 + h5) := rfl

theorem one_mk6 : (1 : G12) = mk6 1 0 0 0 0 0 := rfl

theorem w_pow0 : w ^ 0 = mk6 1 0 0 0 0 0 := by rw [pow_zero, one_mk6]
theorem w_pow1 : w ^ 1 = mk6 0 1 0 0 0 0 := by rw [pow_succ, w_pow0, mk6_mul_w, mul_zero]
theorem w_pow2 : w ^ 2 = mk6 0 0 1 0 0 0 := by rw [pow_succ, w_pow1, mk6_mul_w, mul_zero]
theorem w_pow3 : w ^ 3 = mk6 0 0 0 1 0 0 := by rw [pow_succ, w_pow2, mk6_mul_w, mul_zero]
theorem w_pow4 : w ^ 4 = mk6 0 0 0 0 1 0 := by rw [pow_succ, w_pow3, mk6_mul_w, mul_zero]
theorem w_pow5 : w ^ 5 = mk6 0 0 0 0 0 1 := by rw [pow_succ, w_pow4, mk6_mul_w, mul_zero]
theorem w_pow6 : w ^ 6 = incl G2.xi := by rw [pow_succ, w_pow5, mk6_mul_w, mul_one]; rfl

theorem mk6_eq (g0 g1 g2 g3 g4 g5 : G2) : mk6 g0 g1 g2 g3 g4 g5 =
    incl g0 + incl g1 * w + incl g2 * w ^ 2 + incl g3 * w ^ 3 + incl g4 * w ^ 4 + incl g5 * w ^ 5 := by
  rw [← pow_one w, ← pow_mul, ← pow_mul, ← pow_mul, ← pow_mul, one_mul, one_mul, one_mul, one_mul]
  conv_rhs => rw [← mul_one (incl g0), ← pow_zero w]
  rw [w_pow0, w_pow1, w_pow2, w_pow3, w_pow4, w_pow5]
  simp only [incl_mul_mk6, mk6_add, mul_zero, mul_one, add_zero, zero_add]

theorem eq_mk6 (x : G12) : x = mk6 x.a.a x.b.a x.a.b x.b.b x.a.c x.b.c := rfl

instance : CharP G12 p := (incl.charP_iff incl.injective p).1 inferInstance

theorem w_pow_p : w ^ p = incl G2.gam * w := by
  have e : p = 6 * ((p - 1) / 6) + 1 := by rw [p_eq]
  conv_lhs => rw [e, pow_succ, pow_mul, w_pow6, ← map_pow, ← G2.gam_eq]

/-- the p-th power in coordinates -/
theorem mk6_pow_p (g0 g1 g2 g3 g4 g5 : G2) : mk6 g0 g1 g2 g3 g4 g5 ^ p =
    mk6 g0.conj (g1.conj * G2.gam) (g2.conj * G2.gam ^ 2) (g3.conj * G2.gam ^ 3)
      (g4.conj * G2.gam ^ 4) (g5.conj * G2.gam ^ 5) := by
  rw [mk6_eq, mk6_eq]
  simp only [add_pow_char, mul_pow, ← pow_mul, mul_comm _ p]
  simp only [pow_mul, w_pow_p, ← map_pow, G2.pow_p, mul_pow]
  simp only [map_mul]
  ring

theorem ofZ_norm (g : G2) : (⟨g.a, -g.b⟩ : G2) * g = G2.ofZ g.norm := by
  ext1 <;> simp only [G2.mul_a, G2.mul_b, G2.ofZ, G2.norm] <;> ring

theorem mk6_pow_p2 (g0 g1 g2 g3 g4 g5 : G2) : mk6 g0 g1 g2 g3 g4 g5 ^ (p ^ 2) =
    mk6 g0 (g1 * (G2.gam.conj * G2.gam)) (g2 * ((G2.gam ^ 2).conj * G2.gam ^ 2))
      (g3 * ((G2.gam ^ 3).conj * G2.gam ^ 3))
      (g4 * ((G2.gam ^ 4).conj * G2.gam ^ 4)) (g5 * ((G2.gam ^ 5).conj * G2.gam ^ 5)) := by
  rw [pow_two, pow_mul, mk6_pow_p, mk6_pow_p]
  simp only [G2.conj_mul, G2.conj_conj, mul_assoc]

end G12

/-! ### The sixth root of unity omega = norm(gamma) -/

/-- gamma^(p+1) as an element of Fp -/
noncomputable def omega : ZMod p := G2.gam.norm

theorem G2.norm_pow (x : G2) (n : ℕ) : (x ^ n).norm = x.norm ^ n := by
  induction n with
  | zero => rw [pow_zero, pow_zero]; simp only [G2.norm, G2.one_a, G2.one_b]; ring
  | succ n ih => rw [pow_succ, G2.norm_mul, ih, pow_succ]

theorem omega_pow (n : ℕ) : omega ^ n = 82 ^ ((p - 1) / 6 * n) := by
  unfold omega
  rw [G2.gam_eq, G2.norm_pow, G2.norm_xi, ← pow_mul]

theorem omega2_ne : omega ^ 2 ≠ 1 := by
  rw [omega_pow, show (p - 1) / 6 * 2 = (p - 1) / 3 by rw [p_eq]]
  exact pow_third
theorem omega3_ne : omega ^ 3 ≠ 1 := by
  rw [omega_pow, show (p - 1) / 6 * 3 = (p - 1) / 2 by rw [p_eq]]
  exact pow_half
theorem omega6 : omega ^ 6 = 1 := by
  rw [omega_pow, show (p - 1) / 6 * 6 = p - 1 by rw [p_eq]]
  exact pow_card_sub n82_ne

theorem omega_sq : omega ^ 2 = omega - 1 := by
  have h6 := omega6
  have h3 := omega3_ne
  have h2 := omega2_ne
  generalize omega = o at *
  have e1 : (o ^ 3 - 1) * (o ^ 3 + 1) = 0 := by linear_combination h6
  have e2 : o ^ 3 + 1 = 0 := (mul_eq_zero.1 e1).resolve_left (fun h => h3 (by linear_combination h))
  have e3 : (o + 1) * (o ^ 2 - o + 1) = 0 := by linear_combination e2
  have e4 : o ^ 2 - o + 1 = 0 := (mul_eq_zero.1 e3).resolve_left (fun h => h2 (by
    linear_combination (o - 1) * h))
  linear_combination e4

namespace G2
/-- omega in G2 -/
noncomputable def om : G2 := ofZ omega

theorem om_sq : om ^ 2 = om - 1 := by
  unfold om
  rw [← incl_apply, ← map_pow, omega_sq, map_sub, map_one]
theorem om_ne : om ≠ 0 := by
  intro h; have := om_sq; rw [h] at this; simp at this
theorem om_ne_one : 1 - om ≠ 0 := by
  intro h
  have h1 : om = 1 := by linear_combination -h
  have := om_sq; rw [h1] at this; simp at this

theorem gam_norm (i : ℕ) : (gam ^ i).conj * gam ^ i = om ^ i := by
  unfold om
  rw [← incl_apply, ← map_pow, show omega ^ i = (gam ^ i).norm from (norm_pow _ _).symm, incl_apply]
  exact G12.ofZ_norm _

end G2

namespace G12
open G2 (om)

theorem mk6_p2 (g0 g1 g2 g3 g4 g5 : G2) : mk6 g0 g1 g2 g3 g4 g5 ^ (p ^ 2) =
    mk6 g0 (om * g1) ((om - 1) * g2) (-g3) (-om * g4) ((1 - om) * g5) := by
  have h1 := G2.gam_norm 1
  rw [pow_one, pow_one] at h1
  rw [mk6_pow_p2, h1, G2.gam_norm, G2.gam_norm, G2.gam_norm, G2.gam_norm]
  have h := G2.om_sq
  refine G12.ext (G6.ext ?_ ?_ ?_) (G6.ext ?_ ?_ ?_) <;> simp only [mk6]
  · linear_combination g2 * h
  · linear_combination g4 * (om ^ 2 + om) * h
  · ring
  · linear_combination g3 * (om + 1) * h
  · linear_combination g5 * (om ^ 3 + om ^ 2 - 1) * h

theorem mk6_p4 (g0 g1 g2 g3 g4 g5 : G2) : mk6 g0 g1 g2 g3 g4 g5 ^ (p ^ 4) =
    mk6 g0 ((om - 1) * g1) (-om * g2) g3 ((om - 1) * g4) (-om * g5) := by
  rw [show p ^ 4 = p ^ 2 * p ^ 2 by rw [← pow_add], pow_mul, mk6_p2, mk6_p2]
  have h := G2.om_sq
  refine G12.ext (G6.ext ?_ ?_ ?_) (G6.ext ?_ ?_ ?_) <;> simp only [mk6]
  · linear_combination g2 * h
  · linear_combination g4 * h
  · linear_combination g1 * h
  · ring
  · linear_combination g5 * h

theorem mk6_p6 (g0 g1 g2 g3 g4 g5 : G2) : mk6 g0 g1 g2 g3 g4 g5 ^ (p ^ 6) =
    mk6 g0 (-g1) g2 (-g3) g4 (-g5) := by
  rw [show p ^ 6 = p ^ 4 * p ^ 2 by rw [← pow_add], pow_mul, mk6_p4, mk6_p2]
  have h := G2.om_sq
  refine G12.ext (G6.ext ?_ ?_ ?_) (G6.ext ?_ ?_ ?_) <;> simp only [mk6]
  · linear_combination -g2 * h
  · linear_combination -g4 * h
  · linear_combination g1 * h
  · linear_combination g5 * h

/-- conjugation over G6 -/
def conj (x : G12) : G12 := ⟨x.a, -x.b⟩

theorem pow_p6 (x : G12) : x ^ (p ^ 6) = x.conj := by
  conv_lhs => rw [eq_mk6 x, mk6_p6]
  rfl

theorem conj_conj' (x : G12) : x.conj.conj = x := by
  unfold conj; ext1
  · rfl
  · exact neg_neg x.b

theorem pow_p12 (x : G12) : x ^ (p ^ 12) = x := by
  rw [show p ^ 12 = p ^ 6 * p ^ 6 by rw [← pow_add], pow_mul, pow_p6, pow_p6, conj_conj']

theorem pow_p12_sub {x : G12} (h : x ≠ 0) : x ^ (p ^ 12 - 1) = 1 := by
  have h1 : x ^ (p ^ 12) = x ^ (p ^ 12 - 1) * x := by
    rw [← pow_succ]; congr 1
  rw [pow_p12] at h1
  exact (mul_right_cancel₀ h (by rw [one_mul]; exact h1)).symm

/-- the product in coordinates -/
theorem mk6_mul (a0 a1 a2 a3 a4 a5 b0 b1 b2 b3 b4 b5 : G2) :
    mk6 a0 a1 a2 a3 a4 a5 * mk6 b0 b1 b2 b3 b4 b5 =
    mk6 (a0 * b0 + G2.xi * (a1 * b5 + a2 * b4 + a3 * b3 + a4 * b2 + a5 * b1))
      (a0 * b1 + a1 * b0 + G2.xi * (a2 * b5 + a3 * b4 + a4 * b3 + a5 * b2))
      (a0 * b2 + a1 * b1 + a2 * b0 + G2.xi * (a3 * b5 + a4 * b4 + a5 * b3))
      (a0 * b3 + a1 * b2 + a2 * b1 + a3 * b0 + G2.xi * (a4 * b5 + a5 * b4))
      (a0 * b4 + a1 * b3 + a2 * b2 + a3 * b1 + a4 * b0 + G2.xi * (a5 * b5))
      (a0 * b5 + a1 * b4 + a2 * b3 + a3 * b2 + a4 * b1 + a5 * b0) := by
  ext1
  · simp only [mul_a, mk6]; ext1 <;> simp only [G6.mul_a, G6.mul_b, G6.mul_c, G6.add_a, G6.add_b, G6.add_c,
        G6.zero_a, G6.zero_b, G6.zero_c, G6.v] <;> ring
  · simp only [mul_b, mk6]; ext1 <;> simp only [G6.mul_a, G6.mul_b, G6.mul_c, G6.add_a, G6.add_b, G6.add_c,
        G6.zero_a, G6.zero_b, G6.zero_c, G6.v] <;> ring

theorem mk6_inj {a0 a1 a2 a3 a4 a5 b0 b1 b2 b3 b4 b5 : G2}
    (h : mk6 a0 a1 a2 a3 a4 a5 = mk6 b0 b1 b2 b3 b4 b5) :
    a0 = b0 ∧ a1 = b1 ∧ a2 = b2 ∧ a3 = b3 ∧ a4 = b4 ∧ a5 = b5 :=
  ⟨congrArg (fun x : G12 => x.a.a) h, congrArg (fun x : G12 => x.b.a) h, congrArg (fun x : G12 => x.a.b) h,
   congrArg (fun x : G12 => x.b.b) h, congrArg (fun x : G12 => x.a.c) h, congrArg (fun x : G12 => x.b.c) h⟩

/-- The cyclotomic subgroup. -/
def Cyclo (x : G12) : Prop := x ^ (p ^ 4 - p ^ 2 + 1) = 1

theorem p2_le : p ^ 2 ≤ p ^ 4 := Nat.pow_le_pow_right p_pos (by norm_num)

theorem Cyclo.rel {x : G12} (h : Cyclo x) : x ^ (p ^ 4) * x = x ^ (p ^ 2) := by
  have e : p ^ 4 + 1 = (p ^ 4 - p ^ 2 + 1) + p ^ 2 := by have := p2_le; omega
  rw [← pow_succ, e, pow_add, h, one_mul]

theorem Cyclo.ne {x : G12} (h : Cyclo x) : x ≠ 0 := by
  rintro rfl
  unfold Cyclo at h
  rw [zero_pow (by omega)] at h
  exact zero_ne_one h

theorem Cyclo.unit {x : G12} (h : Cyclo x) : x.conj * x = 1 := by
  have h1 := h.rel
  have h2 : x ^ (p ^ 6) * x ^ (p ^ 2) = x ^ (p ^ 4) := by
    rw [show p ^ 6 = p ^ 4 * p ^ 2 by rw [← pow_add], pow_mul, ← mul_pow, h1, ← pow_mul,
      show p ^ 2 * p ^ 2 = p ^ 4 by rw [← pow_add]]
  have h3 : x ^ (p ^ 2) ≠ 0 := pow_ne_zero _ h.ne
  have h4 : (x ^ (p ^ 6) * x) * x ^ (p ^ 2) = 1 * x ^ (p ^ 2) := by
    rw [one_mul, mul_right_comm, h2, h1]
  rw [← pow_p6]
  exact mul_right_cancel₀ h3 h4

/-- The Granger-Scott/Karabina relations between the coordinates. -/
structure Rels (z0 z1 z2 z3 z4 z5 : G2) : Prop where
  i : 2 * G2.xi * (z4 * z5) - z0 * z2 - G2.xi * (z1 * z3) = -z2
  ii : z4 * z4 + G2.xi * (z5 * z5) - z0 * z3 - z1 * z2 = z3
  iii : z2 * z2 + G2.xi * (z3 * z3) - z0 * z4 - G2.xi * (z1 * z5) = z4
  iv : 2 * (z2 * z3) - z0 * z5 - z1 * z4 = -z5
  v : z0 * z0 + G2.xi * (z1 * z1) - G2.xi * (z2 * z5 + z3 * z4) = z0
  vi : 2 * (z0 * z1) - z2 * z4 - G2.xi * (z3 * z5) = -z1
  vii : z0 * z0 - G2.xi * (z1 * z1) + 2 * G2.xi * (z3 * z4 - z2 * z5) = 1
  ix : 2 * (z0 * z3 - z1 * z2) + z4 * z4 - G2.xi * (z5 * z5) = 0

theorem Cyclo.rels {x : G12} (h : Cyclo x) : Rels x.a.a x.b.b x.b.a x.a.c x.a.b x.b.c := by
  have h1 := h.rel
  have h2 := h.unit
  rw [← pow_p6] at h2
  obtain ⟨⟨z0, z4, z3⟩, ⟨z2, z1, z5⟩⟩ := x
  rw [show (⟨⟨z0, z4, z3⟩, ⟨z2, z1, z5⟩⟩ : G12) = mk6 z0 z2 z4 z1 z3 z5 from rfl] at *
  rw [mk6_p4, mk6_p2, mk6_mul] at h1
  rw [mk6_p6, mk6_mul, one_mk6] at h2
  obtain ⟨e0, e1, e2, e3, e4, e5⟩ := mk6_inj h1
  obtain ⟨f0, f1, f2, f3, f4, f5⟩ := mk6_inj h2
  have ho := G2.om_ne
  have ho1 := G2.om_ne_one
  simp only [mk6]
  generalize om = o at *
  have c1 : ∀ {a b : G2}, o * a = o * b → a = b := fun h => mul_left_cancel₀ ho h
  have c2 : ∀ {a b : G2}, (1 - o) * a = (1 - o) * b → a = b := fun h => mul_left_cancel₀ ho1 h
  refine ⟨c1 ?_, c1 ?_, c2 ?_, c2 ?_, ?_, ?_, ?_, ?_⟩
  · linear_combination -e1
  · linear_combination -e4
  · linear_combination -e2
  · linear_combination -e5
  · linear_combination e0
  · linear_combination e3
  · linear_combination f0
  · linear_combination f4


theorem Cyclo.one : Cyclo 1 := one_pow _
theorem Cyclo.mul {x y : G12} (hx : Cyclo x) (hy : Cyclo y) : Cyclo (x * y) := by
  unfold Cyclo at *; rw [mul_pow, hx, hy, one_mul]
theorem Cyclo.pow {x : G12} (hx : Cyclo x) (n : ℕ) : Cyclo (x ^ n) := by
  unfold Cyclo at *; rw [← pow_mul, mul_comm, pow_mul, hx, one_pow]
theorem Cyclo.zpow {x : G12} (hx : Cyclo x) (n : ℤ) : Cyclo (x ^ n) := by
  unfold Cyclo at *; rw [← zpow_natCast, ← zpow_mul, mul_comm, zpow_mul, zpow_natCast, hx, one_zpow]

end G12
end Verif.Snark
