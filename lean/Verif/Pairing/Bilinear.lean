import Verif.Pairing.Recip

/-!
Bilinearity of the pairing on E(Fp) × E'(Fp2)[r].
-/

namespace Verif
open Fp Hom Ec WeierstrassCurve.Affine

namespace Pairing
open Cocycle

/-! ### Additivity in the first group -/

section Tri
variable {E G : Type} [AddCommGroup E] [CommGroup G] {c1 c2 c3 : Coc E G} {m : E → G}

/-- compatible elements of three extensions -/
structure Tri (m : E → G) (x1 : Ext c1) (x2 : Ext c2) (x3 : Ext c3) : Prop where
  a1 : x1.A = x3.A
  a2 : x2.A = x3.A
  u : x1.u * x2.u * m x3.A = x3.u

/-- the quotient of the cocycles is the coboundary of m -/
structure Cob (c1 c2 c3 : Coc E G) (m : E → G) : Prop where
  coll : ∀ A B, c1.γ A B * c2.γ A B * m (A + B) = c3.γ A B * m A * m B
  neg : ∀ A, m A * m (-A) = 1
  zero : m 0 = 1

theorem tri_aux {a b c a' b' c' m m' g1 g2 g3 q : G} (h : a * b * m = c) (h' : a' * b' * m' = c')
    (hg : g1 * g2 * q = g3 * m * m') : a * a' * g1 * (b * b' * g2) * q = c * c' * g3 := by
  have e : a * a' * g1 * (b * b' * g2) * q = a * a' * (b * b') * (g1 * g2 * q) := by
    simp only [mul_comm, mul_left_comm]
  rw [e, hg, ← h, ← h']
  simp only [mul_comm, mul_left_comm]

theorem Tri.add (hc : Cob c1 c2 c3 m) {x1 y1 : Ext c1} {x2 y2 : Ext c2} {x3 y3 : Ext c3}
    (hx : Tri m x1 x2 x3) (hy : Tri m y1 y2 y3) : Tri m (x1 + y1) (x2 + y2) (x3 + y3) := by
  refine ⟨?_, ?_, ?_⟩
  · rw [Ext.add_A, Ext.add_A, hx.a1, hy.a1]
  · rw [Ext.add_A, Ext.add_A, hx.a2, hy.a2]
  · rw [Ext.add_u, Ext.add_u, Ext.add_u, Ext.add_A, hx.a1, hy.a1, hx.a2, hy.a2]
    exact tri_aux hx.u hy.u (hc.coll x3.A y3.A)

theorem Tri.neg (hc : Cob c1 c2 c3 m) {x1 : Ext c1} {x2 : Ext c2} {x3 : Ext c3} (hx : Tri m x1 x2 x3) :
    Tri m (-x1) (-x2) (-x3) := by
  refine ⟨?_, ?_, ?_⟩
  · rw [Ext.neg_A, Ext.neg_A, hx.a1]
  · rw [Ext.neg_A, Ext.neg_A, hx.a2]
  · rw [Ext.neg_u, Ext.neg_u, Ext.neg_u, Ext.neg_A, eq_inv_of_mul_eq_one_right (hc.neg x3.A), ← hx.u, mul_inv, mul_inv]

theorem Tri.sub (hc : Cob c1 c2 c3 m) {x1 y1 : Ext c1} {x2 y2 : Ext c2} {x3 y3 : Ext c3}
    (hx : Tri m x1 x2 x3) (hy : Tri m y1 y2 y3) : Tri m (x1 - y1) (x2 - y2) (x3 - y3) := by
  rw [sub_eq_add_neg, sub_eq_add_neg, sub_eq_add_neg]
  exact hx.add hc (hy.neg hc)

theorem Tri.zero (hc : Cob c1 c2 c3 m) : Tri m (0 : Ext c1) (0 : Ext c2) (0 : Ext c3) :=
  ⟨rfl, rfl, by rw [Ext.zero_u, Ext.zero_u, Ext.zero_u, Ext.zero_A, hc.zero, one_mul, one_mul]⟩

theorem Tri.nsmul (hc : Cob c1 c2 c3 m) {x1 : Ext c1} {x2 : Ext c2} {x3 : Ext c3} (hx : Tri m x1 x2 x3) (k : ℕ) :
    Tri m (k • x1) (k • x2) (k • x3) := by
  induction k with
  | zero => rw [zero_nsmul, zero_nsmul, zero_nsmul]; exact Tri.zero hc
  | succ k ih => rw [succ_nsmul, succ_nsmul, succ_nsmul]; exact ih.add hc hx

theorem Tri.Lam (hc : Cob c1 c2 c3 m) (f1 : Ext c1 → Ext c1) (f2 : Ext c2 → Ext c2) (f3 : Ext c3 → Ext c3)
    (hf : ∀ {x1 x2 x3}, Tri m x1 x2 x3 → Tri m (f1 x1) (f2 x2) (f3 x3)) (s : ℕ)
    {x1 : Ext c1} {x2 : Ext c2} {x3 : Ext c3} (hx : Tri m x1 x2 x3) :
    Tri m (-(s • x1) + f1 x1 - f1 (f1 x1) + f1 (f1 (f1 x1))) (-(s • x2) + f2 x2 - f2 (f2 x2) + f2 (f2 (f2 x2)))
      (-(s • x3) + f3 x3 - f3 (f3 x3) + f3 (f3 (f3 x3))) :=
  (((hx.nsmul hc s).neg hc |>.add hc (hf hx)).sub hc (hf (hf hx))).add hc (hf (hf (hf hx)))

end Tri

theorem Phi_u {P : Fe × Fe} (h : OnE P) (x : Ext (coc h)) : (Phi h x).u = x.u ^ p := rfl
theorem Phi_A {P : Fe × Fe} (h : OnE P) (x : Ext (coc h)) : (Phi h x).A = phi x.A := rfl

theorem lam_gen {P : Fe × Fe} (h : OnE P) (x : Ext (coc h)) {s : ℕ} (hs : s = sN) :
    lam h x = -(s • x) + Phi h x - Phi h (Phi h x) := by
  rw [hs, lam]

theorem tri_Phi {l n : Fe} {P1 P2 P3 : Fe × Fe} {h1 : OnE P1} {h2 : OnE P2} {h3 : OnE P3}
    {x1 : Ext (coc h1)} {x2 : Ext (coc h2)} {x3 : Ext (coc h3)} (hx : Tri (M l n) x1 x2 x3) :
    Tri (M l n) (Phi h1 x1) (Phi h2 x2) (Phi h3 x3) := by
  refine ⟨?_, ?_, ?_⟩
  · rw [Phi_A, Phi_A, hx.a1]
  · rw [Phi_A, Phi_A, hx.a2]
  · rw [Phi_u, Phi_u, Phi_u, Phi_A, M_phi, ← hx.u, mul_pow, mul_pow]

theorem cob_coll {l n : Fe} {P1 P2 P3 : Fe × Fe} (h1 : OnE P1) (h2 : OnE P2) (h3 : OnE P3)
    (hc : Coll l n P1 P2 P3) : Cob (coc h1) (coc h2) (coc h3) (M l n) where
  coll := gamma_coll h1 h2 h3 hc
  neg := M_neg l n
  zero := M_zero l n

theorem ate_coll {l n : Fe} {P1 P2 P3 : Fe × Fe} (h1 : OnE P1) (h2 : OnE P2) (h3 : OnE P3)
    (hc : Coll l n P1 P2 P3) {B : E'} (hB : r • B = 0) : ate h1 B * ate h2 B = ate h3 B := by
  have t0 : Tri (M l n) (⟨(M l n B)⁻¹, B⟩ : Ext (coc h1)) (one1 h2 B) (one1 h3 B) :=
    ⟨rfl, rfl, by rw [one1_u, one1_u, mul_one]; exact inv_mul_cancel _⟩
  obtain ⟨s, hs⟩ : ∃ s, s = sN := ⟨_, rfl⟩
  have t1 := (t0.Lam (cob_coll h1 h2 h3 hc) (Phi h1) (Phi h2) (Phi h3) tri_Phi s).u
  have e1 := Lam_apply h1 ⟨(M l n B)⁻¹, B⟩
  have e2 := Lam_apply h2 (one1 h2 B)
  have e3 := Lam_apply h3 (one1 h3 B)
  rw [lam_gen _ _ hs] at e1 e2 e3
  rw [← e1, ← e2, ← e3] at t1
  rw [Lam_mk h1 hB (by rw [inv_pow, M_pow_r, inv_one]), Lam_one1 h2 hB, Lam_one1 h3 hB, fib_u, fib_u, fib_u, fib_A,
    M_zero, mul_one] at t1
  exact t1

/-! ### Negation in the first group -/

section Inv
variable {E G : Type} [AddCommGroup E] [CommGroup G] {c c' : Coc E G}

structure Opp (x : Ext c) (y : Ext c') : Prop where
  a : y.A = x.A
  u : y.u = x.u⁻¹

theorem Opp.add (hc : ∀ A B, c'.γ A B = (c.γ A B)⁻¹) {x x' : Ext c} {y y' : Ext c'} (hx : Opp x y) (hy : Opp x' y') :
    Opp (x + x') (y + y') := by
  refine ⟨by rw [Ext.add_A, Ext.add_A, hx.a, hy.a], ?_⟩
  rw [Ext.add_u, Ext.add_u, hx.a, hy.a, hx.u, hy.u, hc, mul_inv, mul_inv]

theorem Opp.neg {x : Ext c} {y : Ext c'} (hx : Opp x y) : Opp (-x) (-y) :=
  ⟨by rw [Ext.neg_A, Ext.neg_A, hx.a], by rw [Ext.neg_u, Ext.neg_u, hx.u]⟩

theorem Opp.nsmul (hc : ∀ A B, c'.γ A B = (c.γ A B)⁻¹) {x : Ext c} {y : Ext c'} (hx : Opp x y) (k : ℕ) :
    Opp (k • x) (k • y) := by
  induction k with
  | zero => rw [zero_nsmul, zero_nsmul]; exact ⟨rfl, by rw [Ext.zero_u, Ext.zero_u, inv_one]⟩
  | succ k ih => rw [succ_nsmul, succ_nsmul]; exact ih.add hc hx

theorem Opp.lam (hc : ∀ A B, c'.γ A B = (c.γ A B)⁻¹) (f : Ext c → Ext c) (f' : Ext c' → Ext c')
    (hf : ∀ {x y}, Opp x y → Opp (f x) (f' y)) (s : ℕ) {x : Ext c} {y : Ext c'} (hx : Opp x y) :
    Opp (-(s • x) + f x - f (f x)) (-(s • y) + f' y - f' (f' y)) := by
  rw [sub_eq_add_neg, sub_eq_add_neg]
  exact ((hx.nsmul hc s).neg.add hc (hf hx)).add hc (hf (hf hx)).neg

end Inv

theorem opp_Phi {P : Fe × Fe} {h : OnE P} {x : Ext (coc h)} {y : Ext (coc h.neg)} (hx : Opp x y) :
    Opp (Phi h x) (Phi h.neg y) :=
  ⟨by rw [Phi_A, Phi_A, hx.a], by rw [Phi_u, Phi_u, hx.u, inv_pow]⟩

theorem ate_negP {P : Fe × Fe} (h : OnE P) (B : E') : ate h.neg B = (ate h B)⁻¹ := by
  have t0 : Opp (one1 h B) (one1 h.neg B) := ⟨rfl, by rw [one1_u, one1_u, inv_one]⟩
  obtain ⟨s, hs⟩ : ∃ s, s = sN := ⟨_, rfl⟩
  have t1 := (t0.lam (gamma_conj h) (Phi h) (Phi h.neg) opp_Phi s).u
  unfold ate
  rw [lam_gen _ _ hs, lam_gen _ _ hs]
  exact t1

/-! ### The pairing of group elements -/

theorem OnE.of {x y : Fe} (hn : (curve (2 : Fe)).Nonsingular x y) : OnE (x, y) := ⟨(curve_nonsingular good1 x y).1 hn⟩

/-- the pairing as a function of the points; 1 if one is 0 -/
noncomputable def pair (B : E') : E0 → F12ˣ
  | .zero => 1
  | .some _ _ hn => ate (OnE.of hn) B

theorem pair_zero (B : E') : pair B 0 = 1 := rfl
theorem pair_some (B : E') {x y : Fe} (hn : (curve (2 : Fe)).Nonsingular x y) : pair B (.some x y hn) = ate (OnE.of hn) B := rfl

theorem pair_zero_left (A : E0) : pair 0 A = 1 := by
  cases A with
  | zero => rfl
  | some x y hn => exact ate_zero (OnE.of hn)

theorem pair_neg (B : E') (A : E0) : pair B (-A) = (pair B A)⁻¹ := by
  cases A with
  | zero => exact inv_one.symm
  | some x y hn =>
    obtain ⟨h', e⟩ := neg_some hn
    rw [e, pair_some, pair_some]
    exact ate_negP (OnE.of hn) B

theorem pair_neg_left (B : E') (A : E0) : pair (-B) A = (pair B A)⁻¹ := by
  cases A with
  | zero => exact inv_one.symm
  | some x y hn => exact ate_neg (OnE.of hn) B

theorem pair_add_left {A B : E'} (hA : r • A = 0) (hB : r • B = 0) (D : E0) : pair (A + B) D = pair A D * pair B D := by
  cases D with
  | zero => exact (mul_one 1).symm
  | some x y hn => exact ate_add (OnE.of hn) hA hB

theorem pair_add {B : E'} (hB : r • B = 0) (A D : E0) : pair B (A + D) = pair B A * pair B D := by
  by_cases hA : A = 0
  · rw [hA, zero_add, pair_zero, one_mul]
  by_cases hD : D = 0
  · rw [hD, add_zero, pair_zero, mul_one]
  by_cases hAD : A + D = 0
  · rw [hAD, pair_zero, eq_neg_of_add_eq_zero_right hAD, pair_neg, mul_inv_cancel]
  cases A with
  | zero => exact absurd rfl hA
  | some x1 y1 hn1 =>
  cases D with
  | zero => exact absurd rfl hD
  | some x2 y2 hn2 =>
  obtain ⟨s, c, x3, y3, hn3, e1, -, ey1, ey2, ey3, hid⟩ := chord hn1 hn2 hAD
  rw [e1, pair_some, pair_some, pair_some]
  refine (ate_coll (l := s) (n := c) _ _ _ ⟨ey1, ey2, ey3, ?_⟩ hB).symm
  intro t
  have := hid (F12.incl.comp F2.incl) t
  simp only [RingHom.comp_apply, F2.incl_apply] at this
  have e2 : F12.incl (F2.ofFe 2) = F12.incl 2 := by rw [← F2.incl_apply, map_ofNat]
  rw [e2] at this
  exact this

theorem tors_nsmul {E : Type} [AddCommGroup E] {B : E} {k : ℕ} (hB : k • B = 0) (a : ℕ) : k • a • B = 0 := by
  rw [smul_smul, mul_comm, ← smul_smul, hB, smul_zero]

theorem pair_nsmul_left {B : E'} (hB : r • B = 0) (A : E0) (a : ℕ) : pair (a • B) A = pair B A ^ a := by
  induction a with
  | zero => rw [zero_nsmul, pair_zero_left, pow_zero]
  | succ a ih =>
    have : r • a • B = 0 := tors_nsmul hB a
    rw [succ_nsmul, pair_add_left this hB, ih, pow_succ]

theorem pair_nsmul {B : E'} (hB : r • B = 0) (A : E0) (a : ℕ) : pair B (a • A) = pair B A ^ a := by
  induction a with
  | zero => rw [zero_nsmul, pair_zero, pow_zero]
  | succ a ih => rw [succ_nsmul, pair_add hB, ih, pow_succ]

/-- e(aQ, bP) = e(Q, P)^(ab) -/
theorem pair_bilinear {B : E'} (hB : r • B = 0) (A : E0) (a b : ℕ) : pair (a • B) (b • A) = pair B A ^ (a * b) := by
  have : r • a • B = 0 := tors_nsmul hB a
  rw [pair_nsmul this, pair_nsmul_left hB, pow_mul]

end Pairing
end Verif
