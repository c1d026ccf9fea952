import Verif.Pairing.Order

/-!
The value of `opt_atePairing` on affine points as an element of the extension by the line cocycle; additivity in the
second group on the r-torsion.
-/

namespace Verif
open Fp Hom Ec WeierstrassCurve.Affine

namespace Pairing
open Cocycle Miller

variable {P : Fe × Fe} (h : OnE P)

/-- (-s + Φ - Φ²) x -/
noncomputable def lam (x : Ext (coc h)) : Ext (coc h) := -(sN • x) + Phi h x - Phi h (Phi h x)

theorem conds_ok : ∀ m ∈ conds 3 (Param.siTbl.drop 2), Nat.gcd m ordN = 1 := by decide +kernel
theorem two_ok : Nat.gcd 2 ordN = 1 := by decide +kernel
theorem endVal_ok : endVal 3 (Param.siTbl.drop 2) = sN := by decide +kernel
theorem s_ok : Nat.gcd sN ordN = 1 := by decide +kernel

theorem nat_ne {B : E'} (hB : B ≠ 0) {n : ℕ} (hn : Nat.gcd n ordN = 1) : n • B ≠ 0 := by
  have := ord_coprime (n := (n : ℤ)) hB (by rw [Int.gcd_natCast_natCast]; exact hn)
  rwa [natCast_zsmul] at this

/-- the loop state after the digits `tbl` -/
theorem rel_prefix {Q : F2 × F2} (hQ : (curve (2 / F2.xi : F2)).Nonsingular Q.1 Q.2) {tbl : List ℤ}
    (hc : ∀ m ∈ conds 3 tbl, Nat.gcd m ordN = 1) :
    Rel h (tbl.foldl (step Q (Q.1, -Q.2) P) (start Q P)) (endVal 3 tbl • one1 h (.some _ _ hQ)) := by
  have hB : (Point.some _ _ hQ : E') ≠ 0 := Point.some_ne_zero hQ
  exact rel_loop h hQ tbl _ 3 (by norm_num) (rel_start h hQ (nat_ne hB two_ok)) (fun m hm => nat_ne hB (hc m hm))

theorem ate_eq {Q : F2 × F2} (hQ : (curve (2 / F2.xi : F2)).Nonsingular Q.1 Q.2) :
    optAteAffine Q P = ((lam h (one1 h (.some _ _ hQ))).u : F12) := by
  have hB : (Point.some _ _ hQ : E') ≠ 0 := Point.some_ne_zero hQ
  have r1 := rel_prefix h hQ conds_ok
  rw [endVal_ok] at r1
  have hA : (sN • one1 h (.some _ _ hQ)).A = sN • (Point.some _ _ hQ : E') := Ext.nsmul_A _ _
  have := rel_finish h hQ r1 (by rw [hA]; exact nat_ne hB s_ok)
    (by
      rw [hA]
      intro e
      refine phi_ne_mul hB (.inr rfl) (n := -(sN : ℤ)) ?_
      rw [← e, neg_zsmul, natCast_zsmul])
    (by
      rw [hA]
      intro e
      refine phi_ne_mul hB (.inl rfl) (n := (sN : ℤ)) ?_
      rw [natCast_zsmul]
      exact (eq_of_sub_eq_zero (by rw [← e]; abel)))
    (by
      rw [hA]
      intro e
      refine last_ne hB ?_
      rw [natCast_zsmul]
      exact eq_of_sub_eq_zero (by
        rw [← sub_eq_zero] at e
        rw [← e]; abel))
  unfold lam
  rw [Phi_one1, Phi_one1, ← this]
  rfl

/-! ### Additivity on the r-torsion -/

/-- -s + Φ - Φ² + Φ³ -/
noncomputable def Lam : Ext (coc h) →+ Ext (coc h) where
  toFun x := lam h x + Phi h (Phi h (Phi h x))
  map_zero' := by unfold lam; simp
  map_add' x y := by unfold lam; simp only [map_add, nsmul_add]; abel

theorem Lam_apply (x : Ext (coc h)) : Lam h x = lam h x + Phi h (Phi h (Phi h x)) := rfl

theorem fib_u (u : F12ˣ) : (Ext.fib u : Ext (coc h)).u = u := rfl
theorem fib_A (u : F12ˣ) : (Ext.fib u : Ext (coc h)).A = 0 := rfl
theorem one1_u (B : E') : (one1 h B).u = 1 := rfl
theorem one1_A (B : E') : (one1 h B).A = B := rfl

/-- the embedding of the values -/
noncomputable def fibHom : Additive F12ˣ →+ Ext (coc h) where
  toFun u := Ext.fib u.toMul
  map_zero' := rfl
  map_add' _ _ := (Ext.fib_add _ _).symm

theorem Phi_fib (u : F12ˣ) : Phi h (Ext.fib u) = Ext.fib (u ^ p) := Ext.ext rfl (map_zero phi)
theorem fib_nsmul (n : ℕ) (u : F12ˣ) : (n • Ext.fib u : Ext (coc h)) = Ext.fib (u ^ n) :=
  (map_nsmul (fibHom h) n (Additive.ofMul u)).symm
theorem fib_neg (u : F12ˣ) : (-Ext.fib u : Ext (coc h)) = Ext.fib u⁻¹ := Ext.ext rfl neg_zero

theorem r_dvd : ∃ k : ℕ, p ^ 3 + p = k * r + (sN + p ^ 2) := by
  refine ⟨(p ^ 3 + p - (sN + p ^ 2)) / r, ?_⟩
  decide +kernel

theorem Lam_fib {u : F12ˣ} (hu : u ^ r = 1) : Lam h (Ext.fib u) = 0 := by
  have e : u ^ (p ^ 3) * u ^ p = u ^ sN * u ^ (p ^ 2) := by
    obtain ⟨k, hk⟩ := r_dvd
    rw [← pow_add, hk, pow_add, mul_comm k, pow_mul, hu, one_pow, one_mul, pow_add]
  rw [Lam_apply]
  unfold lam
  rw [Phi_fib, Phi_fib, Phi_fib, fib_nsmul, fib_neg, sub_eq_add_neg, fib_neg, Ext.fib_add, Ext.fib_add, Ext.fib_add,
    ← pow_mul, ← pow_mul, ← pow_two, ← pow_succ]
  have : (u ^ sN)⁻¹ * u ^ p * (u ^ p ^ 2)⁻¹ * u ^ (p ^ (2 + 1)) = 1 := by
    have e3 : u ^ (p ^ (2 + 1)) = u ^ (p ^ 3) := rfl
    rw [e3]
    generalize u ^ (p ^ 3) = a at e
    generalize u ^ p = b at e
    generalize u ^ sN = c at e
    generalize u ^ p ^ 2 = d at e
    have : c⁻¹ * b * d⁻¹ * a = (a * b) * (c * d)⁻¹ := by
      rw [mul_inv]; simp only [mul_comm, mul_assoc]
    rw [this, e, mul_inv_cancel]
  rw [this]; rfl

theorem lam_A {B : E'} (hB : r • B = 0) (x : Ext (coc h)) (hx : x.A = B) :
    (lam h x).A = -phi (phi (phi B)) := by
  have h1 : (lam h x).A = -(sN • B) + phi B - phi (phi B) := by
    have : (lam h x).A = -(sN • x).A + phi x.A - phi (phi x.A) := by
      unfold lam; rw [sub_eq_add_neg, sub_eq_add_neg]; rfl
    rw [this, Ext.nsmul_A, hx]
  rw [h1]
  have e1 : phi B = p • B := phi_r hB
  rw [e1, map_nsmul, e1, map_nsmul, map_nsmul, e1, smul_smul, smul_smul]
  obtain ⟨k, hk⟩ := r_dvd
  have e2 : (p ^ 3 + p) • B = (sN + p ^ 2) • B := by
    rw [hk, add_nsmul, mul_nsmul', hB, nsmul_zero, zero_add]
  rw [add_nsmul, add_nsmul] at e2
  rw [← pow_two, show p * p ^ 2 = p ^ 3 by ring]
  refine eq_of_sub_eq_zero ?_
  have : -(sN • B) + p • B - p ^ 2 • B - -(p ^ 3 • B) = (p ^ 3 • B + p • B) - (sN • B + p ^ 2 • B) := by abel
  rw [this, e2, sub_self]

/-- on the r-torsion Λ takes values in the fibre, and the value is the one of λ -/
theorem Lam_one1 {B : E'} (hB : r • B = 0) : Lam h (one1 h B) = Ext.fib (lam h (one1 h B)).u := by
  have h1 := lam_A h hB (one1 h B) rfl
  rw [Lam_apply, Phi_one1, Phi_one1, Phi_one1]
  refine Ext.ext ?_ ?_
  · rw [Ext.add_u, h1, one1_u, one1_A, (coc h).symm, (coc h).neg, mul_one, mul_one, fib_u]
  · rw [Ext.add_A, h1, one1_A, fib_A]
    exact neg_add_cancel _

theorem Lam_mk {B : E'} (hB : r • B = 0) {u : F12ˣ} (hu : u ^ r = 1) :
    Lam h ⟨u, B⟩ = Ext.fib (lam h (one1 h B)).u := by
  have e : (⟨u, B⟩ : Ext (coc h)) = Ext.fib u + one1 h B := by
    refine Ext.ext ?_ (zero_add B).symm
    rw [Ext.fib_add_u]; exact (mul_one u).symm
  rw [e, map_add, Lam_fib h hu, zero_add, Lam_one1 h hB]

theorem gamma_pow_r (A B : E') : gamma h A B ^ r = 1 :=
  Units.ext (by
    rw [Units.val_pow_eq_pow_val, gamma_coe]; exact FE_pow_r (val_ne h (lin_ne A B)))

/-- the value for a point of the twist group; 1 at infinity -/
noncomputable def ate (B : E') : F12ˣ := (lam h (one1 h B)).u

theorem ate_add {A B : E'} (hA : r • A = 0) (hB : r • B = 0) : ate h (A + B) = ate h A * ate h B := by
  have hAB : r • (A + B) = 0 := by rw [nsmul_add, hA, hB, add_zero]
  have e : one1 h A + one1 h B = ⟨gamma h A B, A + B⟩ := Ext.ext (by
    show 1 * 1 * gamma h A B = _
    rw [one_mul, one_mul]) rfl
  have h1 := congrArg (Lam h) e
  rw [map_add, Lam_one1 h hA, Lam_one1 h hB, Lam_mk h hAB (gamma_pow_r h A B), Ext.fib_add] at h1
  exact (congrArg Ext.u h1).symm

theorem ate_neg (B : E') : ate h (-B) = (ate h B)⁻¹ := by
  unfold ate
  rw [← neg_one1, ← Ext.neg_u]
  congr 1
  unfold lam
  rw [map_neg, map_neg, smul_neg]
  abel

theorem ate_zero : ate h 0 = 1 := by
  have : one1 h 0 = 0 := rfl
  unfold ate lam
  rw [this]
  simp only [map_zero, smul_zero, neg_zero, sub_zero, add_zero]
  rfl

end Pairing
end Verif
