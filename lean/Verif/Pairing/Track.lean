import Verif.Pairing.Api

/-! The running point of the Miller loop and the lines it produces. -/

namespace Verif
open Fp Hom Ec WeierstrassCurve.Affine

namespace Pairing
open Miller

/-- the running point does not depend on P -/
theorem loop_point (Q Qn : F2 × F2) (P P' : Fe × Fe) (tbl : List ℤ) :
    (tbl.foldl (step Q Qn P) (start Q P)).2 = (tbl.foldl (step Q Qn P') (start Q P')).2 := by
  have h1 := (ml_fold Q Qn P tbl (start Q P).1 (start Q P).2 []).2
  have h2 := (ml_fold Q Qn P' tbl (start Q P').1 (start Q P').2 []).2
  rw [Prod.mk.eta] at h1 h2
  rw [h1, h2]; rfl

theorem g1_on : OnE (g1.x, g1.y) := by
  obtain ⟨hn, -⟩ := rep_affine good1 (valid1 g1_valid) rfl
  exact OnE.of hn

theorem repH_coords {K : Type} [Field K] {b : K} {T : J K} {A : (curve b).Point} (h : RepH b T A) (h0 : A ≠ 0) :
    ∃ hn : (curve b).Nonsingular (T.x / T.z) (T.y / T.z), T.z ≠ 0 ∧ A = .some (T.x / T.z) (T.y / T.z) hn := by
  rcases h with ⟨-, -, -, e⟩ | ⟨x, y, hn, hz, hx, hy, e⟩
  · exact absurd e h0
  · have e1 : x = T.x / T.z := by rw [hx, mul_div_cancel_right₀ _ hz]
    have e2 : y = T.y / T.z := by rw [hy, mul_div_cancel_right₀ _ hz]
    subst e1 e2
    exact ⟨hn, hz, e⟩

/-- value of the first digits -/
def digitsVal (ds : List ℤ) : ℤ := ds.foldl (fun n d => 2 * n + d) 0

theorem prefix_ok : ∀ k < 64, ((endVal 3 ((Param.siTbl.drop 2).take k) : ℤ) = digitsVal (Param.siTbl.take (k + 2))) ∧
    Nat.gcd (endVal 3 ((Param.siTbl.drop 2).take k)) ordN = 1 ∧
    ∀ m ∈ conds 3 ((Param.siTbl.drop 2).take k), Nat.gcd m ordN = 1 := by decide +kernel

/-- after every step T stands for the multiple of Q given by the digits read -/
theorem loop_track {Q : F2 × F2} (hQ : (curve (2 / F2.xi : F2)).Nonsingular Q.1 Q.2) (P : Fe × Fe) {k : ℕ} (hk : k < 64) :
    ∃ hn, (((Param.siTbl.drop 2).take k).foldl (step Q (Q.1, -Q.2) P) (start Q P)).2.z ≠ 0 ∧
      digitsVal (Param.siTbl.take (k + 2)) • (Point.some _ _ hQ : E') = .some
        ((((Param.siTbl.drop 2).take k).foldl (step Q (Q.1, -Q.2) P) (start Q P)).2.x /
          (((Param.siTbl.drop 2).take k).foldl (step Q (Q.1, -Q.2) P) (start Q P)).2.z)
        ((((Param.siTbl.drop 2).take k).foldl (step Q (Q.1, -Q.2) P) (start Q P)).2.y /
          (((Param.siTbl.drop 2).take k).foldl (step Q (Q.1, -Q.2) P) (start Q P)).2.z) hn := by
  obtain ⟨h1, h2, h3⟩ := prefix_ok k hk
  have r1 := (rel_prefix g1_on hQ h3).pt
  rw [Cocycle.Ext.nsmul_A, one1_A, loop_point _ _ _ P] at r1
  rw [← h1, natCast_zsmul]
  obtain ⟨hn, hz, e⟩ := repH_coords r1 (nat_ne (Point.some_ne_zero hQ) h2)
  exact ⟨hn, hz, e⟩

/-- the last two additions -/
theorem finish_track {Q : F2 × F2} (hQ : (curve (2 / F2.xi : F2)).Nonsingular Q.1 Q.2) (P : Fe × Fe) :
    ∃ h1 h2, RepH (2 / F2.xi)
        (addLineEval (negY ((Param.siTbl.drop 2).foldl (step Q (Q.1, -Q.2) P) (start Q P)).2) (frobTwist1 Q.1 Q.2) P).2
        (-(sN • (Point.some _ _ hQ : E')) + .some (frobTwist1 Q.1 Q.2).1 (frobTwist1 Q.1 Q.2).2 h1) ∧
      RepH (2 / F2.xi)
        (addLineEval (addLineEval (negY ((Param.siTbl.drop 2).foldl (step Q (Q.1, -Q.2) P) (start Q P)).2)
          (frobTwist1 Q.1 Q.2) P).2 (frobTwist8 Q.1 Q.2) P).2
        (-(sN • (Point.some _ _ hQ : E')) + .some (frobTwist1 Q.1 Q.2).1 (frobTwist1 Q.1 Q.2).2 h1
          + .some (frobTwist8 Q.1 Q.2).1 (frobTwist8 Q.1 Q.2).2 h2) := by
  have hB : (Point.some _ _ hQ : E') ≠ 0 := Point.some_ne_zero hQ
  have r1 := (rel_prefix g1_on hQ conds_ok).pt
  rw [endVal_ok, Cocycle.Ext.nsmul_A, one1_A, loop_point _ _ _ P] at r1
  have r2 := repH_neg r1
  obtain ⟨k1, e1⟩ := phi_some hQ
  obtain ⟨k2, e2⟩ := negphi2_some hQ
  refine ⟨k1, k2, ?_⟩
  have r3 := (addLine_spec (Q := frobTwist1 Q.1 Q.2) r2 k1 (neg_ne_zero.2 (nat_ne hB s_ok)) (by
      rw [← e1]
      intro e
      refine phi_ne_mul hB (.inr rfl) (n := -(sN : ℤ)) ?_
      rw [← e, neg_zsmul, natCast_zsmul])).1
  have r4 := (addLine_spec (Q := frobTwist8 Q.1 Q.2) r3 k2 (by
      rw [← e1]
      intro e
      refine phi_ne_mul hB (.inl rfl) (n := (sN : ℤ)) ?_
      rw [natCast_zsmul]
      exact (eq_of_sub_eq_zero (by rw [← e]; abel)))
    (by
      rw [← e1, ← e2]
      intro e
      refine last_ne hB ?_
      rw [natCast_zsmul]
      exact eq_of_sub_eq_zero (by
        rw [← sub_eq_zero] at e
        rw [← e]; abel))).1
  exact ⟨r3, r4⟩

/-! ### Lines -/

/-- value at (x, y) of the function with the coefficients stored by the line routines -/
noncomputable def coefAt (c : Coef) (x y : F2) : F2 := (Coef.den c).1 / F2.xi + (Coef.den c).2.1 * y + (Coef.den c).2.2 * x

theorem coefAt_prop3 {c : Coef} {l m : Lin F2} (h : Prop3 l m) (hc : Coef.den c = (F2.xi * l.1, l.2.1, l.2.2)) :
    ∃ k, k ≠ 0 ∧ (Coef.den c).2.1 = k * m.2.1 ∧ (Coef.den c).2.2 = k * m.2.2 ∧
      ∀ x y, coefAt c x y = k * (m.1 + m.2.1 * y + m.2.2 * x) := by
  obtain ⟨k, hk, e1, e2, e3⟩ := h
  refine ⟨k, hk, by rw [hc]; exact e2, by rw [hc]; exact e3, ?_⟩
  intro x y
  unfold coefAt
  rw [hc]
  dsimp only
  rw [mul_div_cancel_left₀ _ F2.xi_ne, e1, e2, e3]; ring

/-- the line of a doubling step is not vertical and passes through A (as the tangent) and -2A -/
theorem dbl_vanish {T : J F2} {x y : F2} (hn : (curve (2 / F2.xi : F2)).Nonsingular x y)
    (h : RepH (2 / F2.xi) T (.some x y hn)) :
    (Coef.den (dblLine T).1).2.1 ≠ 0 ∧ coefAt (dblLine T).1 x y = 0 ∧
    3 * x ^ 2 * (Coef.den (dblLine T).1).2.1 + 2 * y * (Coef.den (dblLine T).1).2.2 = 0 ∧
    ∃ x3 y3, ∃ h3, (Point.some x y hn : E') + .some x y hn = .some x3 y3 h3 ∧ coefAt (dblLine T).1 x3 (-y3) = 0 := by
  obtain ⟨-, l, hl, hc⟩ := dblLine_spec h
  obtain ⟨k, hk, k1, k2, hv⟩ := coefAt_prop3 hl hc
  have hy := y_ne2 hn
  have h2 : (Point.some x y hn : E') + .some x y hn ≠ 0 := by
    obtain ⟨h', e⟩ := add_self_aux good2 hn hy
    rw [e]; exact Point.some_ne_zero h'
  obtain ⟨hsl, hs⟩ := slope_self good2 (x := x) hy
  obtain ⟨s, n, x3, y3, h3, e1, e2, ey, -, ey3, -⟩ := chord hn hn h2
  have el : lin (b := (2 / F2.xi : F2)) (.some x y hn) (.some x y hn) = _ := if_neg hsl
  have hs2 : s = 3 * x ^ 2 / (2 * y) := by
    rw [e2] at el
    have := congrArg (fun l : Lin F2 => -l.2.2) el
    simp only [neg_neg] at this
    rw [this, hs]
  rw [e2] at k1 k2 hv
  refine ⟨by rw [k1, mul_one]; exact hk, ?_, ?_, x3, y3, h3, e1, ?_⟩
  · rw [hv, ey]; ring
  · rw [k1, k2, hs2]
    have := F2.two_ne
    field_simp
    ring
  · rw [hv, ey3]; ring

/-- the line of an addition step passes through A, Q and -(A + Q) -/
theorem add_vanish {T : J F2} {x y : F2} (hn : (curve (2 / F2.xi : F2)).Nonsingular x y)
    (h : RepH (2 / F2.xi) T (.some x y hn)) {Q : F2 × F2}
    (hQ : (curve (2 / F2.xi : F2)).Nonsingular Q.1 Q.2) (hne : (x, y) ≠ Q) :
    ((Coef.den (addLine T Q).1).2.1 ≠ 0 ∨ (Coef.den (addLine T Q).1).2.2 ≠ 0) ∧
    coefAt (addLine T Q).1 x y = 0 ∧ coefAt (addLine T Q).1 Q.1 Q.2 = 0 ∧
    ∀ x3 y3 h3, (Point.some x y hn : E') + .some _ _ hQ = .some x3 y3 h3 → coefAt (addLine T Q).1 x3 (-y3) = 0 := by
  have hA : (Point.some x y hn : E') ≠ .some _ _ hQ := by
    intro e
    have := Point.some.inj e
    exact hne (Prod.ext this.1 this.2)
  obtain ⟨-, l, hl, hc⟩ := addLine_spec h hQ (Point.some_ne_zero hn) hA
  obtain ⟨k, hk, k1, k2, hv⟩ := coefAt_prop3 hl hc
  by_cases h0 : (Point.some x y hn : E') + .some _ _ hQ = 0
  · have e : (Point.some _ _ hQ : E') = -.some x y hn := eq_neg_of_add_eq_zero_right h0
    obtain ⟨h', e'⟩ := neg_some hn
    rw [e'] at e
    have hx := Point.some.inj e
    have el : lin (b := (2 / F2.xi : F2)) (.some x y hn) (.some _ _ hQ) = (-x, 0, 1) :=
      if_pos ⟨hx.1.symm, by rw [hx.2]; simp [WeierstrassCurve.Affine.negY, curve]⟩
    rw [el] at k2 hv
    refine ⟨.inr (by rw [k2, mul_one]; exact hk), by rw [hv]; ring, by rw [hv, hx.1]; ring, ?_⟩
    intro x3 y3 h3 e3
    rw [h0] at e3
    exact absurd e3.symm (Point.some_ne_zero h3)
  · obtain ⟨s, n, x3, y3, h3, e1, e2, ey, eq2, ey3, -⟩ := chord hn hQ h0
    rw [e2] at k1 hv
    refine ⟨.inl (by rw [k1, mul_one]; exact hk), by rw [hv, ey]; ring, by rw [hv, eq2]; ring, ?_⟩
    intro x4 y4 h4 e4
    rw [e1] at e4
    have hx := Point.some.inj e4
    rw [hv, ← hx.1, ← hx.2, ey3]; ring

end Pairing
end Verif
