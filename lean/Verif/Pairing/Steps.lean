import Verif.Pairing.Gamma

/-! The line routines of the code against the group law and the lines of `Group`. -/

namespace Verif
open Fp Hom Ec

theorem F2.bTw_eq : F2.bTw = 2 / F2.xi := by
  have h : F2.bTw * F2.xi = 2 := by
    rw [show (2 : F2) = F2.incl 2 by rw [map_ofNat], F2.incl_apply]
    ext1 <;> simp only [F2.bTw, F2.xi, F2.ofFe, F2.mul_a, F2.mul_b] <;> ring
  rw [← h, mul_div_assoc, div_self F2.xi_ne, mul_one]

namespace Miller

/-- the coefficients stored, as field elements -/
noncomputable def Coef.den (c : Coef) : F2 × F2 × F2 := (c.l.a.den, c.l.b.den, c.l.c.den)

theorem eval_eq (c : Coef) (P : Fe × Fe) :
    eval c P = ⟨(Coef.den c).1, (Coef.den c).2.1 * F2.ofFe P.2, (Coef.den c).2.2 * F2.ofFe P.1⟩ := by
  have h1 := (Fp2.mulFp0_den c.hb.lt3 P.2).2
  have h2 := (Fp2.mulFp0_den c.hc P.1).2
  unfold eval
  rw [F6.ofRaw_eq]
  unfold mulFp6_24_Fp_01 R6.den Coef.den
  dsimp only
  rw [h1, h2]

theorem eval_line (c : Coef) (P : Fe × Fe) (l : Lin F2) (ha : (Coef.den c).1 = F2.xi * l.1)
    (hb : (Coef.den c).2.1 = l.2.1) (hc : (Coef.den c).2.2 = l.2.2) :
    (eval c P).line = F12.incl F2.xi * Pairing.val P l := by
  rw [eval_eq, ha, hb, hc, Pairing.val_mk6, F12.incl_mul_mk6]
  show F12.mk6 _ 0 0 _ _ 0 = _
  have hx := F2.xi_ne
  have e : ∀ u v : F2, F2.xi * (u * (v / F2.xi)) = u * v := fun u v => by field_simp
  rw [mul_zero, e, e]

theorem dblLine_coord (T : J F2) :
    Coef.den (dblLine T).1 = (F2.xi * (3 * (2 / F2.xi) * T.z ^ 2 - T.y ^ 2), -(2 * T.y * T.z), 3 * T.x ^ 2) ∧
    2 * (dblLine T).2.x = (T.y ^ 2 - 9 * (2 / F2.xi) * T.z ^ 2) * T.x * T.y ∧
    4 * (dblLine T).2.y = (T.y ^ 2 + 9 * (2 / F2.xi) * T.z ^ 2) ^ 2 - 108 * (2 / F2.xi) ^ 2 * T.z ^ 4 ∧
    (dblLine T).2.z = 2 * T.y ^ 3 * T.z := by
  obtain ⟨h1, h2, ⟨h3, h4, h5⟩, h6, h7, h8⟩ := dblLine_den T.x.raw_canon T.y.raw_canon T.z.raw_canon
  rw [F2.bTw_eq, F2.den_raw, F2.den_raw] at h3 h6 h7
  rw [F2.den_raw, F2.den_raw] at h4 h8
  rw [F2.den_raw] at h5 h6
  refine ⟨Prod.ext h3 (Prod.ext h4 h5), ?_, ?_, ?_⟩
  · rw [← h6]; exact congrArg (2 * ·) (F2.ofRaw_eq h2.1)
  · rw [← h7]; exact congrArg (4 * ·) (F2.ofRaw_eq h2.2.1)
  · rw [← h8]; exact F2.ofRaw_eq h2.2.2

theorem addLine_coord (T : J F2) (Q : F2 × F2) :
    Coef.den (addLine T Q).1 = (F2.xi * ((T.y - T.z * Q.2) * Q.1 - (T.x - T.z * Q.1) * Q.2), T.x - T.z * Q.1,
      -(T.y - T.z * Q.2)) ∧
    (addLine T Q).2.x = (T.x - T.z * Q.1) * ((T.y - T.z * Q.2) ^ 2 * T.z + (T.x - T.z * Q.1) ^ 3
      - 2 * ((T.x - T.z * Q.1) ^ 2 * T.x)) ∧
    (addLine T Q).2.y = (T.y - T.z * Q.2) * ((T.x - T.z * Q.1) ^ 2 * T.x - ((T.y - T.z * Q.2) ^ 2 * T.z
      + (T.x - T.z * Q.1) ^ 3 - 2 * ((T.x - T.z * Q.1) ^ 2 * T.x))) - (T.x - T.z * Q.1) ^ 3 * T.y ∧
    (addLine T Q).2.z = (T.x - T.z * Q.1) ^ 3 * T.z := by
  obtain ⟨h1, h2, ⟨h3, h4, h5⟩, h6, h7, h8⟩ := addLine_den T.x.raw_canon T.y.raw_canon T.z.raw_canon
    Q.1.raw_canon Q.2.raw_canon
  simp only [F2.den_raw] at h3 h4 h5 h6 h7 h8
  refine ⟨Prod.ext h3 (Prod.ext h4 h5), ?_, ?_, ?_⟩
  · rw [← h6]; exact F2.ofRaw_eq h2.1
  · rw [← h7]; exact F2.ofRaw_eq h2.2.1
  · rw [← h8]; exact F2.ofRaw_eq h2.2.2

/-- `pointDblLineEvalWithoutP` -/
theorem dblLine_spec {T : J F2} {A : (curve (2 / F2.xi : F2)).Point} (h : RepH (2 / F2.xi) T A) :
    RepH (2 / F2.xi) (dblLine T).2 (A + A) ∧
    ∃ l, Prop3 l (lin A A) ∧ Coef.den (dblLine T).1 = (F2.xi * l.1, l.2.1, l.2.2) := by
  obtain ⟨h1, h2, h3, h4⟩ := dblLine_coord T
  obtain ⟨h5, h6⟩ := dbl_step good2 h h2 h3 h4
  exact ⟨h5, _, h6, h1⟩

/-- `pointAddLineEvalWithoutP` -/
theorem addLine_spec {T : J F2} {A : (curve (2 / F2.xi : F2)).Point} (h : RepH (2 / F2.xi) T A) {Q : F2 × F2}
    (hQ : (curve (2 / F2.xi : F2)).Nonsingular Q.1 Q.2) (hA0 : A ≠ 0) (hA : A ≠ .some _ _ hQ) :
    RepH (2 / F2.xi) (addLine T Q).2 (A + .some _ _ hQ) ∧
    ∃ l, Prop3 l (lin A (.some _ _ hQ)) ∧ Coef.den (addLine T Q).1 = (F2.xi * l.1, l.2.1, l.2.2) := by
  obtain ⟨h1, h2, h3, h4⟩ := addLine_coord T Q
  obtain ⟨h5, h6⟩ := add_step good2 h hQ hA0 hA h2 h3 h4
  exact ⟨h5, _, h6, h1⟩

/-- the value multiplied into f -/
theorem eval_prop3 {c : Coef} {P : Fe × Fe} {l m : Lin F2} (h : Prop3 l m)
    (hc : Coef.den c = (F2.xi * l.1, l.2.1, l.2.2)) :
    ∃ k : F2, k ≠ 0 ∧ (eval c P).line = F12.incl k * Pairing.val P m := by
  obtain ⟨k, hk, e⟩ := evl_prop3 F12.incl (Pairing.PX P) (Pairing.PY P) h
  refine ⟨F2.xi * k, mul_ne_zero F2.xi_ne hk, ?_⟩
  rw [eval_line c P l (by rw [hc]) (by rw [hc]) (by rw [hc]), map_mul, mul_assoc]
  exact congrArg _ e

end Miller
end Verif
