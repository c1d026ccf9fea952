import Verif.Pairing.Track

/-!
Property theorems C43-C50 and C54: the optimal ate pairing.

Vocabulary.  `optAte Q P` is `opt_atePairing(e, const Ec2& Q, const Ec1& P)`, `optAteJac` is `opt_atePairingJac`;
both work on Jacobian triples `J F2`, `J Fe` and return an `F12`.  `isValid1`, `isValid2` are `EcT::isValid`,
`isInf` is `EcT::isZero`, `scalarMult`, `add`, `neg` are the routines of `ecop`, `Rep`, `E1`, `E2` are as in
`Props/Ec`.  `wr` is the word list of r; `inG2 Q` is the membership test r·Q = O on the twist.
-/

namespace Verif
open Fp Ec Pairing Miller WeierstrassCurve.Affine

/-- points of the twist killed by r -/
def inG2 (Q : J F2) : Bool := isValid2 Q && isInf (scalarMult Q wr)

theorem rep1 {P : J Fe} (h : isValid1 P = true) : ∃ A : E1.Point, Rep b1 P A := ((isValid1_iff P).1 h).rep good1
theorem rep2 {Q : J F2} (h : isValid2 Q = true) : ∃ B : E2.Point, Rep b2 Q B := ((isValid2_iff Q).1 h).rep good2

theorem inf_iff {K : Type} [Field K] [FF K] [LawfulFF K] {b : K} {P : J K} {A : (curve b).Point} (h : Rep b P A) :
    isInf P = true ↔ A = 0 := by
  refine ⟨fun e => zero_of h ((LawfulFF.isZero_iff _).1 e), fun e => (LawfulFF.isZero_iff _).2 ?_⟩
  by_contra h0
  exact nonzero_of h h0 e

theorem inG2_iff (Q : J F2) : inG2 Q = true ↔ ∃ B : E2.Point, Rep b2 Q B ∧ r • B = 0 := by
  unfold inG2
  rw [Bool.and_eq_true]
  constructor
  · rintro ⟨h, h'⟩
    obtain ⟨B, hB⟩ := rep2 h
    have := (inf_iff (scalarMult_rep good2 hB w_spec.2.2.2.2.2.1)).1 h'
    rw [w_spec.2.2.2.2.2.2] at this
    exact ⟨B, hB, this⟩
  · rintro ⟨B, hB, h⟩
    refine ⟨(isValid2_iff Q).2 (hB.valid good2), ?_⟩
    rw [inf_iff (scalarMult_rep good2 hB w_spec.2.2.2.2.2.1), w_spec.2.2.2.2.2.2]
    exact h

/-! ### C43 -/

/-- **C43** the pairing is 1 if one of the points is infinity, whatever the other triple and the unused
coordinates are. -/
theorem C43_infinity (Q : J F2) (P : J Fe) (h : Q.z = 0 ∨ P.z = 0) : optAte Q P = 1 ∧ optAteJac Q P = 1 := by
  have key : ∀ {K : Type} [Field K] [FF K] [LawfulFF K] (T : J K), T.z = 0 → isInf (Ec.normalize T) = true := by
    intro K _ _ _ T hT
    have h1 : isInf T = true := (LawfulFF.isZero_iff _).2 hT
    unfold Ec.normalize
    rw [h1, Bool.true_or, if_pos rfl]; exact h1
  constructor
  · unfold optAte
    refine if_pos ?_
    rw [Bool.or_eq_true]
    exact h.imp (key Q) (key P)
  · unfold optAteJac
    refine if_pos ?_
    rw [Bool.or_eq_true]
    exact h.imp (LawfulFF.eqb_iff _ _).2 (LawfulFF.eqb_iff _ _).2

example : (⟨5, 7, 0⟩ : J Fe).z = 0 ∧ g2.z ≠ 0 ∧ optAte g2 g1 ≠ 1 := ⟨rfl, by decide +kernel, g_ne_one⟩

/-! ### C44 -/

/-- **C44** scaling the Jacobian coordinates of either argument does not change the value; the two entry points agree. -/
theorem C44_scale {Q : J F2} (hQ : isValid2 Q = true) {P : J Fe} (hP : isValid1 P = true) {c : F2} (hc : c ≠ 0)
    {d : Fe} (hd : d ≠ 0) :
    optAte ⟨c ^ 2 * Q.x, c ^ 3 * Q.y, c * Q.z⟩ ⟨d ^ 2 * P.x, d ^ 3 * P.y, d * P.z⟩ = optAte Q P ∧
    optAteJac ⟨c ^ 2 * Q.x, c ^ 3 * Q.y, c * Q.z⟩ ⟨d ^ 2 * P.x, d ^ 3 * P.y, d * P.z⟩ = optAteJac Q P ∧
    optAteJac Q P = optAte Q P := by
  obtain ⟨A, hA⟩ := rep1 hP
  obtain ⟨B, hB⟩ := rep2 hQ
  have hA' := C39_scale hA hd
  have hB' := C39_scale hB hc
  exact ⟨(optAte_rep hB' hA').trans (optAte_rep hB hA).symm, (optAteJac_rep hB' hA').trans (optAteJac_rep hB hA).symm,
    (optAteJac_rep hB hA).trans (optAte_rep hB hA).symm⟩

/-- **C44** the value depends only on the two curve points. -/
theorem C44_points {Q Q' : J F2} {B : E2.Point} (hQ : Rep b2 Q B) (hQ' : Rep b2 Q' B) {P P' : J Fe} {A : E1.Point}
    (hP : Rep b1 P A) (hP' : Rep b1 P' A) : optAte Q P = optAte Q' P' ∧ optAteJac Q P = optAte Q' P' :=
  ⟨(optAte_rep hQ hP).trans (optAte_rep hQ' hP').symm, (optAteJac_rep hQ hP).trans (optAte_rep hQ' hP').symm⟩

example : isValid2 g2 = true ∧ isValid1 g1 = true ∧ (2 : Fe) ≠ 0 ∧ (⟨3, 1⟩ : F2) ≠ 0 ∧
    (⟨2 ^ 2 * g1.x, 2 ^ 3 * g1.y, 2 * g1.z⟩ : J Fe).z ≠ g1.z := by decide +kernel

/-! ### C45 -/

/-- **C45** values of the pairing are non-zero and killed by r, for every point of the twist (of order dividing r
or not) and every point of the curve. -/
theorem C45_torsion {Q : J F2} (hQ : isValid2 Q = true) {P : J Fe} (hP : isValid1 P = true) :
    optAte Q P ≠ 0 ∧ optAte Q P ^ r = 1 := by
  obtain ⟨A, hA⟩ := rep1 hP
  obtain ⟨B, hB⟩ := rep2 hQ
  rw [optAte_rep hB hA]
  refine ⟨Units.ne_zero _, ?_⟩
  rw [← Units.val_pow_eq_pow_val, pair_pow_r]; rfl

theorem start_zero (P : Fe × Fe) : (start ((0 : F2), (0 : F2)) P).2 = ⟨0, 0, 0⟩ := by
  obtain ⟨-, h1, -, h3⟩ := dblLine_coord (⟨0, 0, 1⟩ : J F2)
  dsimp only at h1 h3
  have hx : (dblLine (⟨0, 0, 1⟩ : J F2)).2.x = 0 := by
    have : 2 * (dblLine (⟨0, 0, 1⟩ : J F2)).2.x = 0 := by rw [h1, mul_zero]
    exact (mul_eq_zero.1 this).resolve_left F2.two_ne
  have hz : (dblLine (⟨0, 0, 1⟩ : J F2)).2.z = 0 := by rw [h3]; ring
  obtain ⟨-, k1, k2, k3⟩ := addLine_coord (dblLine (⟨0, 0, 1⟩ : J F2)).2 ((0 : F2), (0 : F2))
  rw [hx, hz] at k1 k2 k3
  show (addLine (dblLine (⟨0, 0, 1⟩ : J F2)).2 ((0 : F2), (0 : F2))).2 = _
  generalize (addLine (dblLine (⟨0, 0, 1⟩ : J F2)).2 ((0 : F2), (0 : F2))).2 = U at k1 k2 k3 ⊢
  obtain ⟨a, b, c⟩ := U
  dsimp only at k1 k2 k3
  have e1 : a = 0 := by rw [k1]; ring
  have e2 : b = 0 := by rw [k2]; ring
  have e3 : c = 0 := by rw [k3]; ring
  rw [e1, e2, e3]

theorem step_zero' (Q Qn : F2 × F2) (P : Fe × Fe) (f : F12) (s : ℤ) : (step Q Qn P (f, ⟨0, 0, 0⟩) s).1 = 0 := by
  have h : eval (dblLine (⟨0, 0, 0⟩ : J F2)).1 P = 0 := by
    rw [eval_eq, (dblLine_coord _).1]
    refine F6.ext ?_ ?_ ?_ <;> dsimp only <;> simp <;> rfl
  have h' : (0 : F6).line = 0 := rfl
  unfold step dblLineEval
  dsimp only
  rw [h]
  split_ifs <;> simp only [F12.square_eq, F12.mul024_eq, h', zero_mul, mul_zero]

theorem step_zero (Q Qn : F2 × F2) (P : Fe × Fe) (T : J F2) (s : ℤ) : (step Q Qn P (0, T) s).1 = 0 := by
  unfold step
  dsimp only
  split_ifs <;> simp only [F12.square_eq, F12.mul024_eq, zero_mul, mul_zero]

theorem fold_zero (Q Qn : F2 × F2) (P : Fe × Fe) (tbl : List ℤ) : ∀ st : F12 × J F2, st.1 = 0 →
    (tbl.foldl (step Q Qn P) st).1 = 0 := by
  induction tbl with
  | nil => exact fun st h => h
  | cons s tbl ih =>
    intro st h
    refine ih _ ?_
    obtain ⟨f, T⟩ := st
    dsimp only at h
    subst h
    exact step_zero Q Qn P T s

theorem miller_zero (P : Fe × Fe) : miller Param.siTbl (0, 0) P = 0 := by
  have e : Param.siTbl.drop 2 = 0 :: Param.siTbl.drop 3 := rfl
  unfold miller finish
  dsimp only
  rw [e, List.foldl_cons, fold_zero]
  · have : negB 0 = 0 := F12.ext rfl neg_zero
    rw [this, zero_mul]
  · have h := start_zero P
    generalize start ((0 : F2), (0 : F2)) P = st at h ⊢
    obtain ⟨f, T⟩ := st
    dsimp only at h
    rw [h]
    exact step_zero' _ _ _ _ _

/-- **C45** validity is needed: for the triple (0, 0, 1), which is not on the twist, the pairing with every affine
point is 0. -/
theorem C45_invalid_zero (x y : Fe) : isValid2 ⟨0, 0, 1⟩ = false ∧ optAte ⟨0, 0, 1⟩ ⟨x, y, 1⟩ = 0 := by
  refine ⟨by decide +kernel, ?_⟩
  have n1 : Ec.normalize (⟨0, 0, 1⟩ : J F2) = ⟨0, 0, 1⟩ := by
    unfold Ec.normalize
    exact if_pos (by rw [Bool.or_eq_true]; exact .inr ((LawfulFF.eqb_iff _ _).2 rfl))
  have n2 : Ec.normalize (⟨x, y, 1⟩ : J Fe) = ⟨x, y, 1⟩ := by
    unfold Ec.normalize
    exact if_pos (by rw [Bool.or_eq_true]; exact .inr ((LawfulFF.eqb_iff _ _).2 rfl))
  unfold optAte
  rw [n1, n2]
  have i1 : isInf (⟨0, 0, 1⟩ : J F2) = false := isZero_false.2 one_ne_zero
  have i2 : isInf (⟨x, y, 1⟩ : J Fe) = false := isZero_false.2 one_ne_zero
  dsimp only
  rw [i1, i2, Bool.or_false, if_neg Bool.false_ne_true]
  unfold optAteAffine
  rw [miller_zero, F12.finalExp_zero]

example : isValid2 g2 = true ∧ isValid1 g1 = true ∧ optAte g2 g1 ≠ 1 := ⟨g2_valid, g1_valid, g_ne_one⟩

/-! ### C46 -/

/-- **C46** `precomputeG2`, `millerLoop` and `final_exp` give the pairing, for valid points other than infinity;
no coefficient is read past the end. -/
theorem C46_precomputed {Q : J F2} (hQ : isValid2 Q = true) (hQ0 : Q.z ≠ 0) {P : J Fe} (hP : isValid1 P = true)
    (hP0 : P.z ≠ 0) :
    ∃ f, millerLoop Param.siTbl (precomputeG2 Param.siTbl Q).1 ((normalizeJac P).x, (normalizeJac P).y) = some f ∧
      f.finalExp = optAte Q P ∧ f.finalExp = optAteJac Q P := by
  refine ⟨_, millerLoop_pre _ Q _, ?_⟩
  have e : (miller Param.siTbl ((normalizeJac Q).x, (normalizeJac Q).y) ((normalizeJac P).x, (normalizeJac P).y)).finalExp
      = optAteJac Q P := by
    unfold optAteJac
    rw [eqb_false.2 hQ0, eqb_false.2 hP0]; rfl
  exact ⟨e.trans (C44_scale hQ hP one_ne_zero one_ne_zero).2.2, e⟩

/-- **C46** `millerLoop2` is the product of two `millerLoop`s, for any coefficient vectors long enough. -/
theorem C46_loop2 {c1 c2 : List Coef} {P1 P2 : Fe × Fe} {a b : F12} (h1 : millerLoop Param.siTbl c1 P1 = some a)
    (h2 : millerLoop Param.siTbl c2 P2 = some b) : millerLoop2 Param.siTbl c1 P1 c2 P2 = some (a * b) :=
  millerLoop2_eq h1 h2

/-- **C46** the double Miller loop with one final exponentiation gives the product of the two pairings. -/
theorem C46_product {Q1 Q2 : J F2} (hQ1 : isValid2 Q1 = true) (h1 : Q1.z ≠ 0) (hQ2 : isValid2 Q2 = true) (h2 : Q2.z ≠ 0)
    {P1 P2 : J Fe} (hP1 : isValid1 P1 = true) (h3 : P1.z ≠ 0) (hP2 : isValid1 P2 = true) (h4 : P2.z ≠ 0) :
    ∃ f, millerLoop2 Param.siTbl (precomputeG2 Param.siTbl Q1).1 ((normalizeJac P1).x, (normalizeJac P1).y)
        (precomputeG2 Param.siTbl Q2).1 ((normalizeJac P2).x, (normalizeJac P2).y) = some f ∧
      f.finalExp = optAte Q1 P1 * optAte Q2 P2 := by
  obtain ⟨f, e1, e2, -⟩ := C46_precomputed hQ1 h1 hP1 h3
  obtain ⟨g, e3, e4, -⟩ := C46_precomputed hQ2 h2 hP2 h4
  refine ⟨f * g, C46_loop2 e1 e3, ?_⟩
  have := map_mul FE f g
  rw [FE_apply, FE_apply, FE_apply] at this
  rw [this, e2, e4]

/-- **C46** at infinity the precomputed form differs from the pairing: `precomputeG2` clears the coordinates, goes
on with (0, 0, 1), and the final result is 0 instead of 1. -/
theorem C46_infinity_wrong (Q : J F2) (hQ : Q.z = 0) (P : J Fe) :
    (millerLoop Param.siTbl (precomputeG2 Param.siTbl Q).1 ((normalizeJac P).x, (normalizeJac P).y)).map F12.finalExp =
      some 0 ∧ optAte Q P = 1 := by
  refine ⟨?_, (C43_infinity Q P (.inl hQ)).1⟩
  have e : normalizeJac Q = ⟨0, 0, 0⟩ := by
    unfold normalizeJac
    exact if_pos ((LawfulFF.eqb_iff _ _).2 hQ)
  rw [millerLoop_pre, e]
  dsimp only [Option.map_some]
  rw [miller_zero, F12.finalExp_zero]

example : isValid2 g2 = true ∧ g2.z ≠ 0 ∧ isValid1 g1 = true ∧ g1.z ≠ 0 ∧
    (precomputeG2 Param.siTbl g2).1.length = 70 := by decide +kernel

/-! ### C47 -/

/-- **C47** after every pass of the Miller loop the running point T (homogeneous coordinates, Z ≠ 0) is n·Q, where n
is the number formed by the digits of |6z+2| read so far; Q is any point of the twist. -/
theorem C47_multiple {x y : F2} (hQ : E2.Nonsingular x y) (P : Fe × Fe) {k : ℕ} (hk : k < 64) {f : F12} {T : J F2}
    (hT : ((Param.siTbl.drop 2).take k).foldl (step (x, y) (x, -y) P) (start (x, y) P) = (f, T)) :
    ∃ hn, T.z ≠ 0 ∧ (Param.siTbl.take (k + 2)).foldl (fun n d => 2 * n + d) (0 : ℤ) • (Point.some x y hQ : E2.Point) =
      .some (T.x / T.z) (T.y / T.z) hn := by
  have := loop_track (Q := (x, y)) hQ P hk
  rw [hT] at this
  exact this

/-- **C47** the two additions after the loop: T is negated to -|6z+2|·Q, then the Frobenius images of Q are added. -/
theorem C47_finish {x y : F2} (hQ : E2.Nonsingular x y) (P : Fe × Fe) {f : F12} {T : J F2}
    (hT : (Param.siTbl.drop 2).foldl (step (x, y) (x, -y) P) (start (x, y) P) = (f, T)) :
    ∃ h1 h2,
      Hom.RepH b2 (addLineEval (negY T) (frobTwist1 x y) P).2
        (-(27886288892678111236 • (Point.some x y hQ : E2.Point)) + .some (frobTwist1 x y).1 (frobTwist1 x y).2 h1) ∧
      Hom.RepH b2 (addLineEval (addLineEval (negY T) (frobTwist1 x y) P).2 (frobTwist8 x y) P).2
        (-(27886288892678111236 • (Point.some x y hQ : E2.Point)) + .some (frobTwist1 x y).1 (frobTwist1 x y).2 h1
          + .some (frobTwist8 x y).1 (frobTwist8 x y).2 h2) := by
  have := finish_track (Q := (x, y)) hQ P
  rw [hT] at this
  exact this

/-- **C47** the line of a doubling step: not vertical, through A with the slope of the tangent, and through -2A.
`coefAt c x y` is c₀/ξ + c₁y + c₂x for the three stored coefficients. -/
theorem C47_dbl_line {T : J F2} {x y : F2} (hn : E2.Nonsingular x y) (hT : T.z ≠ 0) (hx : T.x = x * T.z) (hy : T.y = y * T.z) :
    (Coef.den (dblLine T).1).2.1 ≠ 0 ∧ coefAt (dblLine T).1 x y = 0 ∧
    3 * x ^ 2 * (Coef.den (dblLine T).1).2.1 + 2 * y * (Coef.den (dblLine T).1).2.2 = 0 ∧
    ∃ x3 y3, ∃ h3, (Point.some x y hn : E2.Point) + .some x y hn = .some x3 y3 h3 ∧ coefAt (dblLine T).1 x3 (-y3) = 0 :=
  dbl_vanish hn (.inr ⟨x, y, hn, hT, hx, hy, rfl⟩)

/-- **C47** the line of an addition step passes through A, Q and -(A + Q). -/
theorem C47_add_line {T : J F2} {x y : F2} (hn : E2.Nonsingular x y) (hT : T.z ≠ 0) (hx : T.x = x * T.z) (hy : T.y = y * T.z)
    {x' y' : F2} (hQ : E2.Nonsingular x' y') (hne : (x, y) ≠ (x', y')) :
    ((Coef.den (addLine T (x', y')).1).2.1 ≠ 0 ∨ (Coef.den (addLine T (x', y')).1).2.2 ≠ 0) ∧
    coefAt (addLine T (x', y')).1 x y = 0 ∧ coefAt (addLine T (x', y')).1 x' y' = 0 ∧
    ∀ x3 y3 h3, (Point.some x y hn : E2.Point) + .some _ _ hQ = .some x3 y3 h3 → coefAt (addLine T (x', y')).1 x3 (-y3) = 0 :=
  add_vanish hn (.inr ⟨x, y, hn, hT, hx, hy, rfl⟩) (Q := (x', y')) hQ hne

/-- **C47** evaluation at P multiplies the coefficients of y and x by the coordinates of P. -/
theorem C47_eval (c : Coef) (P : Fe × Fe) :
    (eval c P).a = (Coef.den c).1 ∧ (eval c P).b = (Coef.den c).2.1 * F2.ofFe P.2 ∧
    (eval c P).c = (Coef.den c).2.2 * F2.ofFe P.1 := by
  rw [eval_eq]; exact ⟨rfl, rfl, rfl⟩

example : ∃ hQ : E2.Nonsingular g2.x g2.y, (Point.some _ _ hQ : E2.Point) ≠ 0 ∧
    (Param.siTbl.take 65).foldl (fun n d => 2 * n + d) (0 : ℤ) = 27886288892678111236 ∧
    (27886288892678111236 : ℤ) = -(6 * -(2 ^ 62 + 2 ^ 55 + 1) + 2) ∧
    (Param.siTbl.take 9).foldl (fun n d => 2 * n + d) (0 : ℤ) = 387 := by
  obtain ⟨hn, -⟩ := rep_affine good2 (valid2 g2_valid) rfl
  exact ⟨hn, Point.some_ne_zero hn, by decide +kernel, by decide +kernel, by decide +kernel⟩

/-! ### C48 -/

/-- **C48** negation of either argument inverts the value. -/
theorem C48_neg {Q : J F2} (hQ : isValid2 Q = true) {P : J Fe} (hP : isValid1 P = true) :
    optAte Q P * optAte Q (neg P) = 1 ∧ optAte Q P * optAte (neg Q) P = 1 := by
  obtain ⟨A, hA⟩ := rep1 hP
  obtain ⟨B, hB⟩ := rep2 hQ
  rw [optAte_rep hB hA, optAte_rep hB (rep_neg hA), optAte_rep (rep_neg hB) hA, pair_neg, pair_neg_left]
  exact ⟨Units.mul_inv _, Units.mul_inv _⟩

example : isValid2 g2 = true ∧ isValid1 g1 = true ∧ optAte g2 g1 ≠ 1 ∧ neg g1 ≠ g1 ∧ neg g2 ≠ g2 :=
  ⟨g2_valid, g1_valid, g_ne_one, by decide +kernel, by decide +kernel⟩

/-! ### C49 -/

/-- **C49** bilinearity: for Q of order dividing r on the twist, every P on the curve and all scalars. -/
theorem C49_bilinear {Q : J F2} (hQ : inG2 Q = true) {P : J Fe} (hP : isValid1 P = true) {a b : List ℕ} (ha : WF a)
    (hb : WF b) : optAte (scalarMult Q a) (scalarMult P b) = optAte Q P ^ (val a * val b) := by
  obtain ⟨A, hA⟩ := rep1 hP
  obtain ⟨B, hB, hr⟩ := (inG2_iff Q).1 hQ
  rw [optAte_rep (scalarMult_rep good2 hB ha) (scalarMult_rep good1 hA hb), optAte_rep hB hA, pair_bilinear hr,
    Units.val_pow_eq_pow_val]

/-- **C49** additivity in both arguments. -/
theorem C49_add {Q Q' : J F2} (hQ : inG2 Q = true) (hQ' : inG2 Q' = true) {P P' : J Fe} (hP : isValid1 P = true)
    (hP' : isValid1 P' = true) (old : J Fe) (old' : J F2) :
    optAte (add old' Q Q') P = optAte Q P * optAte Q' P ∧ optAte Q (add old P P') = optAte Q P * optAte Q P' := by
  obtain ⟨A, hA⟩ := rep1 hP
  obtain ⟨A', hA'⟩ := rep1 hP'
  obtain ⟨B, hB, hr⟩ := (inG2_iff Q).1 hQ
  obtain ⟨B', hB', hr'⟩ := (inG2_iff Q').1 hQ'
  rw [optAte_rep (rep_add good2 old' hB hB') hA, optAte_rep hB (rep_add good1 old hA hA'), optAte_rep hB hA,
    optAte_rep hB' hA, optAte_rep hB hA', pair_add_left hr hr', pair_add hr]
  exact ⟨rfl, rfl⟩

theorem g2_inG2 : inG2 g2 = true := by
  unfold inG2
  rw [g2_valid, g2_ord]; rfl

example : inG2 g2 = true ∧ isValid1 g1 = true ∧ WF [3, 1] ∧ val [3, 1] = 2 ^ 64 + 3 ∧ optAte g2 g1 ≠ 1 :=
  ⟨g2_inG2, g1_valid, by decide, by decide, g_ne_one⟩

/-! ### C50 -/

theorem g_pair_iff (n : ℕ) : optAte g2 g1 ^ n = 1 ↔ r ∣ n := by
  obtain ⟨A, B, hA, hB, -, -, -, -, h⟩ := g_points
  rw [optAte_rep hB hA, ← Units.val_pow_eq_pow_val, Units.val_eq_one]
  exact pow_dvd r_prime (pair_pow_r B A) h n

/-- **C50** for the documented base points: the value is not 1, and a, b give 1 exactly when r divides ab. -/
theorem C50_base {a b : List ℕ} (ha : WF a) (hb : WF b) :
    optAte g2 g1 ≠ 1 ∧ (optAte (scalarMult g2 a) (scalarMult g1 b) = 1 ↔ r ∣ val a * val b) := by
  refine ⟨g_ne_one, ?_⟩
  rw [C49_bilinear g2_inG2 g1_valid ha hb]
  exact g_pair_iff _

/-- **C50** for all points: the pairing of a G2 point with a curve point is 1 only if one of them is infinity. -/
theorem C50_nondegenerate {Q : J F2} (hQ : inG2 Q = true) {P : J Fe} (hP : isValid1 P = true) :
    optAte Q P = 1 ↔ isInf Q = true ∨ isInf P = true := by
  obtain ⟨A, hA⟩ := rep1 hP
  obtain ⟨B, hB, hr⟩ := (inG2_iff Q).1 hQ
  rw [inf_iff hA, inf_iff hB, optAte_rep hB hA, Units.val_eq_one]
  constructor
  · exact pair_eq_one hr
  · rintro (h | h)
    · rw [h, pair_zero_left]
    · rw [h, pair_zero]

example : (¬ r ∣ val [3, 1] * val [5]) ∧ r ∣ val wr * val [5] := by decide +kernel

/-! ### C54 -/

/-- **C54** the group orders: E(Fp) has exactly r points and E'(Fp2) exactly r(2p - r). -/
theorem C54_orders : Nat.card E1.Point = r ∧ Nat.card E2.Point = r * (2 * p - r) := ⟨card_E0, card_E'⟩

/-- **C54** hence every valid triple of G1 is killed by r: `isValid` alone decides membership of G1. -/
theorem C54_G1 {P : J Fe} (hP : isValid1 P = true) : isInf (scalarMult P wr) = true := by
  obtain ⟨A, hA⟩ := rep1 hP
  rw [inf_iff (scalarMult_rep good1 hA w_spec.2.2.2.2.2.1), w_spec.2.2.2.2.2.2]
  exact r_smul A

/-- **C54** on the twist `isValid` is not enough: there is a valid triple that r does not kill. -/
theorem C54_twist_cofactor : isValid2 tq1 = true ∧ isInf (scalarMult tq1 wr) = false ∧
    isInf (scalarMult tq1 [13]) = true := by
  have h1 := tq_valid.1
  have h2 := tq1_ord
  refine ⟨h1, ?_, h2⟩
  obtain ⟨B, hB⟩ := rep2 h1
  rw [Bool.eq_false_iff]
  intro h
  have e1 := (inf_iff (scalarMult_rep good2 hB w_spec.2.2.2.2.2.1)).1 h
  have e2 := (inf_iff (scalarMult_rep good2 hB w_spec.1.1)).1 h2
  rw [w_spec.2.2.2.2.2.2] at e1
  rw [w_spec.1.2] at e2
  have d1 := addOrderOf_dvd_iff_nsmul_eq_zero.2 e1
  have d2 := addOrderOf_dvd_iff_nsmul_eq_zero.2 e2
  have : addOrderOf B ∣ 1 := by
    have : Nat.gcd r 13 = 1 := by decide +kernel
    rw [← this]; exact Nat.dvd_gcd d1 d2
  have e3 : B = 0 := AddMonoid.addOrderOf_eq_one_iff.1 (Nat.dvd_one.1 this)
  have := (inf_iff hB).2 e3
  exact absurd this (by decide +kernel)

example : isValid1 g1 = true ∧ isInf g1 = false ∧ Verif.val wr = r := ⟨g1_valid, by decide +kernel, by decide +kernel⟩

end Verif
