import Verif.Ec.History
import Verif.Ec.Points

/-!
Property theorems C36-C40, C42 and the twist part of C33: elliptic-curve routines.

Vocabulary. `J K` is a coordinate triple `K p[3]`.  `curve b` is Mathlib's Weierstrass curve y² = x³ + b and
`(curve b).Point` its group of points with Mathlib's addition.  `Rep b P A` says that the Jacobian triple P
stands for A: Z = 0 and A = 0, or Z ≠ 0 and A = (X/Z², Y/Z³).  `Valid b P`: Z = 0 or Y² = X³ + bZ⁶.
`E1` is the curve over Fp (b = 2), `E2` the twist over Fp2 (b = 2/ξ, ξ = 1 + u).
-/

namespace Verif
open Fp Ec

/-- coefficient of G1's curve -/
noncomputable abbrev b1 : Fe := 2
/-- coefficient of the twist -/
noncomputable abbrev b2 : F2 := 2 / F2.xi
/-- E: y² = x³ + 2 over Fp -/
noncomputable abbrev E1 := curve b1
/-- E': y² = x³ + 2/ξ over Fp2 -/
noncomputable abbrev E2 := curve b2

/-! ### C36 -/

theorem isValid1_iff (P : J Fe) : isValid1 P = true ↔ Valid b1 P :=
  isOnJac3_iff b1 _ (fun z => by rw [Param.b_eq]; ring) P
theorem isValid2_iff (P : J F2) : isValid2 P = true ↔ Valid b2 P :=
  isOnJac3_iff b2 _ (fun z => by rw [Param.b_invxi_eq]) P

/-- **C36** `EcT<Fp>::isValid`. -/
theorem C36_G1 (P : J Fe) : isValid1 P = true ↔ P.z = 0 ∨ P.y ^ 2 = P.x ^ 3 + 2 * P.z ^ 6 := isValid1_iff P

/-- **C36** `EcT<Fp2>::isValid`; the constant is b/ξ with ξ = 1 + u. -/
theorem C36_G2 (P : J F2) : isValid2 P = true ↔
    P.z = 0 ∨ (⟨1, 1⟩ : F2) * P.y ^ 2 = ⟨1, 1⟩ * P.x ^ 3 + 2 * P.z ^ 6 := by
  rw [isValid2_iff]
  have hx : (⟨1, 1⟩ : F2) = F2.xi := rfl
  have hn := F2.xi_ne
  unfold Valid
  rw [hx]
  have e : P.y ^ 2 = P.x ^ 3 + b2 * P.z ^ 6 ↔ F2.xi * P.y ^ 2 = F2.xi * P.x ^ 3 + 2 * P.z ^ 6 := by
    unfold b2
    constructor
    · intro h; rw [h]; field_simp
    · intro h
      apply mul_left_cancel₀ hn
      rw [h]; field_simp
  rw [e]

/-- **C36** a triple is valid exactly when it stands for a point of the curve, which is then unique. -/
theorem C36_represents (P : J Fe) (Q : J F2) :
    (isValid1 P = true ↔ ∃! A : E1.Point, Rep b1 P A) ∧ (isValid2 Q = true ↔ ∃! A : E2.Point, Rep b2 Q A) := by
  rw [isValid1_iff, isValid2_iff]
  refine ⟨⟨fun h => ?_, fun ⟨A, h, _⟩ => h.valid good1⟩, ⟨fun h => ?_, fun ⟨A, h, _⟩ => h.valid good2⟩⟩
  · obtain ⟨A, hA⟩ := h.rep good1
    exact ⟨A, hA, fun B hB => hB.unique hA⟩
  · obtain ⟨A, hA⟩ := h.rep good2
    exact ⟨A, hA, fun B hB => hB.unique hA⟩

theorem hom2_aux {K : Type} [Field K] [FF K] [LawfulFF K] (c x y : K) :
    isOnHom2 c x y = true ↔ y ^ 2 = x ^ 3 + c := by
  unfold isOnHom2
  simp only [LawfulFF.eqb_iff]
  exact ⟨fun h => by linear_combination h, fun h => by linear_combination h⟩

theorem hom3_aux {K : Type} [Field K] [FF K] [LawfulFF K] (c d : K) (P : J K)
    (hd : d = c * P.z ^ 3) :
    (if FF.eqb P.z 0 then true else FF.eqb (P.y * P.y * P.z) (P.x * P.x * P.x + d)) = true ↔
      P.z = 0 ∨ P.y ^ 2 * P.z = P.x ^ 3 + c * P.z ^ 3 := by
  by_cases hz : P.z = 0
  · rw [if_pos ((LawfulFF.eqb_iff _ _).2 hz)]; simp [hz]
  · rw [if_neg (by rw [LawfulFF.eqb_iff]; exact hz)]
    simp only [LawfulFF.eqb_iff, hz, false_or, hd]
    exact ⟨fun h => by linear_combination h, fun h => by linear_combination h⟩

/-- **C36** the affine and homogeneous checks. -/
theorem C36_hom (P : J Fe) (Q : J F2) :
    (isOnHom2 Param.b P.x P.y = true ↔ P.y ^ 2 = P.x ^ 3 + 2) ∧
    (isOnECHom3 P = true ↔ P.z = 0 ∨ P.y ^ 2 * P.z = P.x ^ 3 + 2 * P.z ^ 3) ∧
    (isOnHom2 Param.b_invxi Q.x Q.y = true ↔ Q.y ^ 2 = Q.x ^ 3 + 2 / (⟨1, 1⟩ : F2)) ∧
    (isOnTwistECHom3 Q = true ↔ Q.z = 0 ∨ Q.y ^ 2 * Q.z = Q.x ^ 3 + 2 / (⟨1, 1⟩ : F2) * Q.z ^ 3) := by
  have hx : (⟨1, 1⟩ : F2) = F2.xi := rfl
  rw [hx]
  refine ⟨?_, ?_, ?_, ?_⟩
  · rw [hom2_aux, Param.b_eq]
  · unfold isOnECHom3
    exact hom3_aux 2 (FF.sq P.z * P.z * Param.b) P (by rw [LawfulFF.sq_eq, Param.b_eq]; ring)
  · rw [hom2_aux, Param.b_invxi_eq]
  · unfold isOnTwistECHom3
    exact hom3_aux (2 / F2.xi) (Param.b_invxi * Q.z * Q.z * Q.z) Q (by rw [Param.b_invxi_eq]; ring)

example : isValid1 g1 = true ∧ isValid1 ⟨1, 1, 1⟩ = false ∧ isValid1 ⟨5, 7, 0⟩ = true ∧
    isValid2 g2 = true ∧ isValid2 ⟨g2.x, g2.y, 1 + 1⟩ = false := by decide +kernel

/-! ### C37 -/

/-- **C37** doubling on both curves: the result stands for A + A. -/
theorem C37_dbl {P : J Fe} {A : E1.Point} (hP : Rep b1 P A) {Q : J F2} {B : E2.Point} (hQ : Rep b2 Q B) :
    Rep b1 (dbl P) (A + A) ∧ Rep b2 (dbl Q) (B + B) := ⟨rep_dbl good1 hP, rep_dbl good2 hQ⟩

/-- **C37** addition in G1, in every case and whatever the output array held before. -/
theorem C37_add_G1 (old : J Fe) {P Q : J Fe} {A B : E1.Point} (hP : Rep b1 P A) (hQ : Rep b1 Q B) :
    Rep b1 (add old P Q) (A + B) ∧ Rep b1 (sub old P Q) (A - B) ∧ Rep b1 (neg P) (-A) :=
  ⟨rep_add good1 old hP hQ, rep_sub good1 old hP hQ, rep_neg hP⟩

/-- **C37** addition in the twist group. -/
theorem C37_add_G2 (old : J F2) {P Q : J F2} {A B : E2.Point} (hP : Rep b2 P A) (hQ : Rep b2 Q B) :
    Rep b2 (add old P Q) (A + B) ∧ Rep b2 (sub old P Q) (A - B) ∧ Rep b2 (neg P) (-A) :=
  ⟨rep_add good2 old hP hQ, rep_sub good2 old hP hQ, rep_neg hP⟩

/-- **C37** valid operands give valid results. -/
theorem C37_valid (old : J Fe) {P Q : J Fe} (hP : isValid1 P = true) (hQ : isValid1 Q = true)
    (old' : J F2) {P' Q' : J F2} (hP' : isValid2 P' = true) (hQ' : isValid2 Q' = true) :
    isValid1 (dbl P) = true ∧ isValid1 (add old P Q) = true ∧ isValid1 (sub old P Q) = true ∧
    isValid1 (neg P) = true ∧
    isValid2 (dbl P') = true ∧ isValid2 (add old' P' Q') = true ∧ isValid2 (sub old' P' Q') = true ∧
    isValid2 (neg P') = true := by
  rw [isValid1_iff] at hP hQ
  rw [isValid2_iff] at hP' hQ'
  simp only [isValid1_iff, isValid2_iff]
  obtain ⟨A, hA⟩ := hP.rep good1
  obtain ⟨B, hB⟩ := hQ.rep good1
  obtain ⟨A', hA'⟩ := hP'.rep good2
  obtain ⟨B', hB'⟩ := hQ'.rep good2
  exact ⟨(rep_dbl good1 hA).valid good1, (rep_add good1 old hA hB).valid good1,
    (rep_sub good1 old hA hB).valid good1, (rep_neg hA).valid good1,
    (rep_dbl good2 hA').valid good2, (rep_add good2 old' hA' hB').valid good2,
    (rep_sub good2 old' hA' hB').valid good2, (rep_neg hA').valid good2⟩

example : ∃ A : E1.Point, Rep b1 g1 A ∧ A ≠ 0 := by
  obtain ⟨A, hA⟩ := ((isValid1_iff g1).1 g1_valid).rep good1
  refine ⟨A, hA, ?_⟩
  rcases hA with ⟨h, _⟩ | ⟨_, h, h2⟩
  · exact absurd h one_ne_zero
  · rw [h2]; exact WeierstrassCurve.Affine.Point.some_ne_zero h
example : (add g1 g1 (neg g1)).z = 0 ∧ add g1 g1 g1 = dbl g1 ∧ (dbl g1).z ≠ 0 ∧
    (add g2 (dbl g2) g2).z ≠ 0 ∧ eq (add g2 (dbl g2) g2) (sub g2 (dbl (dbl g2)) g2) = true := by decide +kernel

/-! ### C38 -/

/-- **C38** `ScalarMult` by a `Vuint` of any length, on both curves. -/
theorem C38_vuint {s : List ℕ} (hs : WF s) {P : J Fe} {A : E1.Point} (hP : Rep b1 P A) {Q : J F2}
    {B : E2.Point} (hQ : Rep b2 Q B) :
    Rep b1 (scalarMult P s) (val s • A) ∧ Rep b2 (scalarMult Q s) (val s • B) :=
  ⟨scalarMult_rep good1 hP hs, scalarMult_rep good2 hQ hs⟩

theorem int_aux {K : Type} [Field K] [DecidableEq K] [FF K] [LawfulFF K] {b : K} (hb : Good b) {P : J K}
    {A : (curve b).Point} (hP : Rep b P A) {W : ℕ} (hW : 0 < W) (m : ℕ) (h0 : 0 < m) (hm : m < 2 ^ W) :
    Rep b (smMain W P [m]) (m • A) :=
  rep_smMain hb hW hP m [] h0 hm (by simp)

/-- **C38** non-negative `int` and `size_t` scalars. -/
theorem C38_builtin {m : ℕ} {P : J Fe} {A : E1.Point} (hP : Rep b1 P A) {Q : J F2} {B : E2.Point}
    (hQ : Rep b2 Q B) :
    (m < 2 ^ 31 → Rep b1 (scalarMultInt P m) (m • A) ∧ Rep b2 (scalarMultInt Q m) (m • B)) ∧
    (m < 2 ^ 64 → Rep b1 (scalarMultSize P m) (m • A) ∧ Rep b2 (scalarMultSize Q m) (m • B)) := by
  unfold scalarMultInt scalarMultSize
  rcases Nat.eq_zero_or_pos m with h | h
  · subst h
    refine ⟨fun _ => ?_, fun _ => ?_⟩ <;> simp only [Nat.cast_zero, if_true, zero_nsmul] <;>
      exact ⟨rep_clear, rep_clear⟩
  · refine ⟨fun hm => ?_, fun hm => ?_⟩
    · have e : ((m : ℤ) % 2 ^ 32).toNat = m := by omega
      rw [if_neg (by omega), if_neg (by omega), e]
      exact ⟨int_aux good1 hP (by norm_num) m h (by omega), int_aux good2 hQ (by norm_num) m h (by omega)⟩
    · rw [if_neg (by omega), if_neg (by omega)]
      exact ⟨int_aux good1 hP (by norm_num) m h hm, int_aux good2 hQ (by norm_num) m h hm⟩

/-- **C38** a negative `int` m is used as the 32-bit word 2^32 + m, so the result is m·P only if 2^32·P = 0. -/
theorem C38_negative_int {m : ℤ} (h1 : -2 ^ 31 ≤ m) (h2 : m < 0) {P : J Fe} {A : E1.Point} (hP : Rep b1 P A) :
    Rep b1 (scalarMultInt P m) ((2 ^ 32 + m) • A) := by
  unfold scalarMultInt
  rw [if_neg (by omega)]
  have e : m % 2 ^ 32 = 2 ^ 32 + m := by omega
  rw [e]
  have := int_aux good1 hP (W := 32) (by norm_num) (2 ^ 32 + m).toNat (by omega) (by omega)
  rw [← natCast_zsmul] at this
  rwa [Int.toNat_of_nonneg (by omega)] at this

/-- **C38** the deviation is real: -1 times the documented base point is not its negative. -/
theorem C38_negative_int_wrong : eq (scalarMultInt g1 (-1)) (neg g1) = false := by decide +kernel

example : WF [3, 1] ∧ eq (scalarMult g1 [3, 1]) g1 = false ∧
    eq (scalarMult g2 [5]) (add g2 g2 (dbl (dbl g2))) = true ∧
    eq (scalarMultInt g1 5) (add g1 g1 (dbl (dbl g1))) = true ∧ (scalarMult g1 [0]).z = 0 := by decide +kernel

/-! ### C39 -/

/-- **C39** `EcT::normalize` and `NormalizeJac` keep the point and return Z = 1 or infinity. -/
theorem C39_normalize {P : J Fe} {A : E1.Point} (hP : Rep b1 P A) {Q : J F2} {B : E2.Point} (hQ : Rep b2 Q B) :
    (Rep b1 (normalize P) A ∧ ((normalize P).z = 1 ∨ (normalize P).z = 0)) ∧
    (Rep b1 (normalizeJac P) A ∧ ((normalizeJac P).z = 1 ∨ normalizeJac P = ⟨0, 0, 0⟩)) ∧
    (Rep b2 (normalize Q) B ∧ ((normalize Q).z = 1 ∨ (normalize Q).z = 0)) ∧
    (Rep b2 (normalizeJac Q) B ∧ ((normalizeJac Q).z = 1 ∨ normalizeJac Q = ⟨0, 0, 0⟩)) :=
  ⟨normalize_spec hP, normalizeJac_spec hP, normalize_spec hQ, normalizeJac_spec hQ⟩

/-- **C39** `operator==` decides equality of the points represented. -/
theorem C39_eq {P P' : J Fe} {A A' : E1.Point} (hP : Rep b1 P A) (hP' : Rep b1 P' A')
    {Q Q' : J F2} {B B' : E2.Point} (hQ : Rep b2 Q B) (hQ' : Rep b2 Q' B') :
    (eq P P' = true ↔ A = A') ∧ (eq Q Q' = true ↔ B = B') := ⟨eq_spec hP hP', eq_spec hQ hQ'⟩

/-- **C39** scaling a representative does not change the point. -/
theorem C39_scale {K : Type} [Field K] {b : K} {P : J K} {A : (curve b).Point} (hP : Rep b P A) {c : K}
    (hc : c ≠ 0) : Rep b ⟨c ^ 2 * P.x, c ^ 3 * P.y, c * P.z⟩ A := by
  rcases hP.elim with ⟨hz, rfl⟩ | ⟨x, y, hn, hz, hx, hy, rfl⟩
  · exact .inl ⟨by simp [hz], rfl⟩
  · refine Rep.mk hn (mul_ne_zero hc hz) ?_ ?_
    · dsimp only; rw [hx]; ring
    · dsimp only; rw [hy]; ring

/-- **C39** a valid triple is equal to each of its scalings. -/
theorem C39_eq_scale {P : J Fe} (hP : isValid1 P = true) {c : Fe} (hc : c ≠ 0) {Q : J F2}
    (hQ : isValid2 Q = true) {d : F2} (hd : d ≠ 0) :
    eq P ⟨c ^ 2 * P.x, c ^ 3 * P.y, c * P.z⟩ = true ∧ eq Q ⟨d ^ 2 * Q.x, d ^ 3 * Q.y, d * Q.z⟩ = true := by
  obtain ⟨A, hA⟩ := ((isValid1_iff P).1 hP).rep good1
  obtain ⟨B, hB⟩ := ((isValid2_iff Q).1 hQ).rep good2
  exact ⟨(eq_spec hA (C39_scale hA hc)).2 rfl, (eq_spec hB (C39_scale hB hd)).2 rfl⟩

example : eq g1 ⟨feOf 4 * g1.x, feOf 8 * g1.y, feOf 2⟩ = true ∧ eq g1 (neg g1) = false ∧
    (normalize (dbl g1)).z = 1 ∧ (dbl g1).z ≠ 1 ∧ eq g1 ⟨7, 9, 0⟩ = false ∧ eq ⟨1, 2, 0⟩ (⟨7, 9, 0⟩ : J Fe) = true := by
  decide +kernel

/-! ### C40 -/

/-- **C40** verified `set` accepts exactly the coordinates on the curve and stores them. -/
theorem C40_set (x y z : Fe) (x' y' z' : F2) :
    (set2 isValid1 x y true = if y ^ 2 = x ^ 3 + 2 then some ⟨x, y, 1⟩ else none) ∧
    (set3 isValid1 x y z true = if z = 0 ∨ y ^ 2 = x ^ 3 + 2 * z ^ 6 then some ⟨x, y, z⟩ else none) ∧
    (set2 isValid2 x' y' true = if y' ^ 2 = x' ^ 3 + 2 / (⟨1, 1⟩ : F2) then some ⟨x', y', 1⟩ else none) ∧
    (set3 isValid2 x' y' z' true =
      if z' = 0 ∨ y' ^ 2 = x' ^ 3 + 2 / (⟨1, 1⟩ : F2) * z' ^ 6 then some ⟨x', y', z'⟩ else none) := by
  have hx : (⟨1, 1⟩ : F2) = F2.xi := rfl
  rw [hx]
  have aux : ∀ {K : Type} (v : J K → Bool) (P : J K) (c : Prop) [Decidable c], (v P = true ↔ c) →
      (if (true && !v P) = true then none else some P) = if c then some P else none := by
    intro K v P c _ h
    by_cases hc : c
    · rw [if_pos hc, h.2 hc]; rfl
    · have : v P = false := by rw [← Bool.not_eq_true, h]; exact hc
      rw [if_neg hc, this]; rfl
  refine ⟨aux isValid1 _ _ ?_, aux isValid1 _ _ (isValid1_iff _), aux isValid2 _ _ ?_,
    aux isValid2 _ _ (isValid2_iff _)⟩
  · rw [isValid1_iff]; unfold Valid; simp
  · rw [isValid2_iff]; unfold Valid; simp

/-- **C40** histories: after any sequence of calls that throws nothing and writes every object before
reading it, every written object is valid (G1). -/
theorem C40_history_G1 (ops : List (Op Fe)) (m m' : Mem Fe) (hs : Op.Scoped [] ops)
    (hr : Op.run isValid1 m ops = some m') (k : ℕ) (hk : k ∈ ops.map Op.out) : isValid1 (m' k) = true :=
  (isValid1_iff _).2 (run_valid good1 isValid1_iff ops [] m m' (by simp) hs hr k (.inr hk))

/-- **C40** histories in G2. -/
theorem C40_history_G2 (ops : List (Op F2)) (m m' : Mem F2) (hs : Op.Scoped [] ops)
    (hr : Op.run isValid2 m ops = some m') (k : ℕ) (hk : k ∈ ops.map Op.out) : isValid2 (m' k) = true :=
  (isValid2_iff _).2 (run_valid good2 isValid2_iff ops [] m m' (by simp) hs hr k (.inr hk))

/-- **C40** finding: a caught exception leaves the rejected coordinates in the object, even if it held a valid
point before, so validity is an invariant only of histories in which `set` did not throw. -/
theorem C40_throw_keeps_rejected (P : J Fe) (x y : Fe) :
    (set2Obj isValid1 P x y true).1 = ⟨x, y, 1⟩ ∧
    ((set2Obj isValid1 P x y true).2 = true ↔ ¬ y ^ 2 = x ^ 3 + 2) ∧
    ((set2Obj isValid1 P x y true).2 = true → isValid1 (set2Obj isValid1 P x y true).1 = false) := by
  refine ⟨rfl, ?_, fun h => by simpa [set2Obj] using h⟩
  have : isValid1 (⟨x, y, 1⟩ : J Fe) = true ↔ y ^ 2 = x ^ 3 + 2 := by
    rw [isValid1_iff]; unfold Valid; simp
  rw [← this]
  simp [set2Obj]

example : (set2Obj isValid1 g1 1 1 true).2 = true ∧ isValid1 (set2Obj isValid1 g1 1 1 true).1 = false := by
  decide +kernel
example : set2 isValid1 1 1 true = none ∧ set2 isValid1 (-1) 1 true = some g1 ∧
    set3 isValid1 1 1 1 false = some ⟨1, 1, 1⟩ := by decide +kernel
example : Op.Scoped [] [Op.set2 0 (-1) 1, .dbl 1 0, .add 1 0 1, .mul 2 1 [7], .sub 0 2 0, (.normalize 0 : Op Fe)] ∧
    (Op.run isValid1 (fun _ => clear) [Op.set2 0 (-1) 1, .dbl 1 0, .add 1 0 1, .mul 2 1 [7], .sub 0 2 0,
      (.normalize 0 : Op Fe)]).isSome = true :=
  ⟨by simp [Op.Scoped, Op.ins, Op.Wf, Op.out]; decide, by decide +kernel⟩

/-! ### C42 -/

/-- **C42** `ECDouble`, `ECAdd`, `NormalizeJac`, `neg` for arbitrary, possibly equal, addresses: the
statements executed in source order leave at `o` the result computed from the operands' values at entry,
and no other object changes. -/
theorem C42_alias {K : Type} [Field K] [FF K] (m : Mem K) (o a b : ℕ) :
    (dblAt m o a = fun k => if k = o then dbl (m a) else m k) ∧
    (addAt m o a b = fun k => if k = o then add (m o) (m a) (m b) else m k) ∧
    (normalizeJacAt m o a = fun k => if k = o then normalizeJac (m a) else m k) ∧
    (negAt m o a = fun k => if k = o then neg (m a) else m k) :=
  ⟨dblAt_eq m o a, addAt_eq m o a b, normalizeJacAt_eq m o a, negAt_eq m o a⟩

/-- **C42** `sub` and `ScalarMult`, whose local triple lives at a fresh address `t`. -/
theorem C42_local {K : Type} [Field K] [FF K] (m : Mem K) (t o a b : ℕ) (s : List ℕ)
    (h1 : t ≠ o) (h2 : t ≠ a) :
    (subAt m t o a b o = sub (m o) (m a) (m b)) ∧ (∀ k, k ≠ o → k ≠ t → subAt m t o a b k = m k) ∧
    (scalarMultAt m t o a s o = scalarMult (m a) s) ∧ (∀ k, k ≠ o → k ≠ t → scalarMultAt m t o a s k = m k) := by
  obtain ⟨m', e, hm⟩ := scalarMultAt_eq m t o a h1 s
  rw [subAt_eq m t o a b h1 h2, e]
  refine ⟨put_same _ _ _, fun k hk hk' => ?_, put_same _ _ _, fun k hk hk' => ?_⟩
  · rw [put_other _ hk, put_other _ hk']
  · rw [put_other _ hk, hm k hk']

/-- **C42** the in-place group law: with `out` equal to either operand the object written stands for the sum. -/
theorem C42_group (m : Mem Fe) (o a b : ℕ) {A B : E1.Point} (hA : Rep b1 (m a) A) (hB : Rep b1 (m b) B) :
    Rep b1 (addAt m o a b o) (A + B) ∧ Rep b1 (dblAt m o a o) (A + A) := by
  rw [addAt_eq, dblAt_eq, put_same, put_same]
  exact ⟨rep_add good1 _ hA hB, rep_dbl good1 hA⟩

/-- **C42** the twist Frobenius maps. -/
theorem C42_frob (m : Mem2) (o i : ℕ) :
    (frobTwist1At m o i = fun k => if k = o then frobTwist1 (m i).1 (m i).2 else m k) ∧
    (frobTwist2At m o i = fun k => if k = o then frobTwist2 (m i).1 (m i).2 else m k) ∧
    (frobTwist8At m o i = fun k => if k = o then frobTwist8 (m i).1 (m i).2 else m k) :=
  ⟨frobTwist1At_eq m o i, frobTwist2At_eq m o i, frobTwist8At_eq m o i⟩

example : (addAt (fun k => if k = 0 then g1 else dbl g1) 0 0 1 0) = add g1 g1 (dbl g1) ∧
    addAt (fun k => if k = 0 then g1 else dbl g1) 0 0 0 0 = dbl g1 ∧
    scalarMultAt (fun _ => g1) 5 0 0 [3] 0 = scalarMult g1 [3] := by decide +kernel

/-! ### C33, twist maps -/

/-- **C33** `FrobEndOnTwist_1` and `_2`: under the untwisting map (x, y) ↦ (x w², y w³) into E(Fp12) they are
the p- and p²-power Frobenius; `_8` is the negative of `_2`. -/
theorem C33_twist (x y : F2) :
    (F12.incl (frobTwist1 x y).1 * F12.w ^ 2 = (F12.incl x * F12.w ^ 2) ^ p ∧
     F12.incl (frobTwist1 x y).2 * F12.w ^ 3 = (F12.incl y * F12.w ^ 3) ^ p) ∧
    (F12.incl (frobTwist2 x y).1 * F12.w ^ 2 = (F12.incl x * F12.w ^ 2) ^ (p ^ 2) ∧
     F12.incl (frobTwist2 x y).2 * F12.w ^ 3 = (F12.incl y * F12.w ^ 3) ^ (p ^ 2)) ∧
    frobTwist8 x y = ((frobTwist2 x y).1, -(frobTwist2 x y).2) := by
  refine ⟨frobTwist1_untwist x y, frobTwist2_untwist x y, ?_⟩
  unfold frobTwist8 frobTwist2
  rw [neg_neg]

example : isValid2 ⟨(frobTwist1 g2.x g2.y).1, (frobTwist1 g2.x g2.y).2, 1⟩ = true ∧
    frobTwist1 g2.x g2.y ≠ (g2.x, g2.y) ∧ frobTwist2 g2.x g2.y ≠ (g2.x, g2.y) := by decide +kernel

end Verif
