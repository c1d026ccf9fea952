import Verif.Ec.Model
import Mathlib.AlgebraicGeometry.EllipticCurve.Affine.Point
import Mathlib.Tactic.FieldSimp
import Mathlib.Tactic.LinearCombination

/-!
The Jacobian routines against Mathlib's group of points of `y² = x³ + b`.
-/

namespace Verif

/-- The field functions of the code agree with the field. -/
class LawfulFF (K : Type) [Field K] [FF K] : Prop where
  sq_eq : ∀ x : K, FF.sq x = x * x
  isZero_iff : ∀ x : K, FF.isZero x = true ↔ x = 0
  eqb_iff : ∀ x y : K, FF.eqb x y = true ↔ x = y

instance : LawfulFF Fe where
  sq_eq _ := rfl
  isZero_iff x := by
    show Fp.isZero x.n = true ↔ _
    rw [Fp.isZero_iff (Fp.lt_W x.lt), Fe.eq_zero_iff]
  eqb_iff x y := by
    show Fp.eq x.n y.n = true ↔ _
    rw [Fp.eq_iff (Fp.lt_W x.lt) (Fp.lt_W y.lt)]
    exact ⟨Fe.ext, fun h => by rw [h]⟩

instance : LawfulFF F2 where
  sq_eq := F2.square_eq
  isZero_iff := F2.isZero_iff
  eqb_iff := F2.eq_iff

/-- The curve y² = x³ + b. -/
def curve {K : Type} [Field K] (b : K) : WeierstrassCurve.Affine K :=
  { a₁ := 0, a₂ := 0, a₃ := 0, a₄ := 0, a₆ := b }

namespace Ec
open LawfulFF WeierstrassCurve.Affine

variable {K : Type} [Field K]

/-- Jacobian validity, independent of the code. -/
def Valid (b : K) (P : J K) : Prop := P.z = 0 ∨ P.y ^ 2 = P.x ^ 3 + b * P.z ^ 6

/-- The field supports short Weierstrass arithmetic for `b`. -/
structure Good (b : K) : Prop where
  two : (2 : K) ≠ 0
  three : (3 : K) ≠ 0
  b : b ≠ 0

theorem curve_equation (b x y : K) : (curve b).Equation x y ↔ y ^ 2 = x ^ 3 + b := by
  rw [equation_iff]; simp [curve]

theorem curve_nonsingular {b : K} (hb : Good b) (x y : K) :
    (curve b).Nonsingular x y ↔ y ^ 2 = x ^ 3 + b := by
  rw [nonsingular_iff, curve_equation]
  constructor
  · exact fun h => h.1
  · intro h
    refine ⟨h, ?_⟩
    simp only [curve]
    by_contra hc
    push Not at hc
    obtain ⟨h1, h2⟩ := hc
    have hy : y = 0 := by
      have : 2 * y = 0 := by linear_combination h2
      exact (mul_eq_zero.1 this).resolve_left hb.two
    have hx : x = 0 := by
      have : 3 * x ^ 2 = 0 := by linear_combination -h1
      exact pow_eq_zero_iff two_ne_zero |>.1 ((mul_eq_zero.1 this).resolve_left hb.three)
    rw [hx, hy] at h
    exact hb.b (by linear_combination -h)

/-- `A` is the group element the triple `P` stands for. -/
def Rep (b : K) (P : J K) (A : (curve b).Point) : Prop :=
  (P.z = 0 ∧ A = 0) ∨
  (P.z ≠ 0 ∧ ∃ h : (curve b).Nonsingular (P.x / P.z ^ 2) (P.y / P.z ^ 3), A = .some _ _ h)

theorem Rep.unique {b : K} {P : J K} {A B : (curve b).Point} (h : Rep b P A) (h' : Rep b P B) : A = B := by
  rcases h with ⟨h1, h2⟩ | ⟨h1, hA, h2⟩ <;> rcases h' with ⟨h3, h4⟩ | ⟨h3, hB, h4⟩
  · rw [h2, h4]
  · exact absurd h1 h3
  · exact absurd h3 h1
  · rw [h2, h4]

theorem Valid.rep {b : K} (hb : Good b) {P : J K} (h : Valid b P) : ∃ A, Rep b P A := by
  by_cases hz : P.z = 0
  · exact ⟨0, .inl ⟨hz, rfl⟩⟩
  · have h1 := h.resolve_left hz
    have h2 : (curve b).Nonsingular (P.x / P.z ^ 2) (P.y / P.z ^ 3) := by
      rw [curve_nonsingular hb]; field_simp; linear_combination h1
    exact ⟨_, .inr ⟨hz, h2, rfl⟩⟩

theorem Rep.valid {b : K} (hb : Good b) {P : J K} {A} (h : Rep b P A) : Valid b P := by
  rcases h with ⟨h1, _⟩ | ⟨h1, hA, _⟩
  · exact .inl h1
  · right
    rw [curve_nonsingular hb] at hA
    field_simp at hA
    linear_combination hA

/-- a representative from coordinates -/
theorem Rep.mk {b : K} {P : J K} {x y : K} (h : (curve b).Nonsingular x y) (hz : P.z ≠ 0)
    (hx : P.x = x * P.z ^ 2) (hy : P.y = y * P.z ^ 3) : Rep b P (.some x y h) := by
  have h1 : P.x / P.z ^ 2 = x := by rw [hx]; field_simp
  have h2 : P.y / P.z ^ 3 = y := by rw [hy]; field_simp
  refine .inr ⟨hz, by rw [h1, h2]; exact h, ?_⟩
  congr 1
  · exact h1.symm
  · exact h2.symm

theorem Rep.elim {b : K} {P : J K} {A : (curve b).Point} (h : Rep b P A) :
    (P.z = 0 ∧ A = 0) ∨ ∃ x y, ∃ hn : (curve b).Nonsingular x y,
      P.z ≠ 0 ∧ P.x = x * P.z ^ 2 ∧ P.y = y * P.z ^ 3 ∧ A = .some x y hn := by
  rcases h with h | ⟨h1, hA, h2⟩
  · exact .inl h
  · exact .inr ⟨_, _, hA, h1, by field_simp, by field_simp, h2⟩

variable [DecidableEq K]

theorem add_self_aux {b : K} (hb : Good b) {x y : K} (h : (curve b).Nonsingular x y) (hy : y ≠ 0) :
    ∃ h' : (curve b).Nonsingular ((3 * x ^ 2 / (2 * y)) ^ 2 - 2 * x)
      (-(3 * x ^ 2 / (2 * y) * ((3 * x ^ 2 / (2 * y)) ^ 2 - 3 * x) + y)),
    (Point.some x y h + Point.some x y h : (curve b).Point) = .some _ _ h' := by
  have h2 := hb.two
  have hne : y ≠ (curve b).negY x y := by
    intro he
    simp only [curve, negY] at he
    have : 2 * y = 0 := by linear_combination he
    rcases mul_eq_zero.1 this with h3 | h3
    · exact h2 h3
    · exact hy h3
  have hs : (curve b).slope x x y y = 3 * x ^ 2 / (2 * y) := by
    rw [slope_of_Y_ne rfl hne]
    simp only [curve, negY]
    congr 1 <;> ring
  have hX : (curve b).addX x x ((curve b).slope x x y y) = (3 * x ^ 2 / (2 * y)) ^ 2 - 2 * x := by
    rw [hs]; simp only [curve, addX]; ring
  have hY : (curve b).addY x x y ((curve b).slope x x y y)
      = -(3 * x ^ 2 / (2 * y) * ((3 * x ^ 2 / (2 * y)) ^ 2 - 3 * x) + y) := by
    rw [hs]; simp only [curve, addY, negAddY, negY, addX]; ring
  rw [Point.add_self_of_Y_ne hne]
  have hn := nonsingular_add h h (fun hxy => hne hxy.right)
  rw [hX, hY] at hn
  refine ⟨hn, ?_⟩
  congr 1

theorem add_self_zero {b : K} {x y : K} (h : (curve b).Nonsingular x y) (hy : y = 0) :
    (Point.some x y h + Point.some x y h : (curve b).Point) = 0 :=
  Point.add_self_of_Y_eq (by simp [curve, negY, hy])

theorem add_aux {b : K} {x₁ y₁ x₂ y₂ : K} (h₁ : (curve b).Nonsingular x₁ y₁)
    (h₂ : (curve b).Nonsingular x₂ y₂) (hx : x₁ ≠ x₂) :
    ∃ h' : (curve b).Nonsingular (((y₁ - y₂) / (x₁ - x₂)) ^ 2 - x₁ - x₂)
      (-((y₁ - y₂) / (x₁ - x₂) * (((y₁ - y₂) / (x₁ - x₂)) ^ 2 - x₁ - x₂ - x₁) + y₁)),
    (Point.some x₁ y₁ h₁ + Point.some x₂ y₂ h₂ : (curve b).Point) = .some _ _ h' := by
  have hs : (curve b).slope x₁ x₂ y₁ y₂ = (y₁ - y₂) / (x₁ - x₂) := slope_of_X_ne hx
  have hX : (curve b).addX x₁ x₂ ((curve b).slope x₁ x₂ y₁ y₂)
      = ((y₁ - y₂) / (x₁ - x₂)) ^ 2 - x₁ - x₂ := by
    rw [hs]; simp only [curve, addX]; ring
  have hY : (curve b).addY x₁ x₂ y₁ ((curve b).slope x₁ x₂ y₁ y₂)
      = -((y₁ - y₂) / (x₁ - x₂) * (((y₁ - y₂) / (x₁ - x₂)) ^ 2 - x₁ - x₂ - x₁) + y₁) := by
    rw [hs]; simp only [curve, addY, negAddY, negY, addX]; ring
  rw [Point.add_of_X_ne hx]
  have hn := nonsingular_add h₁ h₂ (fun hxy => hx hxy.left)
  rw [hX, hY] at hn
  refine ⟨hn, ?_⟩
  congr 1

variable [FF K] [LawfulFF K]

omit [DecidableEq K] in
theorem isZero_false {x : K} : FF.isZero x = false ↔ x ≠ 0 := by
  rw [← Bool.not_eq_true, Ne, ← isZero_iff (K := K)]
omit [DecidableEq K] in
theorem eqb_false {x y : K} : FF.eqb x y = false ↔ x ≠ y := by
  rw [← Bool.not_eq_true, Ne, eqb_iff (K := K)]

omit [DecidableEq K] in
theorem isOnJac3_iff (b : K) (f : K → K) (hf : ∀ z, f z = b * z) (P : J K) :
    isOnJac3 f P = true ↔ Valid b P := by
  unfold isOnJac3 Valid
  by_cases hz : P.z = 0
  · rw [if_pos ((eqb_iff _ _).2 hz)]; simp [hz]
  · rw [if_neg (by rw [eqb_iff]; exact hz)]
    dsimp only
    rw [eqb_iff, sq_eq, sq_eq, hf]
    constructor
    · intro h; right; linear_combination h
    · rintro (h | h)
      · exact absurd h hz
      · linear_combination h

omit [DecidableEq K] in
theorem dbl_eq (P : J K) : dbl P =
    ⟨(3 * P.x ^ 2) ^ 2 - 8 * P.x * P.y ^ 2,
     3 * P.x ^ 2 * (4 * P.x * P.y ^ 2 - ((3 * P.x ^ 2) ^ 2 - 8 * P.x * P.y ^ 2)) - 8 * P.y ^ 4,
     2 * P.y * P.z⟩ := by
  unfold dbl
  simp only [sq_eq, J.mk.injEq]
  refine ⟨by ring, by ring, by ring⟩

theorem rep_dbl {b : K} (hb : Good b) {P : J K} {A : (curve b).Point} (h : Rep b P A) :
    Rep b (dbl P) (A + A) := by
  have h2 := hb.two
  rw [dbl_eq]
  rcases h.elim with ⟨hz, rfl⟩ | ⟨x, y, hn, hz, hx, hy, rfl⟩
  · left; simp [hz]
  · by_cases hy0 : y = 0
    · left
      refine ⟨?_, add_self_zero hn hy0⟩
      simp [hy, hy0]
    · obtain ⟨h', he⟩ := add_self_aux hb hn hy0
      rw [he]
      refine Rep.mk h' ?_ ?_ ?_
      · dsimp only; rw [hy]; simp [h2, hy0, hz]
      · dsimp only; rw [hx, hy]; field_simp; ring
      · dsimp only; rw [hx, hy]; field_simp; ring

omit [DecidableEq K] [FF K] [LawfulFF K] in
theorem rep_neg {b : K} {P : J K} {A : (curve b).Point} (h : Rep b P A) : Rep b (neg P) (-A) := by
  rcases h.elim with ⟨hz, rfl⟩ | ⟨x, y, hn, hz, hx, hy, rfl⟩
  · left; exact ⟨hz, rfl⟩
  · rw [Point.neg_some]
    refine Rep.mk _ hz hx ?_
    unfold neg
    dsimp only
    rw [hy]; simp only [curve, negY]; ring

omit [DecidableEq K] in
theorem add_zero_left (old : J K) {P Q : J K} (h : P.z = 0) : add old P Q = Q := by
  unfold add; rw [if_pos ((isZero_iff _).2 h)]
omit [DecidableEq K] in
theorem add_zero_right (old : J K) {P Q : J K} (h : P.z ≠ 0) (h' : Q.z = 0) : add old P Q = P := by
  unfold add; rw [if_neg (by rw [isZero_iff]; exact h), if_pos ((isZero_iff _).2 h')]

theorem add_eq (old : J K) {P Q : J K} (h : P.z ≠ 0) (h' : Q.z ≠ 0) : add old P Q =
    if Q.x * P.z ^ 2 - P.x * Q.z ^ 2 = 0 then
      if Q.y * P.z ^ 3 - P.y * Q.z ^ 3 = 0 then dbl P else ⟨old.x, old.y, 0⟩
    else
      let H := Q.x * P.z ^ 2 - P.x * Q.z ^ 2
      let S := Q.y * P.z ^ 3 - P.y * Q.z ^ 3
      let X := 4 * S ^ 2 - 4 * H ^ 3 - 8 * (P.x * Q.z ^ 2) * H ^ 2
      ⟨X, 2 * S * (4 * (P.x * Q.z ^ 2) * H ^ 2 - X) - 8 * (P.y * Q.z ^ 3) * H ^ 3,
        2 * P.z * Q.z * H⟩ := by
  unfold add
  rw [if_neg (by rw [isZero_iff]; exact h), if_neg (by rw [isZero_iff]; exact h')]
  simp only [sq_eq]
  have e1 : Q.x * (P.z * P.z) - P.x * (Q.z * Q.z) = Q.x * P.z ^ 2 - P.x * Q.z ^ 2 := by ring
  have e2 : Q.y * (P.z * (P.z * P.z)) - P.y * (Q.z * (Q.z * Q.z)) = Q.y * P.z ^ 3 - P.y * Q.z ^ 3 := by ring
  rw [e1, e2]
  by_cases hH : Q.x * P.z ^ 2 - P.x * Q.z ^ 2 = 0
  · rw [if_pos ((isZero_iff _).2 hH), if_pos hH]
    by_cases hS : Q.y * P.z ^ 3 - P.y * Q.z ^ 3 = 0
    · rw [if_pos ((isZero_iff _).2 hS), if_pos hS]
    · rw [if_neg (by rw [isZero_iff]; exact hS), if_neg hS]
  · rw [if_neg (by rw [isZero_iff]; exact hH), if_neg hH]
    simp only [J.mk.injEq]
    refine ⟨by ring, by ring, by ring⟩

theorem rep_add {b : K} (hb : Good b) (old : J K) {P Q : J K} {A B : (curve b).Point}
    (hP : Rep b P A) (hQ : Rep b Q B) : Rep b (add old P Q) (A + B) := by
  have h2 := hb.two
  rcases hP.elim with ⟨hz, rfl⟩ | ⟨x, y, hn, hz, hx, hy, hA⟩
  · rw [add_zero_left old hz, zero_add]; exact hQ
  rcases hQ.elim with ⟨hz', rfl⟩ | ⟨x', y', hn', hz', hx', hy', hB⟩
  · rw [add_zero_right old hz hz', add_zero]; exact hP
  rw [add_eq old hz hz']
  have eH : Q.x * P.z ^ 2 - P.x * Q.z ^ 2 = (x' - x) * (P.z * Q.z) ^ 2 := by rw [hx, hx']; ring
  have eS : Q.y * P.z ^ 3 - P.y * Q.z ^ 3 = (y' - y) * (P.z * Q.z) ^ 3 := by rw [hy, hy']; ring
  have hzz : P.z * Q.z ≠ 0 := mul_ne_zero hz hz'
  rw [eH, eS]
  by_cases hxx : x = x'
  · rw [if_pos (by rw [hxx, sub_self, zero_mul])]
    by_cases hyy : y = y'
    · rw [if_pos (by rw [hyy, sub_self, zero_mul])]
      have : A = B := by
        rw [hA, hB]; subst hxx; subst hyy; rfl
      rw [← this]
      exact rep_dbl hb hP
    · rw [if_neg (by
        intro h
        rcases mul_eq_zero.1 h with h | h
        · exact hyy (by linear_combination -h)
        · exact pow_ne_zero 3 hzz h)]
      left
      refine ⟨rfl, ?_⟩
      rw [hA, hB]
      refine Point.add_of_Y_eq hxx ?_
      exact (Y_eq_of_X_eq hn.1 hn'.1 hxx).resolve_left hyy
  · have hd : x - x' ≠ 0 := sub_ne_zero.2 hxx
    rw [if_neg (by
        intro h
        rcases mul_eq_zero.1 h with h | h
        · exact hxx (by linear_combination -h)
        · exact pow_ne_zero 2 hzz h)]
    obtain ⟨h', he⟩ := add_aux hn hn' hxx
    rw [hA, hB, he]
    dsimp only
    have hd' : x' - x ≠ 0 := fun h => hd (by linear_combination -h)
    refine Rep.mk h' ?_ ?_ ?_
    · dsimp only
      exact mul_ne_zero (by rw [mul_assoc]; exact mul_ne_zero h2 hzz) (mul_ne_zero hd' (pow_ne_zero 2 hzz))
    · dsimp only; rw [hx]; field_simp; ring
    · dsimp only; rw [hx, hy]; field_simp; ring

theorem rep_sub {b : K} (hb : Good b) (old : J K) {P Q : J K} {A B : (curve b).Point}
    (hP : Rep b P A) (hQ : Rep b Q B) : Rep b (sub old P Q) (A - B) := by
  rw [sub_eq_add_neg]; exact rep_add hb old hP (rep_neg hQ)

/-! ### Scalar multiplication -/

theorem two_mul_mod {W v : ℕ} (hW : 0 < W) (hv : v < 2 ^ W) :
    v * 2 = v * 2 % 2 ^ W + (if v.testBit (W - 1) then 2 ^ W else 0) := by
  obtain ⟨w, rfl⟩ : ∃ w, W = w + 1 := ⟨W - 1, by omega⟩
  rw [Nat.add_sub_cancel, Nat.testBit_eq_decide_div_mod_eq]
  have hp : 2 ^ (w + 1) = 2 * 2 ^ w := by rw [pow_succ]; ring
  rw [hp] at hv ⊢
  have h0 : 0 < 2 ^ w := by positivity
  generalize 2 ^ w = M at hv h0 ⊢
  by_cases h : v < M
  · rw [Nat.div_eq_of_lt h, Nat.mod_eq_of_lt (by omega)]; simp
  · have e : v / M = 1 := by
      rw [Nat.div_eq_iff h0]; omega
    rw [e]
    have e2 : v * 2 % (2 * M) = v * 2 - 2 * M := by
      rw [Nat.mod_eq_sub_mod (by omega), Nat.mod_eq_of_lt (by omega)]
    rw [e2]; simp; omega

theorem rep_smLoop {b : K} (hb : Good b) {W : ℕ} (hW : 0 < W) {inp : J K} {A : (curve b).Point}
    (hi : Rep b inp A) : ∀ (n v : ℕ) (out : J K) (m : ℕ), n ≤ W → v < 2 ^ W → Rep b out (m • A) →
      Rep b (smLoop W inp n v out) ((m * 2 ^ n + v / 2 ^ (W - n)) • A) := by
  intro n
  induction n with
  | zero =>
    intro v out m _ hv ho
    simp only [smLoop, pow_zero, mul_one, Nat.sub_zero, Nat.div_eq_of_lt hv, add_zero]
    exact ho
  | succ n ih =>
    intro v out m hn hv ho
    unfold smLoop
    dsimp only
    have hd : Rep b (dbl out) ((2 * m) • A) := by
      have := rep_dbl hb ho
      rwa [← two_nsmul, ← mul_nsmul'] at this
    have ht := two_mul_mod hW hv
    have hlt : v * 2 % 2 ^ W < 2 ^ W := Nat.mod_lt _ (by positivity)
    have key : v / 2 ^ (W - (n + 1)) = (if v.testBit (W - 1) then 1 else 0) * 2 ^ n
        + v * 2 % 2 ^ W / 2 ^ (W - n) := by
      have e1 : 2 ^ (W - n) = 2 * 2 ^ (W - (n + 1)) := by
        rw [← pow_succ']; congr 1; omega
      have e2 : v / 2 ^ (W - (n + 1)) = v * 2 / 2 ^ (W - n) := by
        rw [e1, mul_comm v 2, Nat.mul_div_mul_left _ _ (by norm_num)]
      have e3 : 2 ^ W = 2 ^ n * 2 ^ (W - n) := by rw [← pow_add]; congr 1; omega
      rw [e2]
      conv_lhs => rw [ht]
      split
      · rw [one_mul]
        conv_lhs => rw [show (2 ^ W : ℕ) = 2 ^ n * 2 ^ (W - n) from e3]
        rw [Nat.add_mul_div_right _ _ (by positivity), ← e3]; ring
      · rw [zero_mul, zero_add, add_zero]
    rw [key]
    split
    · have ha : Rep b (add (dbl out) (dbl out) inp) ((2 * m + 1) • A) := by
        have := rep_add hb (dbl out) hd hi
        rwa [← succ_nsmul] at this
      have := ih _ _ _ (by omega) hlt ha
      convert this using 2
      ring
    · have := ih _ _ _ (by omega) hlt hd
      convert this using 2
      ring

theorem rep_smWords {b : K} (hb : Good b) {W : ℕ} (hW : 0 < W) {inp : J K} {A : (curve b).Point}
    (hi : Rep b inp A) : ∀ (vs : List ℕ) (out : J K) (m : ℕ), (∀ v ∈ vs, v < 2 ^ W) →
      Rep b out (m • A) →
      Rep b (smWords W inp vs out) (vs.foldl (fun acc v => acc * 2 ^ W + v) m • A) := by
  intro vs
  induction vs with
  | nil => intro out m _ ho; exact ho
  | cons v vs ih =>
    intro out m hv ho
    unfold smWords
    rw [List.foldl_cons]
    refine ih _ _ (fun u hu => hv u (by simp [hu])) ?_
    have := rep_smLoop hb hW hi W v out m le_rfl (hv v (by simp)) ho
    rwa [Nat.sub_self, pow_zero, Nat.div_one] at this

theorem smSkip_spec {W : ℕ} (hW : 0 < W) : ∀ (fuel v j : ℕ), v < 2 ^ W → 0 < v →
    2 ^ W ≤ v * 2 ^ fuel * 2 →
    ∃ k, (smSkip W fuel v j) = (v * 2 ^ k, j + k) ∧ k ≤ fuel ∧ v * 2 ^ k < 2 ^ W ∧ 2 ^ W ≤ v * 2 ^ k * 2 := by
  intro fuel
  induction fuel with
  | zero => intro v j hv _ h; exact ⟨0, by simp [smSkip], le_rfl, by simpa using hv, by simpa using h⟩
  | succ fuel ih =>
    intro v j hv h0 h
    unfold smSkip
    have ht := two_mul_mod hW hv
    cases hb : v.testBit (W - 1)
    · rw [if_pos ⟨by omega, rfl⟩]
      rw [hb] at ht
      simp only [Bool.false_eq_true, if_false, add_zero] at ht
      rw [← ht]
      have hlt : v * 2 < 2 ^ W := by rw [ht]; exact Nat.mod_lt _ (by positivity)
      obtain ⟨k, e, hk, h1, h2⟩ := ih (v * 2) (j + 1) hlt (by omega) (by
        rw [pow_succ] at h; calc 2 ^ W ≤ _ := h
          _ = _ := by ring)
      refine ⟨k + 1, ?_, by omega, ?_, ?_⟩
      · rw [e, pow_succ]; congr 1
        · ring
        · omega
      · rw [pow_succ]; calc _ = v * 2 * 2 ^ k := by ring
          _ < _ := h1
      · rw [pow_succ]; calc _ ≤ _ := h2
          _ = _ := by ring
    · rw [if_neg (by simp)]
      rw [hb] at ht
      simp only [if_true] at ht
      exact ⟨0, by simp, by omega, by simpa using hv, by simp; omega⟩

theorem rep_smMain {b : K} (hb : Good b) {W : ℕ} (hW : 0 < W) {inp : J K} {A : (curve b).Point}
    (hi : Rep b inp A) (v : ℕ) (vs : List ℕ) (h0 : 0 < v) (hv : v < 2 ^ W) (hvs : ∀ u ∈ vs, u < 2 ^ W) :
    Rep b (smMain W inp (v :: vs)) (vs.foldl (fun acc u => acc * 2 ^ W + u) v • A) := by
  unfold smMain
  dsimp only
  refine rep_smWords hb hW hi _ _ _ hvs ?_
  obtain ⟨k, e, hk, h1, h2⟩ := smSkip_spec hW W v 0 hv h0 (by
    have : 2 ^ W ≤ v * 2 ^ W := Nat.le_mul_of_pos_left _ h0
    omega)
  rw [e]
  dsimp only
  rw [zero_add]
  have hkW : k + 1 ≤ W := by
    by_contra hc
    have : 2 ^ W ≤ 2 ^ k := Nat.pow_le_pow_right (by norm_num) (by omega)
    have h3 : 2 ^ k ≤ v * 2 ^ k := Nat.le_mul_of_pos_left _ h0
    omega
  have e2 : v * 2 ^ k * 2 % 2 ^ W = v * 2 ^ (k + 1) - 2 ^ W := by
    rw [pow_succ, ← mul_assoc, Nat.mod_eq_sub_mod h2, Nat.mod_eq_of_lt (by omega)]
  have e3 : 2 ^ W = 2 ^ (W - (k + 1)) * 2 ^ (k + 1) := by rw [← pow_add]; congr 1; omega
  have h4 : v * 2 ^ k * 2 % 2 ^ W < 2 ^ W := Nat.mod_lt _ (by positivity)
  have h1A : Rep b inp (1 • A) := by rwa [one_nsmul]
  have := rep_smLoop hb hW hi (W - (k + 1)) _ inp 1 (by omega) h4 h1A
  rw [one_mul, Nat.sub_sub_self hkW, e2] at this
  have e5 : 2 ^ (W - (k + 1)) + (v * 2 ^ (k + 1) - 2 ^ W) / 2 ^ (k + 1) = v := by
    conv_lhs => rw [e3, ← Nat.sub_mul, Nat.mul_div_cancel _ (by positivity)]
    have : 2 ^ (W - (k + 1)) ≤ v := by
      have h5 : 2 ^ (W - (k + 1)) * 2 ^ (k + 1) ≤ v * 2 ^ (k + 1) := by
        rw [← e3, pow_succ, ← mul_assoc]; exact h2
      exact Nat.le_of_mul_le_mul_right h5 (by positivity)
    omega
  rw [e5] at this
  rwa [e2]

omit [DecidableEq K] [FF K] [LawfulFF K] in
theorem rep_clear {b : K} : Rep b (clear : J K) 0 := .inl ⟨rfl, rfl⟩

theorem foldl_rev_val (W : ℕ) : ∀ (l : List ℕ) (a : ℕ),
    l.foldl (fun acc u => acc * 2 ^ W + u) a
      = a * (2 ^ W) ^ l.length + l.reverse.foldr (fun v acc => v + 2 ^ W * acc) 0 := by
  intro l
  induction l with
  | nil => intro a; simp
  | cons x l ih =>
    intro a
    rw [List.foldl_cons, ih, List.reverse_cons, List.foldr_append, List.length_cons]
    simp only [List.foldr_cons, List.foldr_nil, mul_zero, add_zero]
    have aux : ∀ (l : List ℕ) (c : ℕ), l.foldr (fun v acc => v + 2 ^ W * acc) c
        = l.foldr (fun v acc => v + 2 ^ W * acc) 0 + (2 ^ W) ^ l.length * c := by
      intro l c
      induction l with
      | nil => simp
      | cons y l ih => rw [List.foldr_cons, List.foldr_cons, ih, List.length_cons, pow_succ]; ring
    rw [aux l.reverse x, List.length_reverse, pow_succ]
    ring

/-! ### Normalisation and equality -/

theorem normalizeJac_spec {b : K} {P : J K} {A : (curve b).Point} (h : Rep b P A) :
    Rep b (normalizeJac P) A ∧ ((normalizeJac P).z = 1 ∨ normalizeJac P = ⟨0, 0, 0⟩) := by
  unfold normalizeJac
  rcases h.elim with ⟨hz, rfl⟩ | ⟨x, y, hn, hz, hx, hy, rfl⟩
  · rw [if_pos ((eqb_iff _ _).2 hz)]
    exact ⟨.inl ⟨rfl, rfl⟩, .inr rfl⟩
  · rw [if_neg (by rw [eqb_iff]; exact hz)]
    by_cases h1 : P.z = 1
    · rw [if_pos ((eqb_iff _ _).2 h1)]
      exact ⟨h, .inl h1⟩
    · rw [if_neg (by rw [eqb_iff]; exact h1)]
      dsimp only
      refine ⟨Rep.mk hn one_ne_zero ?_ ?_, .inl rfl⟩
      · dsimp only; rw [sq_eq, hx]; field_simp
      · dsimp only; rw [sq_eq, hy]; field_simp

theorem normalize_spec {b : K} {P : J K} {A : (curve b).Point} (h : Rep b P A) :
    Rep b (normalize P) A ∧ ((normalize P).z = 1 ∨ (normalize P).z = 0) := by
  unfold normalize isInf
  rcases h.elim with ⟨hz, rfl⟩ | ⟨x, y, hn, hz, hx, hy, rfl⟩
  · rw [(isZero_iff _).2 hz, Bool.true_or, if_pos rfl]
    exact ⟨.inl ⟨hz, rfl⟩, .inr hz⟩
  · rw [isZero_false.2 hz, Bool.false_or]
    by_cases h1 : P.z = 1
    · rw [if_pos ((eqb_iff _ _).2 h1)]
      exact ⟨h, .inl h1⟩
    · rw [if_neg (by rw [eqb_iff]; exact h1)]
      dsimp only
      refine ⟨Rep.mk hn one_ne_zero ?_ ?_, .inl rfl⟩
      · dsimp only; rw [sq_eq, hx]; field_simp
      · dsimp only; rw [sq_eq, hy]; field_simp

theorem eq_spec {b : K} {P Q : J K} {A B : (curve b).Point} (hP : Rep b P A) (hQ : Rep b Q B) :
    eq P Q = true ↔ A = B := by
  obtain ⟨h1, h2⟩ := normalize_spec hP
  obtain ⟨h3, h4⟩ := normalize_spec hQ
  unfold eq isInf
  dsimp only
  rcases h1.elim with ⟨hz, rfl⟩ | ⟨x, y, hn, hz, hx, hy, rfl⟩ <;>
    rcases h3.elim with ⟨hz', rfl⟩ | ⟨x', y', hn', hz', hx', hy', rfl⟩
  · simp [(isZero_iff _).2 hz, (isZero_iff _).2 hz']
  · simp only [(isZero_iff _).2 hz, isZero_false.2 hz']
    simp only [if_true, Bool.false_eq_true, if_false, false_iff]
    exact fun h => Point.some_ne_zero hn' h.symm
  · simp only [(isZero_iff _).2 hz', isZero_false.2 hz]
    simp only [if_true, Bool.false_eq_true, if_false, false_iff]
    exact fun h => Point.some_ne_zero hn h
  · rw [isZero_false.2 hz, isZero_false.2 hz']
    simp only [Bool.false_eq_true, if_false, Bool.and_eq_true, eqb_iff]
    rw [hx, hy, hx', hy', h2.resolve_right hz, h4.resolve_right hz']
    simp only [one_pow, mul_one]
    rw [Point.some.injEq]

end Ec
end Verif
