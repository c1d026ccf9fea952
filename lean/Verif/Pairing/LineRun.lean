import Verif.Pairing.Infinity
import Verif.Pairing.Eval

/-! A check on plain residues that no line of `precomputeG2` goes through (0, 0). -/

namespace Verif
open Fp Ec
namespace Pairing
open Miller Light

/-! Proof helpers, not a model of the code: the closed forms of the steps of `precomputeG2` (bn.h, `components::precomputeG2`), proved equal to
the model below. -/

def ln (k : ℕ) : L2 := ⟨k, 0⟩
def lbT : L2 := ⟨1, p - 1⟩
def lhalf : L2 := ⟨(p + 1) / 2, 0⟩

def lDbl (T : J L2) : L2 × J L2 :=
  (ln 3 * lbT * (T.z * T.z) - T.y * T.y,
   ⟨lhalf * ((T.y * T.y - ln 9 * lbT * (T.z * T.z)) * T.x * T.y),
    lhalf * lhalf * ((T.y * T.y + ln 9 * lbT * (T.z * T.z)) * (T.y * T.y + ln 9 * lbT * (T.z * T.z)) - ln 108 * (lbT * lbT) * ((T.z * T.z) * (T.z * T.z))),
    ln 2 * (T.y * T.y * T.y) * T.z⟩)

def lAdd' (X Y Z x y A B : L2) : L2 × J L2 :=
  (B * x - A * y,
   ⟨A * (B * B * Z + A * A * A - ln 2 * (A * A * X)),
    B * (A * A * X - (B * B * Z + A * A * A - ln 2 * (A * A * X))) - A * A * A * Y,
    A * A * A * Z⟩)
def lAdd (T : J L2) (Q : L2 × L2) : L2 × J L2 := lAdd' T.x T.y T.z Q.1 Q.2 (T.x - T.z * Q.1) (T.y - T.z * Q.2)

theorem feOf_one : feOf 1 = 1 := Fe.toZ_inj (by rw [toZ_feOf, Fe.toZ_one, Nat.cast_one])
theorem h2_one : h2.f 1 = 1 := F2.ext feOf_one feOf_zero
theorem feOf_nat (k : ℕ) : feOf k = (k : Fe) := Fe.toZ_inj (by rw [toZ_feOf, Fe.toZ_natCast])
theorem ln_f (k : ℕ) : h2.f (ln k) = k := F2.ext (feOf_nat k) feOf_zero
theorem lbT_f : h2.f lbT = 2 / F2.xi := by
  rw [← F2.bTw_eq]
  refine F2.ext feOf_one (Fe.toZ_inj ?_)
  show (feOf (p - 1)).toZ = (-1 : Fe).toZ
  rw [toZ_feOf, cast_pred, Fe.toZ_neg, Fe.toZ_one]
theorem lhalf_f : 2 * h2.f lhalf = 1 := by
  have k : (ln 2 * lhalf).a = 1 ∧ (ln 2 * lhalf).b = 0 := by decide +kernel
  have e : h2.f (ln 2 * lhalf) = h2.f 1 := by
    show (⟨feOf (ln 2 * lhalf).a, feOf (ln 2 * lhalf).b⟩ : F2) = _
    rw [k.1, k.2]; rfl
  rw [h2.mul, ln_f, h2_one] at e
  exact_mod_cast e

theorem lDbl_f (T : J L2) : (Coef.den (dblLine (h2.j T)).1).1 = F2.xi * h2.f (lDbl T).1 ∧ (dblLine (h2.j T)).2 = h2.j (lDbl T).2 := by
  obtain ⟨h1, h2', h3, h4⟩ := dblLine_coord (h2.j T)
  have hh := lhalf_f
  constructor
  · rw [h1]
    unfold lDbl Hom.j
    dsimp only
    simp only [h2.mul, h2.sub, ln_f, lbT_f]
    push_cast
    ring
  · refine J.ext ?_ ?_ ?_
    · unfold lDbl Hom.j at *
      dsimp only at *
      simp only [h2.mul, h2.sub, ln_f, lbT_f]
      push_cast
      linear_combination h2.f lhalf * h2' - (dblLine ⟨h2.f T.x, h2.f T.y, h2.f T.z⟩).2.x * hh
    · unfold lDbl Hom.j at *
      dsimp only at *
      simp only [h2.mul, h2.sub, h2.add, ln_f, lbT_f]
      push_cast
      linear_combination h2.f lhalf * h2.f lhalf * h3 - (dblLine ⟨h2.f T.x, h2.f T.y, h2.f T.z⟩).2.y * (2 * h2.f lhalf + 1) * hh
    · rw [h4]
      unfold lDbl Hom.j
      dsimp only
      simp only [h2.mul, ln_f]
      push_cast
      ring

theorem lAdd_f (T : J L2) (Q : L2 × L2) : (Coef.den (addLine (h2.j T) (h2.f Q.1, h2.f Q.2)).1).1 = F2.xi * h2.f (lAdd T Q).1 ∧
    (addLine (h2.j T) (h2.f Q.1, h2.f Q.2)).2 = h2.j (lAdd T Q).2 := by
  obtain ⟨h1, h2', h3, h4⟩ := addLine_coord (h2.j T) (h2.f Q.1, h2.f Q.2)
  constructor
  · rw [h1]
    unfold lAdd lAdd' Hom.j
    dsimp only
    simp only [h2.mul, h2.sub]
  · refine J.ext ?_ ?_ ?_
    · rw [h2']
      unfold lAdd lAdd' Hom.j
      dsimp only
      simp only [h2.mul, h2.sub, h2.add, ln_f]
      push_cast
      ring
    · rw [h3]
      unfold lAdd lAdd' Hom.j
      dsimp only
      simp only [h2.mul, h2.sub, h2.add, ln_f]
      push_cast
      ring
    · rw [h4]
      unfold lAdd lAdd' Hom.j
      dsimp only
      simp only [h2.mul, h2.sub]
      ring

/-- x ^ n -/
def lpow : ℕ → L2 → ℕ → L2
  | 0, _, _ => 1
  | k + 1, x, n => if n % 2 = 1 then lpow k (x * x) (n / 2) * x else lpow k (x * x) (n / 2)
theorem lpow_f (k : ℕ) : ∀ (x : L2) (n : ℕ), n < 2 ^ k → h2.f (lpow k x n) = h2.f x ^ n := by
  induction k with
  | zero => intro x n h; rw [show n = 0 by omega, pow_zero]; exact h2_one
  | succ k ih =>
    intro x n h
    have e := Nat.div_add_mod n 2
    have := ih (x * x) (n / 2) (by omega)
    rw [h2.mul, ← pow_two, ← pow_mul] at this
    unfold lpow
    split_ifs with c
    · rw [h2.mul, this, ← pow_succ]; congr 1; omega
    · rw [this]; congr 1; omega

def lconj (x : L2) : L2 := ⟨x.a, (p - 1) * x.b % p⟩
theorem lconj_f (x : L2) : h2.f (lconj x) = F2.conj (h2.f x) := by
  refine F2.ext rfl (Fe.toZ_inj ?_)
  show (feOf ((p - 1) * x.b % p)).toZ = (-feOf x.b).toZ
  rw [Fe.toZ_neg, toZ_feOf, toZ_feOf, ZMod.natCast_mod, Nat.cast_mul, cast_pred]; ring

def lgam : L2 := lpow 254 ⟨1, 1⟩ ((p - 1) / 6)
theorem lgam_f : h2.f lgam = F2.gam := by
  unfold lgam F2.gam
  rw [lpow_f _ _ _ (by rw [p_eq]; norm_num)]
  exact congrArg (· ^ _) (F2.ext feOf_one feOf_one : h2.f ⟨1, 1⟩ = F2.xi)

/-- the lines in the loop: all constants nonzero? -/
def lStep (Q Qn : L2 × L2) (st : Bool × J L2) (s : ℤ) : Bool × J L2 :=
  let e := lDbl st.2
  let b := st.1 && !FF.isZero e.1
  if s > 0 then
    let a := lAdd e.2 Q
    (b && !FF.isZero a.1, a.2)
  else if s < 0 then
    let a := lAdd e.2 Qn
    (b && !FF.isZero a.1, a.2)
  else (b, e.2)

def nz (cs : List Coef) : Prop := ∀ c ∈ cs, (Coef.den c).1 ≠ 0

theorem nz_one {c : Coef} {x : L2} (h : (Coef.den c).1 = F2.xi * h2.f x) : (!FF.isZero x) = true ↔ (Coef.den c).1 ≠ 0 := by
  rw [h, Ne, mul_eq_zero, or_iff_right F2.xi_ne, ← LawfulFF.isZero_iff, h2.isZero]
  cases FF.isZero x <;> simp

theorem lStep_f {Q Qn : L2 × L2} {cs : List Coef} {b : Bool} {T : J L2} {s : ℤ} (h : b = true → nz cs) :
    (preStep (h2.f Q.1, h2.f Q.2) (h2.f Qn.1, h2.f Qn.2) (cs, h2.j T) s).2 = h2.j (lStep Q Qn (b, T) s).2 ∧
    ((lStep Q Qn (b, T) s).1 = true → nz (preStep (h2.f Q.1, h2.f Q.2) (h2.f Qn.1, h2.f Qn.2) (cs, h2.j T) s).1) := by
  obtain ⟨d1, d2⟩ := lDbl_f T
  have app : ∀ {cs ds}, nz cs → nz ds → nz (cs ++ ds) := fun {cs ds} a b c hc => by
    rcases List.mem_append.1 hc with hc | hc
    exacts [a c hc, b c hc]
  have one : ∀ {c}, (Coef.den c).1 ≠ 0 → nz [c] := fun {c} hc c' hc' => by
    rw [List.mem_singleton] at hc'; rw [hc']; exact hc
  unfold preStep lStep
  dsimp only
  split_ifs with c1 c2
  · obtain ⟨a1, a2⟩ := lAdd_f (lDbl T).2 Q
    rw [d2]
    refine ⟨a2, fun hb => ?_⟩
    rw [Bool.and_eq_true, Bool.and_eq_true, nz_one d1, nz_one a1] at hb
    exact app (app (h hb.1.1) (one hb.1.2)) (one hb.2)
  · obtain ⟨a1, a2⟩ := lAdd_f (lDbl T).2 Qn
    rw [d2]
    refine ⟨a2, fun hb => ?_⟩
    rw [Bool.and_eq_true, Bool.and_eq_true, nz_one d1, nz_one a1] at hb
    exact app (app (h hb.1.1) (one hb.1.2)) (one hb.2)
  · refine ⟨d2, fun hb => ?_⟩
    rw [Bool.and_eq_true, nz_one d1] at hb
    exact app (h hb.1) (one hb.2)

theorem lfold_f (Q Qn : L2 × L2) (tbl : List ℤ) : ∀ {cs : List Coef} {b : Bool} {T : J L2}, (b = true → nz cs) →
    (tbl.foldl (preStep (h2.f Q.1, h2.f Q.2) (h2.f Qn.1, h2.f Qn.2)) (cs, h2.j T)).2 = h2.j (tbl.foldl (lStep Q Qn) (b, T)).2 ∧
    ((tbl.foldl (lStep Q Qn) (b, T)).1 = true → nz (tbl.foldl (preStep (h2.f Q.1, h2.f Q.2) (h2.f Qn.1, h2.f Qn.2)) (cs, h2.j T)).1) := by
  induction tbl with
  | nil => intro cs b T h; exact ⟨rfl, h⟩
  | cons s t ih =>
    intro cs b T h
    obtain ⟨e1, e2⟩ := lStep_f (Q := Q) (Qn := Qn) (T := T) (s := s) h
    rw [List.foldl_cons, List.foldl_cons]
    have := ih (b := (lStep Q Qn (b, T) s).1) (T := (lStep Q Qn (b, T) s).2) e2
    rw [← e1] at this
    exact this

/-- the test run for an affine point -/
def lRun (tbl : List ℤ) (x y : L2) : Bool :=
  let d := lDbl ⟨x, y, 1⟩
  let e := lAdd d.2 (x, y)
  let st := (tbl.drop 2).foldl (lStep (x, y) (x, 0 - y)) (!FF.isZero d.1 && !FF.isZero e.1, e.2)
  let g2 := lgam * lgam
  let T : J L2 := ⟨st.2.x, 0 - st.2.y, st.2.z⟩
  let d := lAdd T (g2 * lconj x, g2 * lgam * lconj y)
  let e := lAdd d.2 (lconj g2 * g2 * x, y)
  st.1 && !FF.isZero d.1 && !FF.isZero e.1

theorem g2_run : lRun Param.siTbl l_g2.x l_g2.y = true := by decide +kernel

theorem lRun_f {tbl : List ℤ} {x y : L2} (h : lRun tbl x y = true) {Q : J F2} (hQ : normalizeJac Q = ⟨h2.f x, h2.f y, 1⟩) :
    nz (precomputeG2 tbl Q).1 := by
  have j1 : (⟨h2.f x, h2.f y, 1⟩ : J F2) = h2.j ⟨x, y, 1⟩ := by unfold Hom.j; dsimp only; rw [h2_one]
  have n0 : ∀ z : L2, h2.f (0 - z) = -h2.f z := fun z => by rw [h2.sub, h2.zero, zero_sub]
  have app : ∀ {cs ds}, nz cs → nz ds → nz (cs ++ ds) := fun {cs ds} a b c hc => by
    rcases List.mem_append.1 hc with hc | hc
    exacts [a c hc, b c hc]
  have two : ∀ {c d}, (Coef.den c).1 ≠ 0 → (Coef.den d).1 ≠ 0 → nz [c, d] := fun {c d} hc hd c' hc' => by
    simp only [List.mem_cons, List.not_mem_nil, or_false] at hc'
    rcases hc' with rfl | rfl
    exacts [hc, hd]
  unfold precomputeG2
  dsimp only
  rw [hQ]
  dsimp only
  rw [j1]
  unfold lRun at h
  dsimp only at h
  obtain ⟨d1, d2⟩ := lDbl_f ⟨x, y, 1⟩
  rw [d2]
  obtain ⟨a1, a2⟩ := lAdd_f (lDbl ⟨x, y, 1⟩).2 (x, y)
  dsimp only at a1 a2
  rw [a2]
  obtain ⟨f1, f2⟩ := lfold_f (x, y) (x, 0 - y) (tbl.drop 2) (cs := [(dblLine (h2.j ⟨x, y, 1⟩)).1, (addLine (h2.j (lDbl ⟨x, y, 1⟩).2) (h2.f x, h2.f y)).1])
    (b := !FF.isZero (lDbl ⟨x, y, 1⟩).1 && !FF.isZero (lAdd (lDbl ⟨x, y, 1⟩).2 (x, y)).1) (T := (lAdd (lDbl ⟨x, y, 1⟩).2 (x, y)).2)
    (fun hb => by rw [Bool.and_eq_true, nz_one d1, nz_one a1] at hb; exact two hb.1 hb.2)
  dsimp only at f1 f2
  rw [n0] at f1 f2
  rw [f1]
  generalize (tbl.drop 2).foldl (lStep (x, y) (x, 0 - y)) (!FF.isZero (lDbl ⟨x, y, 1⟩).1 && !FF.isZero (lAdd (lDbl ⟨x, y, 1⟩).2 (x, y)).1,
    (lAdd (lDbl ⟨x, y, 1⟩).2 (x, y)).2) = st at *
  have n1 : negY (h2.j st.2) = h2.j ⟨st.2.x, 0 - st.2.y, st.2.z⟩ := by
    unfold negY Hom.j; dsimp only; rw [n0]
  have t1 : frobTwist1 (h2.f x) (h2.f y) = (h2.f (lgam * lgam * lconj x), h2.f (lgam * lgam * lgam * lconj y)) := by
    rw [frobTwist1_eq, F2.pow_p, F2.pow_p]
    simp only [h2.mul, lgam_f, lconj_f]
    refine Prod.ext ?_ ?_ <;> dsimp only <;> ring
  have t8 : frobTwist8 (h2.f x) (h2.f y) = (h2.f (lconj (lgam * lgam) * (lgam * lgam) * x), h2.f y) := by
    rw [frobTwist8_eq, gam3_norm]
    simp only [h2.mul, lgam_f, lconj_f]
    refine Prod.ext ?_ ?_ <;> dsimp only
    · rw [pow_two]
    · ring
  rw [n1, t1, t8]
  obtain ⟨p1, p2⟩ := lAdd_f ⟨st.2.x, 0 - st.2.y, st.2.z⟩ (lgam * lgam * lconj x, lgam * lgam * lgam * lconj y)
  dsimp only at p1 p2
  rw [p2]
  obtain ⟨q1, q2⟩ := lAdd_f (lAdd ⟨st.2.x, 0 - st.2.y, st.2.z⟩ (lgam * lgam * lconj x, lgam * lgam * lgam * lconj y)).2 (lconj (lgam * lgam) * (lgam * lgam) * x, y)
  dsimp only at q1 q2
  rw [Bool.and_eq_true, Bool.and_eq_true, nz_one p1, nz_one q1] at h
  exact app (f2 h.1.1) (two h.1.2 h.2)

end Pairing
end Verif
