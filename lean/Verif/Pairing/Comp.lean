import Verif.Pairing.Steps

/-! The separately written loops of `bn::components` compute what the loop of `opt_atePairing` computes. -/

namespace Verif
open Fp

namespace Pairing
open Miller

theorem preStep_app (Q Qn : F2 × F2) (cs : List Coef) (T : J F2) (s : ℤ) :
    preStep Q Qn (cs, T) s = (cs ++ (preStep Q Qn ([], T) s).1, (preStep Q Qn ([], T) s).2) := by
  unfold preStep
  dsimp only
  split_ifs <;> simp

theorem pre_fold (Q Qn : F2 × F2) (tbl : List ℤ) : ∀ (cs : List Coef) (T : J F2),
    tbl.foldl (preStep Q Qn) (cs, T) =
      (cs ++ (tbl.foldl (preStep Q Qn) ([], T)).1, (tbl.foldl (preStep Q Qn) ([], T)).2) := by
  induction tbl with
  | nil => intro cs T; simp
  | cons s t ih =>
    intro cs T
    rw [List.foldl_cons, List.foldl_cons, preStep_app, ih, ih (preStep Q Qn ([], T) s).1]
    simp

/-- one pass: the coefficients produced are the ones consumed -/
theorem ml_step (Q Qn : F2 × F2) (P : Fe × Fe) (f : F12) (T : J F2) (s : ℤ) (rest : List Coef) :
    mlStep P (some (f, (preStep Q Qn ([], T) s).1 ++ rest)) s = some ((step Q Qn P (f, T) s).1, rest) ∧
    (step Q Qn P (f, T) s).2 = (preStep Q Qn ([], T) s).2 := by
  unfold preStep step mlStep dblLineEval addLineEval
  dsimp only
  by_cases h1 : s > 0
  · have h0 : s ≠ 0 := by omega
    simp [h1, h0]
  · by_cases h2 : s < 0
    · have h0 : s ≠ 0 := by omega
      simp [h1, h2, h0]
    · have h0 : s = 0 := by omega
      simp [h0]

theorem ml_fold (Q Qn : F2 × F2) (P : Fe × Fe) (tbl : List ℤ) : ∀ (f : F12) (T : J F2) (rest : List Coef),
    tbl.foldl (mlStep P) (some (f, (tbl.foldl (preStep Q Qn) ([], T)).1 ++ rest)) =
      some ((tbl.foldl (step Q Qn P) (f, T)).1, rest) ∧
    (tbl.foldl (step Q Qn P) (f, T)).2 = (tbl.foldl (preStep Q Qn) ([], T)).2 := by
  induction tbl with
  | nil => intro f T rest; exact ⟨rfl, rfl⟩
  | cons s t ih =>
    intro f T rest
    rw [List.foldl_cons, List.foldl_cons, List.foldl_cons]
    obtain ⟨h1, h2⟩ := ml_step Q Qn P f T s ((t.foldl (preStep Q Qn) ([], (preStep Q Qn ([], T) s).2)).1 ++ rest)
    have e := pre_fold Q Qn t (preStep Q Qn ([], T) s).1 (preStep Q Qn ([], T) s).2
    rw [Prod.mk.eta] at e
    rw [e, List.append_assoc, h1]
    obtain ⟨h3, h4⟩ := ih (step Q Qn P (f, T) s).1 (preStep Q Qn ([], T) s).2 rest
    rw [← h2, Prod.mk.eta] at h3 h4
    rw [← h2]
    exact ⟨h3, h4⟩

/-- `precomputeG2` then `millerLoop`: every table, every point -/
theorem millerLoop_pre (tbl : List ℤ) (Q : J F2) (P : Fe × Fe) :
    millerLoop tbl (precomputeG2 tbl Q).1 P =
      some (miller tbl ((Ec.normalizeJac Q).x, (Ec.normalizeJac Q).y) P) := by
  unfold precomputeG2 millerLoop miller
  dsimp only
  generalize Ec.normalizeJac Q = N
  generalize tbl.drop 2 = tb
  rw [pre_fold]
  dsimp only
  rw [List.append_assoc]
  simp only [List.cons_append, List.nil_append]
  obtain ⟨h1, h2⟩ := ml_fold (N.x, N.y) (N.x, -N.y) P tb
    (F12.mul024_024 (eval (dblLine ⟨N.x, N.y, 1⟩).1 P) (eval (addLine (dblLine ⟨N.x, N.y, 1⟩).2 (N.x, N.y)).1 P))
    (addLine (dblLine ⟨N.x, N.y, 1⟩).2 (N.x, N.y)).2
    [(addLine (negY (tb.foldl (preStep (N.x, N.y) (N.x, -N.y)) ([], (addLine (dblLine ⟨N.x, N.y, 1⟩).2 (N.x, N.y)).2)).2)
        (Ec.frobTwist1 N.x N.y)).1,
      (addLine (addLine (negY (tb.foldl (preStep (N.x, N.y) (N.x, -N.y)) ([], (addLine (dblLine ⟨N.x, N.y, 1⟩).2 (N.x, N.y)).2)).2)
        (Ec.frobTwist1 N.x N.y)).2 (Ec.frobTwist8 N.x N.y)).1]
  rw [h1, ← h2]
  rfl

/-! ### Two pairings in one loop -/

theorem negB_mul (f g : F12) : negB (f * g) = negB f * negB g := by
  unfold negB
  refine F12.ext ?_ ?_
  · rw [F12.mul_a, F12.mul_a]; ring
  · rw [F12.mul_b, F12.mul_b]; ring

theorem ml2_step {P1 P2 : Fe × Fe} {s : ℤ} {f1 f2 g1 g2 : F12} {c1 c2 d1 d2 : List Coef}
    (h1 : mlStep P1 (some (f1, c1)) s = some (g1, d1)) (h2 : mlStep P2 (some (f2, c2)) s = some (g2, d2)) :
    ml2Step P1 P2 (some (f1 * f2, c1, c2)) s = some (g1 * g2, d1, d2) := by
  cases c1 with
  | nil => simp [mlStep] at h1
  | cons l1 c1 =>
  cases c2 with
  | nil => simp [mlStep] at h2
  | cons l2 c2 =>
  unfold mlStep at h1 h2
  unfold ml2Step
  dsimp only at h1 h2 ⊢
  by_cases hs : s ≠ 0
  · rw [if_pos hs] at h1 h2 ⊢
    cases c1 with
    | nil => simp at h1
    | cons m1 c1 =>
    cases c2 with
    | nil => simp at h2
    | cons m2 c2 =>
    simp only [Option.some.injEq, Prod.mk.injEq] at h1 h2 ⊢
    refine ⟨?_, h1.2, h2.2⟩
    rw [← h1.1, ← h2.1]
    simp only [F12.mul024_024_eq, F12.mul024_eq, F12.square_eq]
    ring
  · rw [if_neg hs] at h1 h2 ⊢
    simp only [Option.some.injEq, Prod.mk.injEq] at h1 h2 ⊢
    refine ⟨?_, h1.2, h2.2⟩
    rw [← h1.1, ← h2.1]
    simp only [F12.mul024_024_eq, F12.mul024_eq, F12.square_eq]
    ring

theorem ml_none (P : Fe × Fe) (tbl : List ℤ) : tbl.foldl (mlStep P) none = none := by
  induction tbl with
  | nil => rfl
  | cons s t ih => rw [List.foldl_cons]; exact ih

theorem ml2_fold {P1 P2 : Fe × Fe} (tbl : List ℤ) : ∀ {f1 f2 g1 g2 : F12} {c1 c2 d1 d2 : List Coef},
    tbl.foldl (mlStep P1) (some (f1, c1)) = some (g1, d1) → tbl.foldl (mlStep P2) (some (f2, c2)) = some (g2, d2) →
    tbl.foldl (ml2Step P1 P2) (some (f1 * f2, c1, c2)) = some (g1 * g2, d1, d2) := by
  induction tbl with
  | nil =>
    intro f1 f2 g1 g2 c1 c2 d1 d2 h1 h2
    simp only [List.foldl_nil, Option.some.injEq, Prod.mk.injEq] at h1 h2 ⊢
    rw [h1.1, h2.1]; exact ⟨rfl, h1.2, h2.2⟩
  | cons s t ih =>
    intro f1 f2 g1 g2 c1 c2 d1 d2 h1 h2
    rw [List.foldl_cons] at h1 h2 ⊢
    cases e1 : mlStep P1 (some (f1, c1)) s with
    | none => rw [e1, ml_none] at h1; cases h1
    | some a =>
    cases e2 : mlStep P2 (some (f2, c2)) s with
    | none => rw [e2, ml_none] at h2; cases h2
    | some b =>
    rw [e1] at h1
    rw [e2] at h2
    rw [ml2_step (g1 := a.1) (d1 := a.2) (g2 := b.1) (d2 := b.2) e1 e2]
    exact ih h1 h2

/-- `millerLoop2` is the product of two `millerLoop`s, for arbitrary coefficient vectors -/
theorem millerLoop2_eq {tbl : List ℤ} {c1 c2 : List Coef} {P1 P2 : Fe × Fe} {a b : F12}
    (h1 : millerLoop tbl c1 P1 = some a) (h2 : millerLoop tbl c2 P2 = some b) :
    millerLoop2 tbl c1 P1 c2 P2 = some (a * b) := by
  match c1, c2, h1, h2 with
  | d1 :: e1 :: cs1, d2 :: e2 :: cs2, h1, h2 =>
  unfold millerLoop at h1 h2
  unfold millerLoop2
  dsimp only at h1 h2 ⊢
  split at h1
  · rename_i f1 x1 y1 z1 k1
    split at h2
    · rename_i f2 x2 y2 z2 k2
      rw [ml2_fold _ k1 k2]
      dsimp only
      rw [← Option.some.inj h1, ← Option.some.inj h2, negB_mul]
      congr 1; ring
    · cases h2
  · cases h1

end Pairing
end Verif
