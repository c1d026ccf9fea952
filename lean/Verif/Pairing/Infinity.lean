import Verif.Pairing.Comp

/-! `millerLoop` with P at infinity, whose normalised form is (0, 0, 0). -/

namespace Verif
open Fp

namespace Pairing
open Miller

/-- with both coordinates of P zero a line is its constant coefficient -/
theorem eval_zero (c : Coef) : (eval c (0, 0)).line = F12.incl (Coef.den c).1 := by
  rw [eval_eq]
  have h : F2.ofFe (0 : Fe) = 0 := rfl
  dsimp only
  rw [h, mul_zero, mul_zero]
  rfl

theorem incl_eq_zero {v : F2} : F12.incl v = 0 ↔ v = 0 := map_eq_zero_iff F12.incl F12.incl.injective

theorem finalExp_incl {v : F2} (hv : v ≠ 0) : (F12.incl v).finalExp = 1 := by
  refine F12.finalExp_sub (fun h => hv (incl_eq_zero.1 h)) ?_
  rw [F12.pow_p6]
  show (⟨⟨v, 0, 0⟩, -0⟩ : F12) = ⟨⟨v, 0, 0⟩, 0⟩
  rw [neg_zero]

/-- coefficients read for the digits of a table -/
def reads (tbl : List ℤ) : ℕ := (tbl.map fun s => if s = 0 then 1 else 2).sum

theorem mlStep_zero {v : F2} {cs : List Coef} {s : ℤ} {f : F12} {rest : List Coef} (h : mlStep (0, 0) (some (F12.incl v, cs)) s = some (f, rest)) :
    ∃ w used, cs = used ++ rest ∧ f = F12.incl w ∧ (w = 0 ↔ v = 0 ∨ ∃ c ∈ used, (Coef.den c).1 = 0) ∧ used.length = if s = 0 then 1 else 2 := by
  unfold mlStep at h
  cases cs with
  | nil => cases h
  | cons l cs =>
    dsimp only at h
    rw [F12.square_eq, F12.mul024_eq, eval_zero, ← map_mul, ← map_mul] at h
    by_cases hs : s ≠ 0
    · rw [if_pos hs] at h
      cases cs with
      | nil => cases h
      | cons m cs =>
        simp only [Option.some.injEq, Prod.mk.injEq] at h
        rw [F12.mul024_eq, eval_zero, ← map_mul] at h
        refine ⟨_, [l, m], by rw [← h.2]; rfl, h.1.symm, ?_⟩
        rw [if_neg hs]
        simp [or_assoc]
    · rw [if_neg hs] at h
      simp only [Option.some.injEq, Prod.mk.injEq] at h
      refine ⟨_, [l], by rw [← h.2]; rfl, h.1.symm, ?_⟩
      rw [if_pos (not_not.1 hs)]
      simp

/-- f stays in Fp2, and is zero exactly when a line read so far has constant coefficient zero -/
theorem ml_zero (tbl : List ℤ) : ∀ {v : F2} {cs : List Coef} {f : F12} {rest : List Coef},
    tbl.foldl (mlStep (0, 0)) (some (F12.incl v, cs)) = some (f, rest) →
    ∃ w used, cs = used ++ rest ∧ f = F12.incl w ∧ (w = 0 ↔ v = 0 ∨ ∃ c ∈ used, (Coef.den c).1 = 0) ∧ used.length = reads tbl := by
  induction tbl with
  | nil =>
    intro v cs f rest h
    simp only [List.foldl_nil, Option.some.injEq, Prod.mk.injEq] at h
    exact ⟨v, [], h.2, h.1.symm, by simp [reads]⟩
  | cons s t ih =>
    intro v cs f rest h
    rw [List.foldl_cons] at h
    cases e : mlStep (0, 0) (some (F12.incl v, cs)) s with
    | none => rw [e, ml_none] at h; cases h
    | some a =>
      obtain ⟨g, cs'⟩ := a
      obtain ⟨w, u, h1, h2, h3, hl⟩ := mlStep_zero e
      rw [e, h2] at h
      obtain ⟨w', u', h4, h5, h6, hl'⟩ := ih h
      refine ⟨w', u ++ u', by rw [h1, h4, List.append_assoc], h5, ?_, ?_⟩
      · rw [h6, h3, or_assoc]
        simp only [List.mem_append, or_and_right, exists_or]
      · rw [List.length_append, hl, hl', reads, reads, List.map_cons, List.sum_cons]

/-- any coefficient vector: the result for P = (0, 0) is 0 or 1 after the final exponentiation -/
theorem millerLoop_zero {tbl : List ℤ} {coeff : List Coef} {f : F12} (h : millerLoop tbl coeff (0, 0) = some f) :
    ∃ used rest, coeff = used ++ rest ∧ used.length = 4 + reads (tbl.drop 2) ∧ ((∃ c ∈ used, (Coef.den c).1 = 0) → f.finalExp = 0) ∧ ((∀ c ∈ used, (Coef.den c).1 ≠ 0) → f.finalExp = 1) := by
  unfold millerLoop at h
  match coeff, h with
  | d :: e :: cs, h =>
    dsimp only at h
    rw [F12.mul024_024_eq, eval_zero, eval_zero, ← map_mul] at h
    cases k : (tbl.drop 2).foldl (mlStep (0, 0)) (some (F12.incl ((Coef.den d).1 * (Coef.den e).1), cs)) with
    | none => rw [k] at h; cases h
    | some a =>
      obtain ⟨g, rest⟩ := a
      obtain ⟨w, u, h1, h2, h3, hl⟩ := ml_zero _ k
      rw [k] at h
      match rest, h, h1 with
      | d' :: e' :: rest, h, h1 =>
        simp only [Option.some.injEq] at h
        have hn : negB (F12.incl w) = F12.incl w := by
          show (⟨⟨w, 0, 0⟩, -0⟩ : F12) = ⟨⟨w, 0, 0⟩, 0⟩
          rw [neg_zero]
        rw [h2, hn, F12.mul024_024_eq, eval_zero, eval_zero, ← map_mul, ← map_mul] at h
        refine ⟨d :: e :: (u ++ [d', e']), rest, by rw [h1]; simp, by simp [hl]; omega, ?_, ?_⟩
        · rintro hz
          have : w * ((Coef.den d').1 * (Coef.den e').1) = 0 := by
            rw [mul_eq_zero, mul_eq_zero, h3, mul_eq_zero]
            obtain ⟨c, hc, hc0⟩ := hz
            simp only [List.mem_cons, List.mem_append, List.not_mem_nil, or_false] at hc
            rcases hc with rfl | rfl | hc | rfl | rfl
            · exact .inl (.inl (.inl hc0))
            · exact .inl (.inl (.inr hc0))
            · exact .inl (.inr ⟨c, hc, hc0⟩)
            · exact .inr (.inl hc0)
            · exact .inr (.inr hc0)
          rw [← h, this, map_zero, F12.finalExp_zero]
        · intro hz
          rw [← h]
          refine finalExp_incl ?_
          rw [Ne, mul_eq_zero, mul_eq_zero, h3, mul_eq_zero]
          rintro (((q | q) | ⟨c, hc, q⟩) | q | q)
          · exact hz d (by simp) q
          · exact hz e (by simp) q
          · exact hz c (by simp [hc]) q
          · exact hz d' (by simp) q
          · exact hz e' (by simp) q

theorem pre_length (Q Qn : F2 × F2) (tbl : List ℤ) : ∀ st : List Coef × J F2, (tbl.foldl (preStep Q Qn) st).1.length = st.1.length + reads tbl := by
  induction tbl with
  | nil => intro st; simp [reads]
  | cons s t ih =>
    intro st
    rw [List.foldl_cons, ih, reads, reads, List.map_cons, List.sum_cons, ← Nat.add_assoc]
    congr 1
    unfold preStep
    dsimp only
    by_cases h1 : s > 0
    · rw [if_pos h1, if_neg (by omega)]; simp
    · by_cases h2 : s < 0
      · rw [if_neg h1, if_pos h2, if_neg (by omega)]; simp
      · rw [if_neg h1, if_neg h2, if_pos (by omega)]; simp

/-- P = (0, 0) with the coefficients of `precomputeG2`, any point Q -/
theorem pre_zero (tbl : List ℤ) (Q : J F2) : ∃ f, millerLoop tbl (precomputeG2 tbl Q).1 (0, 0) = some f ∧
    ((∃ c ∈ (precomputeG2 tbl Q).1, (Coef.den c).1 = 0) → f.finalExp = 0) ∧ ((∀ c ∈ (precomputeG2 tbl Q).1, (Coef.den c).1 ≠ 0) → f.finalExp = 1) := by
  refine ⟨_, millerLoop_pre tbl Q (0, 0), ?_⟩
  obtain ⟨u, rest, h1, h2, h3⟩ := millerLoop_zero (millerLoop_pre tbl Q (0, 0))
  have hl : (precomputeG2 tbl Q).1.length = 4 + reads (tbl.drop 2) := by
    unfold precomputeG2
    dsimp only
    rw [List.length_append, pre_length]
    simp only [List.length_cons, List.length_nil]
    omega
  have hr : rest = [] := by
    rw [h1, List.length_append] at hl
    exact List.length_eq_zero_iff.1 (by omega)
  rw [hr, List.append_nil] at h1
  rw [h1]
  exact h3

theorem den_zero_iff (c : Coef) : (Coef.den c).1 = 0 ↔ c.l.a = ⟨0, 0⟩ := by
  have h0 : (⟨0, 0⟩ : R2).Canon := by constructor <;> (show 0 < p; rw [p_eq]; norm_num)
  have e : (⟨0, 0⟩ : R2).den = 0 := F2.den_raw 0
  constructor
  · intro h; exact R2.den_inj c.ha h0 (h.trans e.symm)
  · intro h; show c.l.a.den = 0; rw [h, e]

end Pairing
end Verif
