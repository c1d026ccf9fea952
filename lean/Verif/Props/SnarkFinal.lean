import Verif.Props.Snark
import Verif.Snark.FinalRun

/-!
Property theorems C75: constants, Frobenius maps, inverse, cyclotomic squaring and final exponentiation of the SNARK build.

The routines of Snark/Final.lean carry a flag.  With `false` they are the code.  With `true` they stop with `throw` at the
first product that can leave its range (`C75_checked` says exactly when).
-/

namespace Verif.Snark

/-! ### C75 -/

/-- **C75** the constants `gammar`, `gammar2`, `gammar3` are canonical and are the powers of xi that they have to be -/
theorem C75_constants (i : ℕ) :
    ((gammar i).SCan ∧ (gammar i).sden = G2.xi ^ ((i + 1) * ((p - 1) / 6))) ∧
    ((gammar2 i).SCan ∧ (gammar2 i).sden = G2.xi ^ ((i + 1) * ((p ^ 2 - 1) / 6))) ∧
    ((gammar3 i).SCan ∧ (gammar3 i).sden = G2.xi ^ ((i + 1) * ((p ^ 3 - 1) / 6))) := by
  have hom : G2.om = G2.xi ^ ((p ^ 2 - 1) / 6) := by
    have h := G2.gam_norm 1
    rw [pow_one, pow_one, ← G2.pow_p, ← pow_succ, G2.gam_eq, ← pow_mul] at h
    rw [← h, show (p - 1) / 6 * (p + 1) = (p ^ 2 - 1) / 6 by rw [p_eq]; norm_num]
  refine ⟨⟨(gammar_val i).1, (gammar_val i).2.trans ?_⟩, ⟨(gammar2_val i).1, (gammar2_val i).2.trans ?_⟩,
    ⟨(gammar3_val i).1, (gammar3_val i).2.trans ?_⟩⟩
  · rw [G2.gam_eq, ← pow_mul, mul_comm]
  · rw [hom, ← pow_mul, mul_comm]
  · have h2 : (p ^ 3 - 1) / 6 = (p - 1) / 6 + (p ^ 2 - 1) / 6 + ((p ^ 2 - 1) / 6) * (p - 1) := by rw [p_eq]; norm_num
    have h3 : G2.xi ^ (((p ^ 2 - 1) / 6) * (p - 1)) = 1 := by
      rw [pow_mul, ← hom]
      have h : G2.om ^ p = G2.om := by
        rw [G2.pow_p]; unfold G2.om G2.conj G2.ofZ; ext1 <;> simp
      have h1 : G2.om ^ (p - 1) * G2.om = 1 * G2.om := by
        rw [← pow_succ, Nat.sub_add_cancel p_pos, h, one_mul]
      exact mul_right_cancel₀ G2.om_ne h1
    have h4 : G2.xi ^ ((p ^ 3 - 1) / 6) = G2.gam * G2.om := by
      rw [h2, pow_add, pow_add, h3, mul_one, ← hom, ← G2.gam_eq]
    rw [← mul_pow, mul_comm (i + 1), pow_mul, h4]

/-- **C75** the digits read by `pow_neg_t` are what `getGoodRepl` makes of z; they are 0, 1, -1, start with 1 and have value z -/
theorem C75_digits : Naf.goodRepl [z] = .ok (true, zReplTbl) ∧ (∀ d ∈ zReplTbl, d = 0 ∨ d = 1 ∨ d = -1) ∧
    zReplTbl.head? = some 1 ∧ zReplTbl.foldl (fun a d => 2 * a + d) 0 = (z : ℤ) :=
  ⟨zReplTbl_run, by decide, rfl, by decide +kernel⟩

/-- **C75** `Frobenius`, `Frobenius2`, `Frobenius3`: for every canonical x the p-th, p²-th and p³-th power, canonical -/
theorem C75_frobenius {x : R12} (hx : x.SCan) :
    ((S12.frobenius x).SCan ∧ (S12.frobenius x).sden = x.sden ^ p) ∧
    ((S12.frobenius2 x).SCan ∧ (S12.frobenius2 x).sden = x.sden ^ p ^ 2) ∧
    ((S12.frobenius3 x).SCan ∧ (S12.frobenius3 x).sden = x.sden ^ p ^ 3) :=
  ⟨V12.frobenius ⟨hx, rfl⟩, V12.frobenius2 ⟨hx, rfl⟩, V12.frobenius3 ⟨hx, rfl⟩⟩

/-- **C75** `Fp6::square`, `Fp6::inverse`: right and canonical for every canonical (non-zero) x -/
theorem C75_fp6 {x : R6} (hx : x.SCan) :
    (∃ y, S6.square x = .ok y ∧ y.SCan ∧ y.sden = x.sden * x.sden) ∧
    (x.sden ≠ 0 → ∃ y, S6.inverse x = .ok y ∧ y.SCan ∧ y.sden * x.sden = 1) := by
  refine ⟨V6.square ⟨hx, rfl⟩, fun h0 => ?_⟩
  obtain ⟨y, e, h1, h2⟩ := V6.inverse (x := x) ⟨hx, rfl⟩ h0
  exact ⟨y, e, h1, by rw [h2]; exact inv_mul_cancel₀ h0⟩

/-- **C75** `sqru` is the square on the subgroup of order p⁴ - p² + 1, canonical, for every canonical x in it -/
theorem C75_sqru {x : R12} (hx : x.SCan) (hc : x.sden ^ (p ^ 4 - p ^ 2 + 1) = 1) :
    ∃ y, S12.sqru x = .ok y ∧ y.SCan ∧ y.sden = x.sden * x.sden := V12.sqru ⟨hx, rfl⟩ hc

/-- **C75** the flag: unchecked products are `Fp6::mul` and `Fp12::mul`; checked products are the same, unless one of the
products of `Fp6Dbl::mul` does not fit -/
theorem C75_checked :
    (∀ x y : R6, S6.mulK false x y = .ok (S6.mul x y) ∧
      S6.mulK true x y = if Fits x y then .ok (S6.mul x y) else .throw) ∧
    (∀ x y : R12, S12.mulK false x y = .ok (S12.mul x y) ∧
      S12.mulK true x y = if Fits x.a y.a ∧ Fits x.b y.b ∧ Fits (S6.add x.a x.b) (S6.add y.a y.b) then .ok (S12.mul x y)
        else .throw) := by
  have hf : ∀ x y : R6, cb x y < pN ↔ Fits x y := fun x y => by rw [pN_def]; exact Iff.rfl
  refine ⟨fun x y => ⟨?_, ?_⟩, fun x y => ⟨?_, ?_⟩⟩
  · unfold S6.mulK; exact if_neg fun t => Bool.noConfusion t.1
  · unfold S6.mulK
    by_cases h : Fits x y
    · rw [if_pos h, if_neg fun t => t.2 ((hf _ _).2 h)]
    · rw [if_neg h, if_pos ⟨rfl, fun t => h ((hf _ _).1 t)⟩]
  · unfold S12.mulK; exact if_neg fun t => Bool.noConfusion t.1
  · unfold S12.mulK
    by_cases h : Fits x.a y.a ∧ Fits x.b y.b ∧ Fits (S6.add x.a x.b) (S6.add y.a y.b)
    · rw [if_pos h, if_neg fun t => t.2 ⟨(hf _ _).2 h.1, (hf _ _).2 h.2.1, (hf _ _).2 h.2.2⟩]
    · rw [if_neg h, if_pos ⟨rfl, fun t => h ⟨(hf _ _).1 t.1, (hf _ _).1 t.2.1, (hf _ _).1 t.2.2⟩⟩]

/-- **C75** `Fp12::inverse`: if its products fit, the inverse -/
theorem C75_inverse {x y : R12} (hx : x.SCan) (h0 : x.sden ≠ 0) (h : S12.inverse true x = .ok y) :
    S12.inverse false x = .ok y ∧ y.SCan ∧ y.sden * x.sden = 1 := by
  obtain ⟨h1, h2, h3⟩ := V12.inverse (x := x) ⟨hx, rfl⟩ h0 y h
  exact ⟨h1, h2, by rw [h3]; exact inv_mul_cancel₀ h0⟩

/-- **C75** `mapToCyclo`: if its products fit, the power (p⁶ - 1)(p² + 1), which is in the subgroup of order p⁴ - p² + 1 -/
theorem C75_map_to_cyclo {x y : R12} (hx : x.SCan) (h0 : x.sden ≠ 0) (h : S12.mapToCyclo true x = .ok y) :
    S12.mapToCyclo false x = .ok y ∧ y.SCan ∧ y.sden = x.sden ^ ((p ^ 6 - 1) * (p ^ 2 + 1)) ∧
      y.sden ^ (p ^ 4 - p ^ 2 + 1) = 1 := by
  obtain ⟨h1, h2, h3⟩ := V12.mapToCyclo (x := x) ⟨hx, rfl⟩ h0 y h
  refine ⟨h1, h2, h3, ?_⟩
  rw [h3]; exact V12.easy_cyclo h0

/-- **C75** `pow_neg_t`: on the subgroup of order p⁴ - p² + 1, if its products fit, the power -z -/
theorem C75_pow_neg_t {x y : R12} (hx : x.SCan) (hc : x.sden ^ (p ^ 4 - p ^ 2 + 1) = 1) (h : S12.powNegT true x = .ok y) :
    S12.powNegT false x = .ok y ∧ y.SCan ∧ y.sden = x.sden ^ (-(z : ℤ)) := by
  have := V12.powNegT (f := x.sden) (x := x) (i := 1) hc ⟨hx, (zpow_one _).symm⟩ y h
  rw [one_mul] at this
  exact this

/-- **C75** `final_exp`: if its products fit, one and the same power (p¹² - 1)/r · m for every non-zero x, with m coprime to
r; the result has order dividing r -/
theorem C75_final_exp : ∃ m : ℤ, Int.gcd m r = 1 ∧ ∀ x y : R12, x.SCan → x.sden ≠ 0 → S12.finalExp true x = .ok y →
    S12.finalExp false x = .ok y ∧ y.SCan ∧ y.sden = (x.sden ^ ((p ^ 12 - 1) / r)) ^ m ∧ y.sden ^ r = 1 := by
  refine ⟨V12.mFacS, V12.mFacS_coprime, fun x y hx h0 h => ?_⟩
  obtain ⟨h1, h2, h3⟩ := V12.finalExp (x := x) ⟨hx, rfl⟩ h0 y h
  rw [V12.lamS_eq, zpow_mul, zpow_natCast] at h3
  refine ⟨h1, h2, h3, ?_⟩
  rw [h3, ← zpow_natCast, zpow_comm, zpow_natCast, ← pow_mul, V12.r_dvd, G12.pow_p12_sub h0, one_zpow]

/-- **C75** `mapToCyclo` and `final_exp` are wrong for some canonical x: their results are outside the subgroups that the power
lies in -/
theorem C75_wrong : ∃ x : R12, x.SCan ∧ x.sden ≠ 0 ∧ ∃ f y, S12.mapToCyclo false x = .ok f ∧
    f.sden ≠ x.sden ^ ((p ^ 6 - 1) * (p ^ 2 + 1)) ∧ S12.finalExp false x = .ok y ∧ y.SCan ∧ y.sden ^ r ≠ 1 ∧
    ∀ m : ℤ, y.sden ≠ (x.sden ^ ((p ^ 12 - 1) / r)) ^ m := by
  have h0 : badW.sden ≠ 0 := by
    intro h
    have h1 : badW.a.a.sden = (⟨0, 0⟩ : R2).sden :=
      (congrArg (fun t : G12 => t.a.a) h).trans (G2.ext residue_zero residue_zero).symm
    have := sden_inj badW_can.1.1 (by decide +kernel) h1
    exact absurd this (by decide +kernel)
  obtain ⟨f, y, e1, hf, hu, e2, hy, hv⟩ := badW_final
  have hr : y.sden ^ r ≠ 1 := by
    intro h
    have hc : G12.Cyclo y.sden := by
      unfold G12.Cyclo
      rw [show p ^ 4 - p ^ 2 + 1 = r * ((p ^ 4 - p ^ 2 + 1) / r) by rw [p_eq]; unfold r; norm_num, pow_mul, h, one_pow]
    have := unitW_of hy hc.unit
    rw [hv] at this; cases this
  refine ⟨badW, badW_can, h0, f, y, e1, fun h => ?_, e2, hy, hr, fun m h => hr ?_⟩
  · have := unitW_of hf (by rw [h]; exact (V12.easy_cyclo h0).unit)
    rw [hu] at this; cases this
  · rw [h, ← zpow_natCast, zpow_comm, zpow_natCast, ← pow_mul, V12.r_dvd, G12.pow_p12_sub h0, one_zpow]

/-- a run within the bounds: the hypotheses of C75_final_exp, C75_map_to_cyclo, C75_inverse hold for `goodW` -/
example : goodW.SCan ∧ goodW.sden ≠ 0 ∧ ∃ y, S12.finalExp true goodW = .ok y := by
  refine ⟨goodW_can, fun h => ?_, goodW_final⟩
  have h1 : goodW.a.a.sden = (⟨0, 0⟩ : R2).sden :=
    (congrArg (fun t : G12 => t.a.a) h).trans (G2.ext residue_zero residue_zero).symm
  have := sden_inj goodW_can.1.1 (by decide +kernel) h1
  exact absurd this (by decide +kernel)

/-- the hypotheses of C75_pow_neg_t and C75_sqru hold for the result of `mapToCyclo` on `goodW` -/
example : ∃ x y, S12.mapToCyclo true goodW = .ok x ∧ S12.powNegT true x = .ok y := by
  obtain ⟨f, e1, h⟩ := okAnd_iff goodW_run
  rw [Bool.and_eq_true, decide_eq_true_eq] at h
  obtain ⟨y, e2, -⟩ := okAnd_iff h.2
  rw [← Fast.mapToCyclo_eq] at e1
  rw [← (Fast.agree_hardPart h.1).1] at e2
  unfold S12.hardPart at e2
  cases e : S12.powNegT true f with
  | ok z => exact ⟨f, z, e1, e⟩
  | _ => rw [e] at e2; cases e2

example : S12.frobenius oneW = oneW ∧ oneW.SCan := by
  refine ⟨?_, by decide +kernel⟩
  rw [Fast.frobenius_eq]; decide +kernel

end Verif.Snark
