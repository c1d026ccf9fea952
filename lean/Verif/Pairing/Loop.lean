import Verif.Pairing.Steps
import Verif.Pairing.Twist

/-! The Miller loop computes in the extension of the twist group by the line cocycle. -/

namespace Verif
open Fp Hom Ec

namespace Pairing
open Cocycle

/-- the twist group -/
noncomputable abbrev E' := (curve (2 / F2.xi : F2)).Point

/-! ### The twisted Frobenius -/

theorem fix_aux {K : Type} [Field K] {n : ℕ} (hn : 0 < n) {xi g c : K} (hxi : xi ≠ 0) (hg : g ^ 6 = xi ^ (n - 1))
    (hc : c ^ n = c) : g ^ 6 * (c / xi) ^ n = c / xi := by
  obtain ⟨m, rfl⟩ := Nat.exists_eq_succ_of_ne_zero hn.ne'
  rw [Nat.succ_sub_one] at hg
  rw [hg, div_pow, hc, pow_succ]
  have : xi ^ m ≠ 0 := pow_ne_zero m hxi
  field_simp

theorem two_pow_p : (2 : F2) ^ p = 2 := by
  rw [show (2 : F2) = F2.incl 2 by rw [map_ofNat], ← map_pow, Fe.pow_p]

theorem gam_ne : F2.gam ≠ 0 := by unfold F2.gam; exact pow_ne_zero _ F2.xi_ne

theorem gam6_pow : F2.gam ^ 6 = F2.xi ^ (p - 1) := by rw [F2.gam6, F2.xi_pow_sub]

/-- the p-power endomorphism of the twist -/
noncomputable def frobS : Semi (2 / F2.xi : F2) where
  good := good2
  σ := frobenius F2 p
  g := F2.gam
  g_ne := gam_ne
  fix := by
    rw [frobenius_def]
    exact fix_aux p_pos F2.xi_ne gam6_pow two_pow_p

/-- φ -/
noncomputable def phi : E' →+ E' := frobS.hom

theorem phi_some {x y : F2} (h : (curve (2 / F2.xi : F2)).Nonsingular x y) :
    ∃ h', phi (.some x y h) = .some (frobTwist1 x y).1 (frobTwist1 x y).2 h' := by
  rw [frobTwist1_eq]
  exact ⟨frobS.nons h, rfl⟩

theorem phi2_some {x y : F2} (h : (curve (2 / F2.xi : F2)).Nonsingular x y) :
    ∃ h', phi (phi (.some x y h)) = .some (frobTwist2 x y).1 (frobTwist2 x y).2 h' := by
  rw [frobTwist2_twice]
  obtain ⟨h', e⟩ := phi_some h
  rw [e]
  exact phi_some h'

theorem negphi2_some {x y : F2} (h : (curve (2 / F2.xi : F2)).Nonsingular x y) :
    ∃ h', -phi (phi (.some x y h)) = .some (frobTwist8 x y).1 (frobTwist8 x y).2 h' := by
  obtain ⟨h', e⟩ := phi2_some h
  rw [e]
  have e8 : frobTwist8 x y = ((frobTwist2 x y).1, -(frobTwist2 x y).2) := by
    unfold frobTwist8 frobTwist2; rw [neg_neg]
  rw [e8]
  exact neg_some h'

theorem powp_aux {K L : Type} [Field K] [Field L] (ι : K →+* L) {w : L} {xi g x : K} {n m : ℕ} (hn : 0 < n)
    (hxi : xi ≠ 0) (hg : g ^ 6 = xi ^ (n - 1)) (hw : w ^ n = ι g * w) (hx : x ^ n = x) (hm : m ≤ 6) :
    ι g ^ (6 - m) * (ι (x / xi) * w ^ m) ^ n = ι (x / xi) * w ^ m := by
  obtain ⟨k, rfl⟩ : ∃ k, n = k + 1 := Nat.exists_eq_succ_of_ne_zero hn.ne'
  rw [Nat.add_sub_cancel] at hg
  have e1 : (x / xi) ^ (k + 1) * g ^ 6 = x / xi := by
    rw [hg, div_pow, hx, pow_succ]
    have : xi ^ k ≠ 0 := pow_ne_zero k hxi
    field_simp
  have e2 : (w ^ m) ^ (k + 1) = ι g ^ m * w ^ m := by rw [← pow_mul, mul_comm, pow_mul, hw, mul_pow]
  have e3 : ι g ^ (6 - m) * ι g ^ m = ι g ^ 6 := by rw [← pow_add, Nat.sub_add_cancel hm]
  have e4 := congrArg ι e1
  rw [map_mul, map_pow, map_pow] at e4
  rw [mul_pow, e2]
  linear_combination ι (x / xi) ^ (k + 1) * w ^ m * e3 + w ^ m * e4

theorem ofFe_pow_p (x : Fe) : (F2.ofFe x) ^ p = F2.ofFe x := by
  rw [← F2.incl_apply, ← map_pow, Fe.pow_p]

theorem PX_pow (P : Fe × Fe) : F12.incl F2.gam ^ 2 * PX P ^ p = PX P :=
  powp_aux F12.incl (m := 4) p_pos F2.xi_ne gam6_pow F12.w_pow_p (ofFe_pow_p P.1) (by norm_num)
theorem PY_pow (P : Fe × Fe) : F12.incl F2.gam ^ 3 * PY P ^ p = PY P :=
  powp_aux F12.incl (m := 3) p_pos F2.xi_ne gam6_pow F12.w_pow_p (ofFe_pow_p P.2) (by norm_num)

theorem val_pow (P : Fe × Fe) (l : Lin F2) : F12.incl F2.gam ^ 3 * val P l ^ p =
    val P (F2.gam ^ 3 * l.1 ^ p, l.2.1 ^ p, F2.gam * l.2.2 ^ p) := by
  unfold val evl
  rw [add_pow_char, add_pow_char, mul_pow, mul_pow]
  simp only [map_mul, map_pow]
  linear_combination F12.incl l.2.1 ^ p * PY_pow P + F12.incl F2.gam * F12.incl l.2.2 ^ p * PX_pow P

theorem FE_pow (x : F12) (n : ℕ) : FE (x ^ n) = FE x ^ n := map_pow FE x n

/-- γ(φA, φB) = γ(A, B)^p -/
theorem gamma_phi {P : Fe × Fe} (h : OnE P) (A B : E') : gamma h (phi A) (phi B) = gamma h A B ^ p := by
  apply Units.ext
  rw [Units.val_pow_eq_pow_val, gamma_coe, gamma_coe, ← FE_pow]
  obtain ⟨c, hc, e⟩ := evl_prop3 F12.incl (PX P) (PY P) (frobS.lin_hom A B)
  have e1 : val P (F2.gam ^ 3 * (lin A B).1 ^ p, (lin A B).2.1 ^ p, F2.gam * (lin A B).2.2 ^ p) =
    F12.incl c * val P (lin (phi A) (phi B)) := e
  have e2 := (val_pow P (lin A B)).trans e1
  have e3 := congrArg FE e2
  rw [map_mul, map_mul, FE_const hc, one_mul, FE_pow (F12.incl F2.gam), FE_const gam_ne, one_pow, one_mul] at e3
  exact e3.symm

/-- Π(u, A) = (u^p, φA) -/
noncomputable def Phi {P : Fe × Fe} (h : OnE P) : Ext (coc h) →+ Ext (coc h) where
  toFun x := ⟨x.u ^ p, phi x.A⟩
  map_zero' := Ext.ext (one_pow p) (map_zero phi)
  map_add' x y := Ext.ext (by
    show (x.u * y.u * gamma h x.A y.A) ^ p = x.u ^ p * y.u ^ p * gamma h (phi x.A) (phi y.A)
    rw [gamma_phi, mul_pow, mul_pow]) (map_add phi _ _)

/-- the pair (1, A) -/
noncomputable def one1 {P : Fe × Fe} (h : OnE P) (A : E') : Ext (coc h) := ⟨1, A⟩

theorem Phi_one1 {P : Fe × Fe} (h : OnE P) (A : E') : Phi h (one1 h A) = one1 h (phi A) :=
  Ext.ext (one_pow p) rfl

theorem neg_one1 {P : Fe × Fe} (h : OnE P) (A : E') : -one1 h A = one1 h (-A) := Ext.ext inv_one rfl

/-! ### Loop states -/

open Miller

/-- the loop state (f, T) stands for the element x: T for its point, f up to the final exponentiation for its value -/
structure Rel {P : Fe × Fe} (h : OnE P) (st : F12 × J F2) (x : Ext (coc h)) : Prop where
  pt : RepH (2 / F2.xi) st.2 x.A
  fe : FE st.1 = (x.u : F12)

variable {P : Fe × Fe} (h : OnE P)

theorem Rel.ne {st : F12 × J F2} {x : Ext (coc h)} (r : Rel h st x) : st.1 ≠ 0 := by
  intro h0
  have := r.fe
  rw [h0, map_zero] at this
  exact x.u.ne_zero this.symm

theorem dbl_val {T : J F2} {A : E'} (hT : RepH (2 / F2.xi) T A) :
    FE (dblLineEval T P).1.line = (gamma h A A : F12) ∧ RepH (2 / F2.xi) (dblLineEval T P).2 (A + A) := by
  obtain ⟨h1, l, h2, h3⟩ := dblLine_spec hT
  obtain ⟨k, hk, e⟩ := eval_prop3 (P := P) h2 h3
  refine ⟨?_, h1⟩
  have e2 : (dblLineEval T P).1.line = F12.incl k * val P (lin A A) := e
  rw [e2, map_mul, FE_const hk, one_mul, gamma_coe]

theorem add_val {T : J F2} {A : E'} (hT : RepH (2 / F2.xi) T A) {Q : F2 × F2}
    (hQ : (curve (2 / F2.xi : F2)).Nonsingular Q.1 Q.2) (hA0 : A ≠ 0) (hA : A ≠ .some _ _ hQ) :
    FE (addLineEval T Q P).1.line = (gamma h A (.some _ _ hQ) : F12) ∧
    RepH (2 / F2.xi) (addLineEval T Q P).2 (A + .some _ _ hQ) := by
  obtain ⟨h1, l, h2, h3⟩ := addLine_spec hT hQ hA0 hA
  obtain ⟨k, hk, e⟩ := eval_prop3 (P := P) h2 h3
  refine ⟨?_, h1⟩
  have e2 : (addLineEval T Q P).1.line = F12.incl k * val P (lin A (.some _ _ hQ)) := e
  rw [e2, map_mul, FE_const hk, one_mul, gamma_coe]

theorem rel_dbl {st : F12 × J F2} {x : Ext (coc h)} (r : Rel h st x) :
    Rel h (st.1.square.mul024 (dblLineEval st.2 P).1, (dblLineEval st.2 P).2) (x + x) := by
  obtain ⟨h1, h2⟩ := dbl_val h r.pt
  refine ⟨h2, ?_⟩
  dsimp only
  rw [F12.mul024_eq, F12.square_eq, map_mul, map_mul, h1, r.fe]
  rfl

theorem rel_add {st : F12 × J F2} {x : Ext (coc h)} (r : Rel h st x) {Q : F2 × F2}
    (hQ : (curve (2 / F2.xi : F2)).Nonsingular Q.1 Q.2) (hA0 : x.A ≠ 0) (hA : x.A ≠ .some _ _ hQ) :
    Rel h (st.1.mul024 (addLineEval st.2 Q P).1, (addLineEval st.2 Q P).2) (x + one1 h (.some _ _ hQ)) := by
  obtain ⟨h1, h2⟩ := add_val h r.pt hQ hA0 hA
  refine ⟨h2, ?_⟩
  dsimp only
  rw [F12.mul024_eq, map_mul, h1, r.fe, Ext.add_u]
  show _ = ((x.u * 1 * gamma h x.A _ : F12ˣ) : F12)
  rw [mul_one]; rfl

theorem rel_affine {Q : F2 × F2} (hQ : (curve (2 / F2.xi : F2)).Nonsingular Q.1 Q.2) :
    Rel h (1, ⟨Q.1, Q.2, 1⟩) (one1 h (.some _ _ hQ)) := ⟨repH_affine hQ, map_one FE⟩

theorem FE_negB {f : F12} (hf : f ≠ 0) : FE (negB f) = (FE f)⁻¹ := by
  have h1 : f * negB f ≠ 0 := by
    refine mul_ne_zero hf (fun h0 => hf ?_)
    have e1 : f.a = 0 := congrArg F12.a h0
    have e2 : -f.b = 0 := congrArg F12.b h0
    exact F12.ext e1 (neg_eq_zero.1 e2)
  have h2 : FE (f * negB f) = 1 := by
    refine FE_even h1 ?_
    rw [F12.mul_b]; unfold negB; dsimp only; ring
  rw [map_mul] at h2
  exact eq_inv_of_mul_eq_one_right h2

theorem rel_neg {st : F12 × J F2} {x : Ext (coc h)} (r : Rel h st x) : Rel h (negB st.1, negY st.2) (-x) := by
  refine ⟨repH_neg r.pt, ?_⟩
  dsimp only
  rw [FE_negB r.ne, r.fe, Ext.neg_u, Units.val_inv_eq_inv_val]

open WeierstrassCurve.Affine in
/-- the start of the loop -/
theorem rel_start {Q : F2 × F2} (hQ : (curve (2 / F2.xi : F2)).Nonsingular Q.1 Q.2)
    (h0 : (2 : ℕ) • (Point.some _ _ hQ : E') ≠ 0) :
    Rel h (start Q P) (3 • one1 h (.some _ _ hQ)) := by
  have hB : (Point.some _ _ hQ : E') ≠ 0 := Point.some_ne_zero hQ
  have e3 : 3 • one1 h (.some _ _ hQ) = one1 h (.some _ _ hQ) + one1 h (.some _ _ hQ) + one1 h (.some _ _ hQ) := by
    rw [succ_nsmul, two_nsmul]
  have hx0 : (one1 h (.some _ _ hQ) + one1 h (.some _ _ hQ)).A ≠ 0 := by
    rw [two_nsmul] at h0; exact h0
  have hx1 : (one1 h (.some _ _ hQ) + one1 h (.some _ _ hQ)).A ≠ .some _ _ hQ := by
    intro h1
    exact hB (add_eq_left.1 (h1 : (Point.some _ _ hQ : E') + .some _ _ hQ = .some _ _ hQ))
  obtain ⟨r1, r2⟩ := rel_add h (rel_dbl h (rel_affine h hQ)) hQ hx0 hx1
  rw [e3]
  refine ⟨r1, ?_⟩
  rw [← r2]
  unfold start
  dsimp only
  rw [F12.mul024_024_eq, F12.mul024_eq, F12.mul024_eq, F12.square_eq, one_mul, one_mul]

/-- the multiples of Q that must not vanish for the loop over `tbl` started at n·Q to meet no exceptional addition -/
def conds : ℕ → List ℤ → List ℕ
  | _, [] => []
  | n, s :: t =>
    if s > 0 then 2 * n :: (2 * n - 1) :: conds (2 * n + 1) t
    else if s < 0 then 2 * n :: (2 * n + 1) :: conds (2 * n - 1) t
    else conds (2 * n) t

/-- the multiple reached -/
def endVal : ℕ → List ℤ → ℕ
  | n, [] => n
  | n, s :: t => endVal (if s > 0 then 2 * n + 1 else if s < 0 then 2 * n - 1 else 2 * n) t

open WeierstrassCurve.Affine in
theorem rel_step {Q : F2 × F2} (hQ : (curve (2 / F2.xi : F2)).Nonsingular Q.1 Q.2) {st : F12 × J F2} {n : ℕ}
    (hn : 0 < n) (r : Rel h st (n • one1 h (.some _ _ hQ))) (s : ℤ) (t : List ℤ)
    (hc : ∀ m ∈ conds n (s :: t), m • (Point.some _ _ hQ : E') ≠ 0) :
    Rel h (step Q (Q.1, -Q.2) P st s)
      ((if s > 0 then 2 * n + 1 else if s < 0 then 2 * n - 1 else 2 * n) • one1 h (.some _ _ hQ)) := by
  have rd := rel_dbl h r
  have e2 : n • one1 h (.some _ _ hQ) + n • one1 h (.some _ _ hQ) = (2 * n) • one1 h (.some _ _ hQ) := by
    rw [← add_nsmul, two_mul]
  rw [e2] at rd
  have hA : ((2 * n) • one1 h (.some _ _ hQ)).A = (2 * n) • (Point.some _ _ hQ : E') := Ext.nsmul_A _ _
  unfold step
  dsimp only
  unfold conds at hc
  by_cases hs : s > 0
  · rw [if_pos hs, if_pos hs]
    rw [if_pos hs] at hc
    have c1 := hc (2 * n) (by simp)
    have c2 := hc (2 * n - 1) (by simp)
    have := rel_add h rd hQ (by rw [hA]; exact c1) (by
      rw [hA]
      intro h0
      have e : 2 * n = (2 * n - 1) + 1 := by omega
      rw [e, succ_nsmul] at h0
      exact c2 (by simpa using h0))
    rw [← succ_nsmul] at this
    exact this
  · rw [if_neg hs, if_neg hs]
    rw [if_neg hs] at hc
    by_cases hs' : s < 0
    · rw [if_pos hs', if_pos hs']
      rw [if_pos hs'] at hc
      have c1 := hc (2 * n) (by simp)
      have c2 := hc (2 * n + 1) (by simp)
      obtain ⟨h', en⟩ := neg_some hQ
      have := rel_add h (Q := (Q.1, -Q.2)) rd h' (by rw [hA]; exact c1) (by
        rw [hA, ← en]
        intro h0
        rw [succ_nsmul, h0] at c2
        exact c2 (neg_add_cancel _))
      rw [show (Point.some (Q.1, -Q.2).1 (Q.1, -Q.2).2 h' : E') = -.some _ _ hQ from en.symm, ← neg_one1] at this
      have e : (2 * n) • one1 h (.some _ _ hQ) + -one1 h (.some _ _ hQ) = (2 * n - 1) • one1 h (.some _ _ hQ) := by
        have e1 : 2 * n = (2 * n - 1) + 1 := by omega
        conv_lhs => rw [e1, succ_nsmul]
        exact add_neg_cancel_right _ _
      rw [e] at this
      exact this
    · rw [if_neg hs', if_neg hs']
      exact rd

open WeierstrassCurve.Affine in
theorem rel_loop {Q : F2 × F2} (hQ : (curve (2 / F2.xi : F2)).Nonsingular Q.1 Q.2) (tbl : List ℤ) :
    ∀ (st : F12 × J F2) (n : ℕ), 0 < n → Rel h st (n • one1 h (.some _ _ hQ)) →
      (∀ m ∈ conds n tbl, m • (Point.some _ _ hQ : E') ≠ 0) →
      Rel h (tbl.foldl (step Q (Q.1, -Q.2) P) st) (endVal n tbl • one1 h (.some _ _ hQ)) := by
  induction tbl with
  | nil => intro st n _ r _; exact r
  | cons s t ih =>
    intro st n hn r hc
    have r2 := rel_step h hQ hn r s t hc
    refine ih _ _ ?_ r2 ?_
    · split_ifs <;> omega
    · intro m hm
      refine hc m ?_
      unfold conds
      split_ifs with h1 h2
      · rw [if_pos h1] at hm; exact List.mem_cons_of_mem _ (List.mem_cons_of_mem _ hm)
      · rw [if_neg h1, if_pos h2] at hm; exact List.mem_cons_of_mem _ (List.mem_cons_of_mem _ hm)
      · rw [if_neg h1, if_neg h2] at hm; exact hm

open WeierstrassCurve.Affine in
/-- the last two addition steps and the multiplication into f -/
theorem rel_finish {Q : F2 × F2} (hQ : (curve (2 / F2.xi : F2)).Nonsingular Q.1 Q.2) {st : F12 × J F2}
    {x : Ext (coc h)} (r : Rel h st x) (h1 : x.A ≠ 0) (h2 : -x.A ≠ phi (.some _ _ hQ))
    (h3 : -x.A + phi (.some _ _ hQ) ≠ 0)
    (h4 : -x.A + phi (.some _ _ hQ) ≠ -phi (phi (.some _ _ hQ))) :
    FE (finish Q P st) =
      ((-x + one1 h (phi (.some _ _ hQ)) - one1 h (phi (phi (.some _ _ hQ)))).u : F12) := by
  obtain ⟨k1, e1⟩ := phi_some hQ
  obtain ⟨k2, e2⟩ := negphi2_some hQ
  have rn := rel_neg h r
  have r1 := rel_add h rn k1 (by rw [Ext.neg_A]; exact neg_ne_zero.2 h1) (by
    rw [Ext.neg_A, ← e1]; exact h2)
  rw [← e1] at r1
  have r2 := rel_add h r1 k2 (by rw [Ext.add_A, Ext.neg_A]; exact h3) (by
    rw [Ext.add_A, Ext.neg_A, ← e2]; exact h4)
  rw [← e2, ← neg_one1, ← sub_eq_add_neg] at r2
  rw [← r2.fe]
  unfold finish
  dsimp only
  rw [F12.mul024_024_eq, F12.mul024_eq, F12.mul024_eq, mul_assoc]

end Pairing
end Verif
