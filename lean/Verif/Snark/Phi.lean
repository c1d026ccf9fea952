import Verif.Snark.Gamma
import Verif.Snark.Miller

/-! SNARK build: the steps of the Miller loop on buffers against the extension of the twist group by the line cocycle. -/

namespace Verif.Snark

open Verif.Hom Verif.Ec

namespace Pr
open Cocycle Abs Abs.Setup

/-- S is the pairing data of curve c -/
structure Is (c : Curve) (S : Setup (ZMod p) G2 G12) : Prop where
  j : S.j = G2.incl
  ι : S.ι = G12.incl
  w : S.w = G12.w
  xi : S.xi = G2.xi
  tw : S.tw = c.twist
  g : S.g = G2.gam
  q : S.q = p
  FE : S.FE = FE
  r : S.r = r
  s : S.s = sN
  b : S.b = (c.b : ZMod p)

theorem is_setup (c : Curve) : Is c (setup c) := ⟨rfl, rfl, rfl, rfl, rfl, rfl, rfl, rfl, rfl, rfl, rfl⟩

variable {c : Curve} {S : Setup (ZMod p) G2 G12}

/-! ### Loop states -/

/-- a point of the curve over Fp in two buffers -/
structure VP (P : ZMod p × ZMod p) (b : ℕ × ℕ) : Prop where
  x : b.1 < p
  y : b.2 < p
  ex : residue b.1 = P.1
  ey : residue b.2 = P.2

/-- the configuration of the generated code fits the curve -/
structure Fit (c : Curve) (g : Cfg) : Prop where
  can : g.binv.SCan
  fac : G2.xi * beta g.b82 g.binv = (c.b : G2)

structure VT (S : Setup (ZMod p) G2 G12) (T : T3) (A : S.E') : Prop where
  x : T.x.SCan
  y : T.y.SCan
  z : T.z.SCan
  pt : RepH S.tw (triple T.x T.y T.z) A

/-- the loop state (f, T) stands for the element x: T for its point, f up to the final exponentiation for its value -/
structure Rel {P : ZMod p × ZMod p} (h : S.OnE P) (st : R12 × T3) (x : Ext (coc h)) : Prop where
  can : st.1.SCan
  tr : VT S st.2 x.A
  fe : S.FE st.1.sden = (x.u : G12)

variable {P : ZMod p × ZMod p} (h : S.OnE P)

theorem line_mk6 (x : G6) : x.line = G12.mk6 x.a 0 0 x.b x.c 0 := by unfold G6.line G12.mk6; rfl

theorem line_mk (a b c : R2) : (R6.mk a b c).sden.line = G12.mk6 a.sden 0 0 b.sden c.sden 0 := line_mk6 _

theorem incl_mk (x : ZMod p) : (⟨x, 0⟩ : G2) = G2.incl x := rfl

theorem mulFp_mk6 {l : R6} (ha : l.a.SCan) (hb : l.b.SCan) (hc : l.c.SLt3) {b : ℕ × ℕ} (hP : VP P b) :
    (mulFp6_24_Fp_01 l b.1 b.2).SCan ∧ (mulFp6_24_Fp_01 l b.1 b.2).sden.line =
      G12.mk6 l.a.sden 0 0 (l.b.sden * G2.incl P.2) (l.c.sden * G2.incl P.1) 0 := by
  obtain ⟨c1, d1⟩ := S2.mulFp0_wide hb.lt3 hP.y
  obtain ⟨c2, d2⟩ := S2.mulFp0_wide hc hP.x
  rw [hP.ey] at d1
  rw [hP.ex] at d2
  unfold mulFp6_24_Fp_01
  refine ⟨⟨ha, c1, c2⟩, ?_⟩
  rw [line_mk, d1, d2, incl_mk, incl_mk]

theorem val_mk6 (hS : Is c S) (P : ZMod p × ZMod p) (l : Lin G2) : S.ι S.xi * S.val P l =
    G12.mk6 (G2.xi * l.1) 0 0 (l.2.1 * G2.incl P.2) (l.2.2 * G2.incl P.1) 0 := by
  rw [val_eq, hS.ι, hS.xi, hS.j, hS.w, G12.mk6_eq]
  have k : ∀ u v : G2, G2.xi * (u * (v / G2.xi)) = u * v := fun u v => by
    have := xi_ne
    field_simp
  rw [mul_add, mul_add, ← mul_assoc, ← mul_assoc, ← map_mul, ← map_mul, ← map_mul, k, k, map_zero, zero_mul, zero_mul, zero_mul,
    add_zero, add_zero, add_zero]

/-- the value multiplied into f -/
theorem line_prop3 (hS : Is c S) {l : R6} {m : Lin G2} (ha : l.a.SCan) (hb : l.b.SCan) (hc : l.c.SLt3)
    (hl : Prop3 (l.a.sden / G2.xi, l.b.sden, l.c.sden) m) {b : ℕ × ℕ} (hP : VP P b) :
    (mulFp6_24_Fp_01 l b.1 b.2).SCan ∧ FE (mulFp6_24_Fp_01 l b.1 b.2).sden.line = S.FE (S.val P m) := by
  obtain ⟨c1, d1⟩ := mulFp_mk6 ha hb hc hP
  refine ⟨c1, ?_⟩
  obtain ⟨d, hd, e⟩ := evl_prop3 S.ι (S.PX P) (S.PY P) hl
  have e' : S.val P (l.a.sden / G2.xi, l.b.sden, l.c.sden) = S.ι d * S.val P m := e
  have e2 := val_mk6 hS P (l.a.sden / G2.xi, l.b.sden, l.c.sden)
  dsimp only at e2
  rw [mul_div_cancel₀ _ xi_ne, ← d1, e'] at e2
  rw [← hS.FE, ← e2, map_mul, map_mul, FE_const hd, FE_const S.xi_ne, one_mul, one_mul]

theorem dbl_group' {tw : G2} (ht : tw = c.twist) {binv X Y Z : R2} (hv : binv.SCan) (hX : X.SCan) (hY : Y.SCan) (hZ : Z.SCan)
    {b82 : Bool} (hb : G2.xi * beta b82 binv = (c.b : G2)) {A : (curve tw).Point}
    (hA : RepH tw (triple X Y Z) A) :
    ∃ e, pointDblLineEvalWithoutP b82 binv X Y Z = .ok e ∧ (e.l.a.SCan ∧ e.l.b.SCan ∧ e.l.c.SLt3) ∧
      (e.x.SCan ∧ e.y.SCan ∧ e.z.SCan) ∧ RepH tw (triple e.x e.y e.z) (A + A) ∧
      Prop3 (e.l.a.sden / G2.xi, e.l.b.sden, e.l.c.sden) (lin A A) := by
  subst ht; exact dbl_group c hv hX hY hZ hb hA

theorem add_group' {tw : G2} (ht : tw = c.twist) {X Y Z QX QY : R2} (hX : X.SCan) (hY : Y.SCan) (hZ : Z.SCan)
    (hQX : QX.SCan) (hQY : QY.SCan) {A : (curve tw).Point} (hA : RepH tw (triple X Y Z) A)
    (hQ : (curve tw).Nonsingular QX.sden QY.sden) (hA0 : A ≠ 0) (hne : A ≠ .some _ _ hQ) :
    ∃ e, pointAddLineEvalWithoutP X Y Z QX QY = .ok e ∧ (e.l.a.SCan ∧ e.l.b.SCan ∧ e.l.c.SCan) ∧
      (e.x.SCan ∧ e.y.SCan ∧ e.z.SCan) ∧ RepH tw (triple e.x e.y e.z) (A + .some _ _ hQ) ∧
      Prop3 (e.l.a.sden / G2.xi, e.l.b.sden, e.l.c.sden) (lin A (.some _ _ hQ)) := by
  subst ht; exact add_group c hX hY hZ hQX hQY hA hQ hA0 hne

theorem dbl_val (hS : Is c S) {g : Cfg} (hg : Fit c g) {b : ℕ × ℕ} (hP : VP P b) {T : T3} {A : S.E'} (hT : VT S T A) :
    ∃ e, pointDblLineEval g.b82 g.binv T.x T.y T.z b.1 b.2 = .ok e ∧ e.l.SCan ∧ VT S ⟨e.x, e.y, e.z⟩ (A + A) ∧
      S.FE e.l.sden.line = (gamma h A A : G12) := by
  obtain ⟨e, h1, ⟨a1, a2, a3⟩, ⟨b1, b2, b3⟩, h4, h5⟩ := dbl_group' hS.tw hg.can hT.x hT.y hT.z hg.fac hT.pt
  obtain ⟨k1, k2⟩ := line_prop3 hS a1 a2 a3 h5 hP
  refine ⟨{ e with l := mulFp6_24_Fp_01 e.l b.1 b.2 }, by unfold pointDblLineEval; rw [h1, Res.bind_ok]; rfl, k1,
    ⟨b1, b2, b3, h4⟩, ?_⟩
  rw [gamma_coe, ← k2, hS.FE]

theorem add_val (hS : Is c S) {b : ℕ × ℕ} (hP : VP P b) {T : T3} {A : S.E'} (hT : VT S T A) {q1 q2 : G2} {Q : R2 × R2}
    (hq1 : V2 q1 Q.1) (hq2 : V2 q2 Q.2) (hQ : (curve S.tw).Nonsingular q1 q2) (hA0 : A ≠ 0)
    (hA : A ≠ .some _ _ hQ) :
    ∃ e, pointAddLineEval T.x T.y T.z Q.1 Q.2 b.1 b.2 = .ok e ∧ e.l.SCan ∧
      VT S ⟨e.x, e.y, e.z⟩ (A + .some _ _ hQ) ∧ S.FE e.l.sden.line = (gamma h A (.some _ _ hQ) : G12) := by
  obtain ⟨s1, rfl⟩ := hq1
  obtain ⟨s2, rfl⟩ := hq2
  obtain ⟨e, h1, ⟨a1, a2, a3⟩, ⟨b1, b2, b3⟩, h4, h5⟩ := add_group' hS.tw hT.x hT.y hT.z s1 s2 hT.pt hQ hA0 hA
  obtain ⟨k1, k2⟩ := line_prop3 hS a1 a2 a3.lt3 h5 hP
  refine ⟨{ e with l := mulFp6_24_Fp_01 e.l b.1 b.2 }, by unfold pointAddLineEval; rw [h1, Res.bind_ok]; rfl, k1,
    ⟨b1, b2, b3, h4⟩, ?_⟩
  rw [gamma_coe, ← k2, hS.FE]

theorem rel_dbl (hS : Is c S) {g : Cfg} (hg : Fit c g) {b : ℕ × ℕ} (hP : VP P b) {st : R12 × T3} {x : Ext (coc h)} (r : Rel h st x) :
    Spec (fun k => stepDbl k g b st) (fun st' => Rel h st' (x + x)) := by
  unfold stepDbl
  refine Spec.bind (Spec.const (dbl_val h hS hg hP r.tr)) fun e ⟨h1, h2, h3⟩ => ?_
  refine Spec.bind (V12.squareK ⟨r.can, rfl⟩) fun f hf => Spec.pure ?_
  obtain ⟨k1, k2⟩ := S12.mul024_den hf.1 h1
  refine ⟨k1, h2, ?_⟩
  dsimp only
  rw [k2, hf.2, map_mul, map_mul, h3, r.fe, dbl_u, Units.val_mul, Units.val_mul]

theorem rel_add (hS : Is c S) {b : ℕ × ℕ} (hP : VP P b) {st : R12 × T3} {x : Ext (coc h)} (r : Rel h st x) {q1 q2 : G2}
    {X Y : R2} (hq1 : V2 q1 X) (hq2 : V2 q2 Y) (hQ : (curve S.tw).Nonsingular q1 q2) (hA0 : x.A ≠ 0)
    (hA : x.A ≠ .some _ _ hQ) : ∃ st', stepAdd (X, Y) b st = .ok st' ∧ Rel h st' (x + one1 h (.some _ _ hQ)) := by
  obtain ⟨e, h0, h1, h2, h3⟩ := add_val h hS hP r.tr (Q := (X, Y)) hq1 hq2 hQ hA0 hA
  obtain ⟨k1, k2⟩ := S12.mul024_den r.can h1
  refine ⟨(S12.mul024 st.1 e.l, ⟨e.x, e.y, e.z⟩), by unfold stepAdd; rw [h0, Res.bind_ok]; rfl, k1, h2, ?_⟩
  dsimp only
  rw [k2, map_mul, h3, r.fe, add_one1_u, Units.val_mul]

theorem VT_affine {q1 q2 : G2} {Q : R2 × R2} (hq1 : V2 q1 Q.1) (hq2 : V2 q2 Q.2)
    (hQ : (curve S.tw).Nonsingular q1 q2) : VT S ⟨Q.1, Q.2, ⟨montR, 0⟩⟩ (.some _ _ hQ) := by
  refine ⟨hq1.1, hq2.1, (by decide +kernel : (⟨montR, 0⟩ : R2).SCan), ?_⟩
  unfold triple
  dsimp only
  rw [hq1.2, hq2.2, one_sden]
  exact repH_affine hQ

open WeierstrassCurve.Affine in
/-- the start of the loop -/
theorem rel_start (hS : Is c S) {g : Cfg} (hg : Fit c g) {b : ℕ × ℕ} (hP : VP P b) {q1 q2 : G2} {Q : R2 × R2}
    (hq1 : V2 q1 Q.1) (hq2 : V2 q2 Q.2) (hQ : (curve S.tw).Nonsingular q1 q2)
    (h0 : (2 : ℕ) • (Point.some _ _ hQ : S.E') ≠ 0) :
    ∃ st, start g Q b = .ok st ∧ Rel h st (3 • one1 h (.some _ _ hQ)) := by
  have hB : (Point.some _ _ hQ : S.E') ≠ 0 := Point.some_ne_zero hQ
  have e3 : 3 • one1 h (.some _ _ hQ) = one1 h (.some _ _ hQ) + one1 h (.some _ _ hQ) + one1 h (.some _ _ hQ) := by
    rw [succ_nsmul, two_nsmul]
  obtain ⟨d, e1, h1, h2, h3⟩ := dbl_val h hS hg hP (VT_affine hq1 hq2 hQ)
  obtain ⟨e, f1, f2, f3, f4⟩ := add_val h hS hP h2 hq1 hq2 hQ (by rw [two_nsmul] at h0; exact h0) (by
    intro h1
    exact hB (add_eq_left.1 (h1 : (Point.some _ _ hQ : S.E') + .some _ _ hQ = .some _ _ hQ)))
  obtain ⟨k1, k2⟩ := S12.mul024_024_den h1 f2
  dsimp only at e1 f1
  refine ⟨_, by unfold start; rw [e1, Res.bind_ok, f1, Res.bind_ok]; rfl, ?_⟩
  rw [e3]
  refine ⟨k1, f3, ?_⟩
  dsimp only
  rw [k2, map_mul, h3, f4, add_one1_u, add_one1_u, one1_u, one_mul, Units.val_mul]
  rfl

open Pairing (conds endVal)

open WeierstrassCurve.Affine in
theorem rel_plus (hS : Is c S) {b : ℕ × ℕ} (hP : VP P b) {q1 q2 : G2} {Q : R2 × R2}
    (hq1 : V2 q1 Q.1) (hq2 : V2 q2 Q.2) (hQ : (curve S.tw).Nonsingular q1 q2) {st : R12 × T3} {n : ℕ}
    (hn : 0 < n) (rd : Rel h st ((2 * n) • one1 h (.some _ _ hQ)))
    (c1 : (2 * n) • (Point.some _ _ hQ : S.E') ≠ 0) (c2 : (2 * n - 1) • (Point.some _ _ hQ : S.E') ≠ 0) :
    ∃ st', stepAdd Q b st = .ok st' ∧ Rel h st' ((2 * n + 1) • one1 h (.some _ _ hQ)) := by
  rw [← one1_succ]
  refine rel_add h hS hP rd hq1 hq2 hQ ?_ ?_
  · rw [one1_nsmul_A]; exact c1
  · rw [one1_nsmul_A]; exact ne_self' _ hn c2

open WeierstrassCurve.Affine in
theorem neg_pt {tw q1 q2 : G2} {Q : R2} (hq2 : V2 q2 Q) (hQ : (curve tw).Nonsingular q1 q2) :
    ∃ (y : G2) (h' : (curve tw).Nonsingular q1 y), -(Point.some _ _ hQ : (curve tw).Point) = .some _ _ h' ∧
      V2 y (S2.neg Q) := by
  obtain ⟨h', en⟩ := neg_some hQ
  exact ⟨_, h', en, hq2.neg⟩

theorem rel_minus' (hS : Is c S) {b : ℕ × ℕ} (hP : VP P b) {q1 y : G2} {X Y : R2}
    (hq1 : V2 q1 X) (hy : V2 y Y) (h' : (curve S.tw).Nonsingular q1 y) {B : S.E'} (en : -B = .some _ _ h')
    {st : R12 × T3} {n : ℕ} (hn : 0 < n) (rd : Rel h st ((2 * n) • one1 h B))
    (c1 : (2 * n) • B ≠ 0) (c2 : (2 * n + 1) • B ≠ 0) :
    ∃ st', stepAdd (X, Y) b st = .ok st' ∧ Rel h st' ((2 * n - 1) • one1 h B) := by
  rw [← one1_pred h en hn]
  refine rel_add h hS hP rd hq1 hy h' ?_ ?_
  · rw [one1_nsmul_A]; exact c1
  · rw [one1_nsmul_A]; exact ne_of_neg en c2

open WeierstrassCurve.Affine in
theorem rel_minus (hS : Is c S) {b : ℕ × ℕ} (hP : VP P b) {q1 q2 : G2} {Q : R2 × R2}
    (hq1 : V2 q1 Q.1) (hq2 : V2 q2 Q.2) (hQ : (curve S.tw).Nonsingular q1 q2) {st : R12 × T3} {n : ℕ}
    (hn : 0 < n) (rd : Rel h st ((2 * n) • one1 h (.some _ _ hQ)))
    (c1 : (2 * n) • (Point.some _ _ hQ : S.E') ≠ 0) (c2 : (2 * n + 1) • (Point.some _ _ hQ : S.E') ≠ 0) :
    ∃ st', stepAdd (Q.1, S2.neg Q.2) b st = .ok st' ∧ Rel h st' ((2 * n - 1) • one1 h (.some _ _ hQ)) := by
  obtain ⟨y, h', en, hy⟩ := neg_pt hq2 hQ
  exact rel_minus' h hS hP hq1 hy h' en hn rd c1 c2

open WeierstrassCurve.Affine in
theorem rel_digit (hS : Is c S) {b : ℕ × ℕ} (hP : VP P b) {q1 q2 : G2} {Q : R2 × R2}
    (hq1 : V2 q1 Q.1) (hq2 : V2 q2 Q.2) (hQ : (curve S.tw).Nonsingular q1 q2) {st : R12 × T3} {n : ℕ}
    (hn : 0 < n) (rd : Rel h st ((2 * n) • one1 h (.some _ _ hQ))) (s : ℤ) (t : List ℤ)
    (hc : ∀ m ∈ conds n (s :: t), m • (Point.some _ _ hQ : S.E') ≠ 0) :
    ∃ st', stepDigit Q b s st = .ok st' ∧ Rel h st'
      ((if s > 0 then 2 * n + 1 else if s < 0 then 2 * n - 1 else 2 * n) • one1 h (.some _ _ hQ)) := by
  unfold stepDigit
  unfold conds at hc
  by_cases hs : s > 0
  · rw [if_pos hs, if_pos hs]
    rw [if_pos hs] at hc
    exact rel_plus h hS hP hq1 hq2 hQ hn rd (hc (2 * n) (by simp)) (hc (2 * n - 1) (by simp))
  · rw [if_neg hs, if_neg hs]
    rw [if_neg hs] at hc
    by_cases hs' : s < 0
    · rw [if_pos hs', if_pos hs']
      rw [if_pos hs'] at hc
      exact rel_minus h hS hP hq1 hq2 hQ hn rd (hc (2 * n) (by simp)) (hc (2 * n + 1) (by simp))
    · rw [if_neg hs', if_neg hs']
      exact ⟨_, rfl, rd⟩

open WeierstrassCurve.Affine in
theorem rel_loop (hS : Is c S) {g : Cfg} (hg : Fit c g) {b : ℕ × ℕ} (hP : VP P b) {q1 q2 : G2} {Q : R2 × R2}
    (hq1 : V2 q1 Q.1) (hq2 : V2 q2 Q.2) (hQ : (curve S.tw).Nonsingular q1 q2) (tbl : List ℤ) :
    ∀ (st : R12 × T3) (n : ℕ), 0 < n → Rel h st (n • one1 h (.some _ _ hQ)) →
      (∀ m ∈ conds n tbl, m • (Point.some _ _ hQ : S.E') ≠ 0) →
      Spec (fun k => millerLoop k g Q b tbl st) (fun st' => Rel h st' (endVal n tbl • one1 h (.some _ _ hQ))) := by
  induction tbl with
  | nil => intro st n _ r _; exact Spec.pure r
  | cons s t ih =>
    intro st n hn r hc
    unfold millerLoop
    have rd := rel_dbl h hS hg hP r
    rw [← add_nsmul, ← two_mul] at rd
    refine Spec.bind rd fun st1 r1 => ?_
    refine Spec.bind (Spec.const (rel_digit h hS hP hq1 hq2 hQ hn r1 s t hc)) fun st2 r2 => ?_
    refine ih _ _ ?_ r2 ?_
    · split_ifs <;> omega
    · intro m hm
      refine hc m ?_
      unfold conds
      split_ifs with h1 h2
      · rw [if_pos h1] at hm; exact List.mem_cons_of_mem _ (List.mem_cons_of_mem _ hm)
      · rw [if_neg h1, if_pos h2] at hm; exact List.mem_cons_of_mem _ (List.mem_cons_of_mem _ hm)
      · rw [if_neg h1, if_neg h2] at hm; exact hm

theorem frob1_val {q1 q2 : G2} {Q : R2 × R2} (hq1 : V2 q1 Q.1) (hq2 : V2 q2 Q.2) :
    V2 (G2.gam ^ 2 * q1.conj) (frobTwist1 Q).1 ∧ V2 (G2.gam ^ 3 * q2.conj) (frobTwist1 Q).2 := by
  rw [mul_comm, mul_comm (G2.gam ^ 3)]
  exact ⟨hq1.cj.mul (gammar_val 1), hq2.cj.mul (gammar_val 2)⟩

open WeierstrassCurve.Affine in
/-- buffers of φ(Q) -/
theorem frob1_pt (hS : Is c S) {q1 q2 : G2} {Q : R2 × R2} (hq1 : V2 q1 Q.1) (hq2 : V2 q2 Q.2)
    (hQ : (curve S.tw).Nonsingular q1 q2) : ∃ (x y : G2) (h' : (curve S.tw).Nonsingular x y),
      S.phi (.some _ _ hQ) = .some x y h' ∧ V2 x (frobTwist1 Q).1 ∧ V2 y (frobTwist1 Q).2 := by
  obtain ⟨h', e⟩ := phi_some hQ
  obtain ⟨v1, v2⟩ := frob1_val hq1 hq2
  refine ⟨_, _, h', e, ?_, ?_⟩
  · rw [hS.g, hS.q, G2.pow_p]; exact v1
  · rw [hS.g, hS.q, G2.pow_p]; exact v2

open WeierstrassCurve.Affine in
/-- the last two addition steps and the multiplication into f -/
theorem rel_finish (hS : Is c S) {b : ℕ × ℕ} (hP : VP P b) {q1 q2 : G2} {Q : R2 × R2}
    (hq1 : V2 q1 Q.1) (hq2 : V2 q2 Q.2) (hQ : (curve S.tw).Nonsingular q1 q2) {st : R12 × T3}
    {x : Ext (coc h)} (r : Rel h st x) (h1 : x.A ≠ 0) (h2 : x.A ≠ S.phi (.some _ _ hQ))
    (h3 : x.A + S.phi (.some _ _ hQ) ≠ 0)
    (h4 : x.A + S.phi (.some _ _ hQ) ≠ -S.phi (S.phi (.some _ _ hQ))) :
    Spec (fun k => finish k Q b st) (fun y => y.SCan ∧ S.FE y.sden =
      ((x + one1 h (S.phi (.some _ _ hQ)) - one1 h (S.phi (S.phi (.some _ _ hQ)))).u : G12)) := by
  obtain ⟨x1, y1, k1, e1, v1, v2⟩ := frob1_pt hS hq1 hq2 hQ
  rw [e1] at h2 h3 h4 ⊢
  obtain ⟨x2, y2, k2, e2, w1, w2⟩ := frob1_pt hS v1 v2 k1
  obtain ⟨k3, e3⟩ := neg_some k2
  rw [e2, e3] at h4
  rw [e2]
  unfold finish
  refine Spec.bind (Spec.const (add_val h hS hP r.tr v1 v2 k1 h1 h2)) fun d ⟨a1, a2, a3⟩ => ?_
  refine Spec.bind (Spec.const (add_val h hS hP a2 (Q := ((frobTwist1 (frobTwist1 Q)).1, S2.neg (frobTwist1 (frobTwist1 Q)).2))
    w1 w2.neg k3 h3 h4)) fun e ⟨b1, b2, b3⟩ => ?_
  obtain ⟨m1, m2⟩ := S12.mul024_024_den a1 b1
  refine (V12.mulK ⟨r.can, rfl⟩ ⟨m1, rfl⟩).mono fun y hy => ⟨hy.1, ?_⟩
  rw [hy.2, m2, map_mul, map_mul, a3, b3, r.fe, sub_eq_add_neg, neg_one1, e3, add_one1_u, add_one1_u, add_one1_A,
    Units.val_mul, Units.val_mul, mul_assoc]

end Pr
end Verif.Snark
