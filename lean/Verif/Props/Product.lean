import Verif.Props.Pairing
import Verif.Props.SnarkComp
import Verif.Snark.ProdRun

/-!
Property theorems C82: one final exponentiation for the product of any number of Miller loops.
-/

namespace Verif
open Fp Ec Pairing Miller

/-- `f = 1` (or f from before), then for each pair of points `precomputeG2(coeff, preQ, Q)` (bn.h:2997), `NormalizeJac(preP, P)`,
`millerLoop(t, coeff, preP)` (bn.h:3060), `f *= t`, and in the end `f.final_exp()` (bn.h:1776); `none` is a read past the end of `coeff` -/
def prodPairing (f : F12) : List (J F2 × J Fe) → Option F12
  | [] => some f.finalExp
  | x :: l => do
    let t ← millerLoop Param.siTbl (precomputeG2 Param.siTbl x.1).1 ((normalizeJac x.2).x, (normalizeJac x.2).y)
    prodPairing (f * t) l

theorem prod_aux (l : List (J F2 × J Fe)) : ∀ f : F12, (∀ x ∈ l, isValid2 x.1 = true ∧ isInf x.1 = false ∧ isValid1 x.2 = true ∧
    isInf x.2 = false) → prodPairing f l = some (f.finalExp * (l.map fun x => optAte x.1 x.2).prod) := by
  induction l with
  | nil => intro f _; rw [List.map_nil, List.prod_nil, mul_one]; rfl
  | cons x l ih =>
    intro f h
    obtain ⟨h1, h2, h3, h4⟩ := h x List.mem_cons_self
    obtain ⟨t, t1, t2, -⟩ := C46_precomputed h1 (fun e => by rw [isInf, (LawfulFF.isZero_iff _).2 e] at h2; cases h2) h3
      (fun e => by rw [isInf, (LawfulFF.isZero_iff _).2 e] at h4; cases h4)
    rw [prodPairing, t1]
    show prodPairing (f * t) l = _
    rw [ih _ fun y hy => h y (List.mem_cons_of_mem _ hy), fe_mul, t2, List.map_cons, List.prod_cons, mul_assoc]

/-- **C82** default build: for every list of pairs of points of the two curves, none at infinity, in any coordinates, the Miller
loops multiplied and one final exponentiation give the product of the pairings. -/
theorem C82_product (l : List (J F2 × J Fe)) (h : ∀ x ∈ l, isValid2 x.1 = true ∧ isInf x.1 = false ∧ isValid1 x.2 = true ∧
    isInf x.2 = false) : prodPairing 1 l = some (l.map fun x => optAte x.1 x.2).prod := by
  rw [prod_aux l 1 h]
  have : (1 : F12).finalExp = 1 := by rw [← FE_apply]; exact map_one FE
  rw [this, one_mul]

theorem dvd_of_smul {G : Type} [AddCommGroup G] {B : G} (hB : B ≠ 0) (hr : r • B = 0) {n : ℕ} (h : n • B = 0) : r ∣ n := by
  have := Fact.mk r_prime
  rw [← addOrderOf_eq_prime hr hB]
  exact addOrderOf_dvd_of_nsmul_eq_zero h

/-- **C82** default build, pairing equations: for points aᵢ·g2 and bᵢ·g1, none at infinity, the test of the product against 1 is the
test of ∑ aᵢ bᵢ = 0 mod r. -/
theorem C82_equation (l : List (List ℕ × List ℕ)) (hw : ∀ x ∈ l, WF x.1 ∧ WF x.2) (h0 : ∀ x ∈ l, ¬ r ∣ val x.1 ∧ ¬ r ∣ val x.2) :
    prodPairing 1 (l.map fun x => (scalarMult g2 x.1, scalarMult g1 x.2)) = some 1 ↔ r ∣ (l.map fun x => val x.1 * val x.2).sum := by
  obtain ⟨A, B, hA, hB, h1, h2, h3, h4, -⟩ := g_points
  rw [C82_product, List.map_map]
  · have : ∀ l : List (List ℕ × List ℕ), (∀ x ∈ l, WF x.1 ∧ WF x.2) →
        (l.map ((fun x => optAte x.1 x.2) ∘ fun x => (scalarMult g2 x.1, scalarMult g1 x.2))).prod =
          optAte g2 g1 ^ (l.map fun x => val x.1 * val x.2).sum := by
      intro l
      induction l with
      | nil => intro _; rfl
      | cons x l ih =>
        intro hw
        obtain ⟨w1, w2⟩ := hw x List.mem_cons_self
        rw [List.map_cons, List.map_cons, List.prod_cons, List.sum_cons, pow_add, ih fun y hy => hw y (List.mem_cons_of_mem _ hy)]
        dsimp only [Function.comp]
        rw [C49_bilinear g2_inG2 g1_valid w1 w2]
    rw [this l hw, Option.some_inj]
    exact g_pair_iff _
  · intro y hy
    obtain ⟨x, hx, rfl⟩ := List.mem_map.1 hy
    obtain ⟨w1, w2⟩ := hw x hx
    have k1 := scalarMult_rep good2 hB w1
    have k2 := scalarMult_rep good1 hA w2
    refine ⟨(isValid2_iff _).2 (k1.valid good2), ?_, (isValid1_iff _).2 (k2.valid good1), ?_⟩
    · rw [Bool.eq_false_iff, ne_eq, inf_iff k1]
      exact fun h => (h0 x hx).1 (dvd_of_smul h2 h4 h)
    · rw [Bool.eq_false_iff, ne_eq, inf_iff k2]
      exact fun h => (h0 x hx).2 (dvd_of_smul h1 h3 h)

theorem prod_zero (l : List (J F2 × J Fe)) : prodPairing 0 l = some 0 := by
  induction l with
  | nil => rw [prodPairing, F12.finalExp_zero]
  | cons x l ih => rw [prodPairing, millerLoop_pre]; show prodPairing (0 * _) l = _; rw [zero_mul]; exact ih

/-- **C82** one Q at infinity makes the whole product 0, whatever the other points are, on the curve or not, and whatever f was
before; the product of the pairings is not 0 for points of the curves (C43, C50). -/
theorem C82_infinity_wrong (l : List (J F2 × J Fe)) (h : ∃ x ∈ l, x.1.z = 0) (f : F12) : prodPairing f l = some 0 := by
  induction l generalizing f with
  | nil => obtain ⟨x, hx, -⟩ := h; cases hx
  | cons x l ih =>
    rw [prodPairing, millerLoop_pre]
    show prodPairing (f * _) l = _
    by_cases hx : x.1.z = 0
    · have h1 := (C46_infinity_wrong x.1 hx x.2).1
      rw [millerLoop_pre] at h1
      have h2 := Option.some_inj.1 h1
      have h3 : miller Param.siTbl ((normalizeJac x.1).x, (normalizeJac x.1).y) ((normalizeJac x.2).x, (normalizeJac x.2).y) = 0 := by
        by_contra h
        exact fe_ne h h2
      rw [h3, mul_zero]
      exact prod_zero l
    · obtain ⟨y, hy, h⟩ := h
      refine ih ⟨y, (List.mem_cons.1 hy).resolve_left fun e => hx (e ▸ h), h⟩ _

/-- 2·3 + 5·7 = 41 is not 0 mod r; with (r - 41)·1 it is; points different from infinity -/
example : (∀ x ∈ [([2], [3]), ([5], [7])], WF x.1 ∧ WF x.2) ∧ (∀ x ∈ [([2], [3]), ([5], [7])], ¬ r ∣ val x.1 ∧ ¬ r ∣ val x.2) ∧
    ¬ r ∣ ([([2], [3]), ([5], [7])].map fun x => val x.1 * val x.2).sum ∧
    (¬ r ∣ r - 41) ∧ r ∣ 2 * 3 + 5 * 7 + (r - 41) := by decide +kernel
example : isValid2 g2 = true ∧ isInf g2 = false ∧ isValid1 g1 = true ∧ isInf g1 = false :=
  ⟨g2_valid, by decide +kernel, g1_valid, by decide +kernel⟩

namespace Snark

/-- the same in the SNARK build; the flag is `false` for the code, `true` for the checked run (Final.lean) -/
def prodLoop (k : Bool) (g : Cfg) (f : R12) : List (J C2 × J C1) → Res R12
  | [] => S12.finalExp k f
  | x :: l => do
    let c ← precomputeG2 g x.1
    let t ← millerPre k c.1 (affP (normalizeJac x.2))
    let f ← S12.mulK k f t
    prodLoop k g f l

section
variable {c : Curve} {S : Abs.Setup (ZMod p) G2 G12} {g : Cfg}

theorem one_val (hS : Pr.Is c S) (hg : Pr.Fit c g) {Q : J C2} {B : S.E'} (hB : Rep S.tw (den2 Q) B) (hr : r • B = 0) (h0 : B ≠ 0)
    {P : J C1} {A : S.E0} (hA : Rep S.b (den1 P) A) (hA0 : A ≠ 0) : ∃ cs, precomputeG2 g Q = .ok (cs, normalizeJac Q) ∧
      Spec (fun k => millerPre k cs (affP (normalizeJac P))) (fun y => Pr.Acc S y (Abs.Setup.pair B A)) := by
  obtain ⟨e1, e2, cs, h1, h2⟩ := pre_aux hS hg hB hr h0
  obtain ⟨e3, e4, -⟩ := h2 P A hA hA0
  refine ⟨cs, h1, ?_⟩
  rw [show (fun k => millerPre k cs (affP (normalizeJac P))) = fun k => miller k g (affQ (normalizeJac Q)) (affP (normalizeJac P)) from
    funext fun k => (same_loop h1 k _).2.1]
  obtain ⟨q1, q2, q3⟩ := norm_aux hom2 C2.den_inj.1 hB
  obtain ⟨p1, p2, p3⟩ := norm_aux hom1 C1.den_inj.1 hA
  obtain ⟨-, hq, rfl⟩ := q3 (q1.symm.trans e2)
  obtain ⟨-, hp, rfl⟩ := p3 (p1.symm.trans e4)
  rw [← e1, ← e3, Abs.Setup.pair_some]
  exact Pr.miller_val hS (Abs.Setup.OnE.of hp) (b := affP (normalize P)) (Q := affQ (normalize Q)) hg
    ⟨(normalize P).x.lt, (normalize P).y.lt, rfl, rfl⟩ ⟨(normalize Q).x.can, rfl⟩ ⟨(normalize Q).y.can, rfl⟩ hq
    (Pr.tor_of_r hS hr)

theorem loop_val (hS : Pr.Is c S) (hg : Pr.Fit c g) (l : List ((J C2 × J C1) × S.E' × S.E0))
    (h : ∀ x ∈ l, Rep S.tw (den2 x.1.1) x.2.1 ∧ r • x.2.1 = 0 ∧ x.2.1 ≠ 0 ∧ Rep S.b (den1 x.1.2) x.2.2 ∧ x.2.2 ≠ 0) :
    ∀ {f : R12} {u : G12ˣ}, Pr.Acc S f u → Spec (fun k => prodLoop k g f (l.map Prod.fst)) (fun y => y.SCan ∧
      y.sden = (u * (l.map fun x => Abs.Setup.pair x.2.1 x.2.2).prod : G12ˣ)) := by
  induction l with
  | nil =>
    intro f u hf
    rw [List.map_nil, List.map_nil, List.prod_nil, mul_one, ← hf.2]
    refine Pr.finalExp_val hS hf.1 fun h => ?_
    have := hf.2
    rw [h, map_zero] at this
    exact Units.ne_zero _ this.symm
  | cons x l ih =>
    intro f u hf
    obtain ⟨h1, h2, h3, h4, h5⟩ := h x List.mem_cons_self
    obtain ⟨cs, k1, k2⟩ := one_val hS hg h1 h2 h3 h4 h5
    rw [List.map_cons, List.map_cons, List.prod_cons, ← mul_assoc]
    simp only [prodLoop, k1, Res.bind_ok]
    refine Spec.bind k2 fun t ht => ?_
    refine Spec.bind (Pr.acc_mul hf ht) fun f' hf' => ?_
    exact ih (fun y hy => h y (List.mem_cons_of_mem _ hy)) hf'

theorem prod_val (hS : Pr.Is c S) {tw : G2} {b : ZMod p} (ht : S.tw = tw) (hb : S.b = b) :
    ∃ e : (curve tw).Point → (curve b).Point → G12ˣ,
    (∀ B B' A, r • B = 0 → r • B' = 0 → e (B + B') A = e B A * e B' A) ∧
    (∀ B A A', r • B = 0 → e B (A + A') = e B A * e B A') ∧
    (∀ B A, r • B = 0 → (e B A = 1 ↔ B = 0 ∨ A = 0)) ∧
    ∀ g : Cfg, g.binv.SCan → G2.xi * beta g.b82 g.binv = (c.b : G2) →
      ∀ l : List ((J C2 × J C1) × (curve tw).Point × (curve b).Point),
      (∀ x ∈ l, Rep tw (den2 x.1.1) x.2.1 ∧ r • x.2.1 = 0 ∧ x.2.1 ≠ 0 ∧ Rep b (den1 x.1.2) x.2.2 ∧ x.2.2 ≠ 0) →
      ∀ y, prodLoop true g oneW (l.map Prod.fst) = .ok y → prodLoop false g oneW (l.map Prod.fst) = .ok y ∧ y.SCan ∧
        y.sden = ((l.map fun x => e x.2.1 x.2.2).prod : G12ˣ) := by
  subst ht hb
  refine ⟨Abs.Setup.pair, fun B B' A h h' => ?_, fun B A A' h => ?_, fun B A h => ?_, fun g g1 g2 l hl => ?_⟩
  · exact Abs.Setup.pair_add_left (Pr.tor_of_r hS h) (Pr.tor_of_r hS h') A
  · exact Abs.Setup.pair_add (Pr.tor_of_r hS h) A A'
  · exact Pr.nondeg_S hS (Pr.tor_of_r hS h) A
  · have := loop_val hS ⟨g1, g2⟩ l hl (f := oneW) (u := 1) ⟨by decide +kernel, by rw [oneW_sden, map_one]; rfl⟩
    rw [one_mul] at this
    exact this
end

/-- **C82** SNARK build, both curves, after each sequence of `init` ending with this curve (and, for SNARK1, starting with SNARK1):
for every list of pairs of points of order r, none at infinity, in any coordinates, the Miller loops multiplied and one final
exponentiation store the product of the values of e, if the checked run ends (products in range). -/
theorem C82_snark (c : Curve) : ∃ e : (curve c.twist).Point → (curve (c.b : ZMod p)).Point → G12ˣ,
    (∀ B B' A, r • B = 0 → r • B' = 0 → e (B + B') A = e B A * e B' A) ∧
    (∀ B A A', r • B = 0 → e B (A + A') = e B A * e B A') ∧
    (∀ B A, r • B = 0 → (e B A = 1 ↔ B = 0 ∨ A = 0)) ∧
    ∀ (l : List Curve) (hl : l ≠ []), l.getLast hl = c → l.head hl = .snark1 ∨ c = .snark2 →
      ∃ s, St.start.run l = .ok s ∧
      ∀ l : List ((J C2 × J C1) × (curve c.twist).Point × (curve (c.b : ZMod p)).Point),
      (∀ x ∈ l, Rep c.twist (den2 x.1.1) x.2.1 ∧ r • x.2.1 = 0 ∧ x.2.1 ≠ 0 ∧ Rep (c.b : ZMod p) (den1 x.1.2) x.2.2 ∧ x.2.2 ≠ 0) →
      ∀ y, prodLoop true ⟨s.b82, s.binv⟩ oneW (l.map Prod.fst) = .ok y →
        prodLoop false ⟨s.b82, s.binv⟩ oneW (l.map Prod.fst) = .ok y ∧ y.SCan ∧
        y.sden = ((l.map fun x => e x.2.1 x.2.2).prod : G12ˣ) := by
  obtain ⟨e, h1, h2, h3, h4⟩ := prod_val (Pr.is_setup c) (Pr.is_setup c).tw (Pr.is_setup c).b
  refine ⟨e, h1, h2, h3, fun l hl hc hh => ?_⟩
  obtain ⟨s, e1, e2, e3⟩ := factor_iff l hl
  rw [hc] at e3
  exact ⟨s, e1, h4 ⟨s.b82, s.binv⟩ e2 (e3.2 hh)⟩

/-- the checked run of a product of two ends for the generators of each curve, with a value different from 1; the other hypotheses
hold for them by the example after C77_bilinear -/
example (c : Curve) {g : Cfg} (hg : g.binv.SCan) (hf : G2.xi * beta g.b82 g.binv = (c.b : G2)) :
    ∃ y, prodLoop true g oneW [(tQ c, tP c), (tQ c, tP c)] = .ok y ∧ y.a.a.a ≠ montR := by
  obtain ⟨f, f1, f2, y, h1, h2, h3, h4, h5⟩ := Pr.prod2_model c ⟨hg, hf⟩
  have e1 : normalizeJac (tQ c) = tQ c := by cases c <;> decide +kernel
  have e2 : normalizeJac (tP c) = tP c := by cases c <;> decide +kernel
  obtain ⟨cs, k1, -, k2⟩ := C78_same_loop hg (tQ c)
  refine ⟨y, ?_, h5⟩
  have k3 : millerPre true cs (affP (normalizeJac (tP c))) = .ok f := by rw [k2, e1, e2]; exact h1
  unfold prodLoop
  rw [k1, Res.bind_ok, k3, Res.bind_ok, h2, Res.bind_ok]
  unfold prodLoop
  rw [k1, Res.bind_ok, k3, Res.bind_ok, h3, Res.bind_ok]
  unfold prodLoop
  exact h4

end Snark
end Verif
