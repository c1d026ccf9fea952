import Verif.Props.SnarkEc
import Verif.Snark.CompVal
import Verif.Snark.CompInf

/-!
Property theorems C78: `components::precomputeG2`, `millerLoop` and `millerLoop2` of the SNARK build.
-/

namespace Verif.Snark

open Verif.Ec
open WeierstrassCurve.Affine (Point)

/-! ### C78 -/

/-- `precomputeG2(coeff, preQ, Q); NormalizeJac(preP, P); millerLoop(f, coeff, preP); f.final_exp()`, the sequence of
test/bn.cpp:80-89 -/
def prePairing (k : Bool) (g : Cfg) (Q : J C2) (P : J C1) : Res R12 := do
  let c ← precomputeG2 g Q
  let f ← millerPre k c.1 (affP (normalizeJac P))
  S12.finalExp k f

/-- the same with `millerLoop2` for two pairs of points -/
def prePairing2 (k : Bool) (g : Cfg) (Q1 : J C2) (P1 : J C1) (Q2 : J C2) (P2 : J C1) : Res R12 := do
  let c1 ← precomputeG2 g Q1
  let c2 ← precomputeG2 g Q2
  let f ← millerPre2 k c1.1 (affP (normalizeJac P1)) c2.1 (affP (normalizeJac P2))
  S12.finalExp k f

theorem same_loop {g : Cfg} {Q Q' : J C2} {cs : List R6} (h : precomputeG2 g Q = .ok (cs, Q')) (k : Bool) (P : ℕ × ℕ) :
    Q' = normalizeJac Q ∧ millerPre k cs P = miller k g (affQ Q') P ∧
      (millerPre k cs P >>= S12.finalExp k) = optAte k g (affQ Q') P := by
  unfold precomputeG2 at h
  obtain ⟨cs', h1, h2⟩ := bind_eq_ok h
  cases h2
  refine ⟨rfl, preAff_ok h1 k P, ?_⟩
  rw [preAff_ok h1 k P]; rfl

/-- **C78** for all canonical buffers Q, on the curve or not, and every canonical constant of the generated code: `precomputeG2`
ends with 87 coefficients, and `millerLoop` reads exactly the coefficients it wrote, in order, and stores what the Miller loop of the pairing stores
on the normalised point, for all buffers P -/
theorem C78_same_loop {g : Cfg} (hg : g.binv.SCan) (Q : J C2) : ∃ cs, precomputeG2 g Q = .ok (cs, normalizeJac Q) ∧
    cs.length = 87 ∧ ∀ k P, millerPre k cs P = miller k g (affQ (normalizeJac Q)) P := by
  obtain ⟨cs, h⟩ := Fast.preAff_total (Q := affQ (normalizeJac Q)) hg (normalizeJac Q).x.can (normalizeJac Q).y.can
  have e : precomputeG2 g Q = .ok (cs, normalizeJac Q) := by unfold precomputeG2; dsimp only; rw [h]; rfl
  exact ⟨cs, e, (Fast.preAff_len h).trans (by decide +kernel), fun k P => (same_loop e k P).2.1⟩

/-- **C78** hence the precomputed form is the pairing on normalised points, without its test for infinity -/
theorem C78_run {g : Cfg} (hg : g.binv.SCan) (Q : J C2) (P : J C1) (k : Bool) :
    prePairing k g Q P = optAte k g (affQ (normalizeJac Q)) (affP (normalizeJac P)) := by
  obtain ⟨cs, h1, -, h2⟩ := C78_same_loop hg Q
  unfold prePairing
  rw [h1, Res.bind_ok, h2]; rfl

section
variable {c : Curve} {S : Abs.Setup (ZMod p) G2 G12} {g : Cfg} {Q Q1 Q2 : J C2} {P P1 P2 : J C1} {B B1 B2 : S.E'} {A A1 A2 : S.E0}

theorem pre_aux (hS : Pr.Is c S) (hg : Pr.Fit c g) (hB : Rep S.tw (den2 Q) B) (hr : r • B = 0) (h0 : B ≠ 0) :
    normalize Q = normalizeJac Q ∧ isInf (normalize Q) = false ∧ ∃ cs, precomputeG2 g Q = .ok (cs, normalizeJac Q) ∧
      ∀ (P : J C1) (A : S.E0), Rep S.b (den1 P) A → A ≠ 0 →
        normalize P = normalizeJac P ∧ isInf (normalize P) = false ∧
        ∃ PP, Pr.VP PP (affP (normalizeJac P)) ∧ Pr.Vec S PP cs (Abs.Setup.pair B A) := by
  obtain ⟨q1, q2, q3⟩ := norm_aux hom2 C2.den_inj.1 hB
  have hz : FF.eqb Q.z 0 = false := by rw [← Bool.not_eq_true]; exact fun h => h0 (q2.1 h)
  obtain ⟨eq, hq, rfl⟩ := q3 hz
  refine ⟨eq, q1.trans hz, ?_⟩
  unfold precomputeG2
  dsimp only
  rw [← eq]
  obtain ⟨cs, h1, h2⟩ := Pr.preAff_val hS hg (Q := affQ (normalize Q)) ⟨(normalize Q).x.can, rfl⟩ ⟨(normalize Q).y.can, rfl⟩ hq
    (Pr.tor_of_r hS hr)
  refine ⟨cs, by rw [h1]; rfl, fun P A hA hA0 => ?_⟩
  obtain ⟨p1, p2, p3⟩ := norm_aux hom1 C1.den_inj.1 hA
  have hz : FF.eqb P.z 0 = false := by rw [← Bool.not_eq_true]; exact fun h => hA0 (p2.1 h)
  obtain ⟨ep, hp, rfl⟩ := p3 hz
  refine ⟨ep, p1.trans hz, ?_⟩
  rw [← ep, Abs.Setup.pair_some]
  exact ⟨_, ⟨(normalize P).x.lt, (normalize P).y.lt, rfl, rfl⟩, h2 _ _⟩

theorem single_aux (hS : Pr.Is c S) (hg : Pr.Fit c g) (hB : Rep S.tw (den2 Q) B) (hr : r • B = 0) (h0 : B ≠ 0)
    (hA : Rep S.b (den1 P) A) (hA0 : A ≠ 0) (k : Bool) : prePairing k g Q P = ecPairing k g Q P := by
  obtain ⟨e1, e2, cs, h1, h2⟩ := pre_aux hS hg hB hr h0
  obtain ⟨e3, e4, -⟩ := h2 P A hA hA0
  unfold prePairing ecPairing
  rw [h1, Res.bind_ok]
  dsimp only
  rw [e2, e4, Bool.or_self, if_neg Bool.false_ne_true, e1, e3]
  exact (same_loop h1 k _).2.2

theorem single_val (hS : Pr.Is c S) (hg : Pr.Fit c g) (hB : Rep S.tw (den2 Q) B) (hr : r • B = 0) (h0 : B ≠ 0)
    (hA : Rep S.b (den1 P) A) (hA0 : A ≠ 0) : Spec (fun k => prePairing k g Q P) (fun y => y.SCan ∧
      y.sden = (Abs.Setup.pair B A : G12)) := by
  rw [show (fun k => prePairing k g Q P) = fun k => ecPairing k g Q P from funext (single_aux hS hg hB hr h0 hA hA0)]
  obtain ⟨e1, e2, cs, _, h2⟩ := pre_aux hS hg hB hr h0
  obtain ⟨e3, e4, -⟩ := h2 P A hA hA0
  obtain ⟨q1, q2, q3⟩ := norm_aux hom2 C2.den_inj.1 hB
  obtain ⟨p1, p2, p3⟩ := norm_aux hom1 C1.den_inj.1 hA
  obtain ⟨-, hq, rfl⟩ := q3 (q1.symm.trans e2)
  obtain ⟨-, hp, rfl⟩ := p3 (p1.symm.trans e4)
  unfold ecPairing
  dsimp only
  rw [e2, e4, Bool.or_self, Abs.Setup.pair_some]
  simp only [Bool.false_eq_true, if_false]
  exact Pr.optAte_val hS (Abs.Setup.OnE.of hp) (b := affP (normalize P)) (Q := affQ (normalize Q)) hg
    ⟨(normalize P).x.lt, (normalize P).y.lt, rfl, rfl⟩ ⟨(normalize Q).x.can, rfl⟩ ⟨(normalize Q).y.can, rfl⟩ hq
    (Pr.tor_of_r hS hr)

theorem double_aux (hS : Pr.Is c S) (hg : Pr.Fit c g) (hB1 : Rep S.tw (den2 Q1) B1) (hr1 : r • B1 = 0) (h1 : B1 ≠ 0)
    (hB2 : Rep S.tw (den2 Q2) B2) (hr2 : r • B2 = 0) (h2 : B2 ≠ 0) (hA1 : Rep S.b (den1 P1) A1) (k1 : A1 ≠ 0)
    (hA2 : Rep S.b (den1 P2) A2) (k2 : A2 ≠ 0) :
    Spec (fun k => prePairing2 k g Q1 P1 Q2 P2) (fun y => y.SCan ∧
      y.sden = ((Abs.Setup.pair B1 A1 * Abs.Setup.pair B2 A2 : G12ˣ) : G12)) := by
  obtain ⟨-, -, cs1, a1, b1⟩ := pre_aux hS hg hB1 hr1 h1
  obtain ⟨-, -, cs2, a2, b2⟩ := pre_aux hS hg hB2 hr2 h2
  obtain ⟨-, -, PP1, u1, v1⟩ := b1 P1 A1 hA1 k1
  obtain ⟨-, -, PP2, u2, v2⟩ := b2 P2 A2 hA2 k2
  unfold prePairing2
  rw [a1, a2]
  simp only [Res.bind_ok]
  refine Spec.bind (Pr.millerPre2_val u1 u2 v1 v2) ?_
  intro f hf
  rw [← hf.2]
  refine Pr.finalExp_val hS hf.1 fun h => ?_
  have := hf.2
  rw [h, map_zero] at this
  exact Units.ne_zero _ this.symm
end

theorem comp_aux {c : Curve} {S : Abs.Setup (ZMod p) G2 G12} (hS : Pr.Is c S) {tw : G2} {b : ZMod p} (ht : S.tw = tw)
    (hb : S.b = b) : ∃ e : (curve tw).Point → (curve b).Point → G12ˣ,
    (∀ B B' A, r • B = 0 → r • B' = 0 → e (B + B') A = e B A * e B' A) ∧
    (∀ B A A', r • B = 0 → e B (A + A') = e B A * e B A') ∧
    (∀ B A, r • B = 0 → (e B A = 1 ↔ B = 0 ∨ A = 0)) ∧
    ∀ g : Cfg, g.binv.SCan → G2.xi * beta g.b82 g.binv = (c.b : G2) →
      (∀ (Q : J C2) B, Rep tw (den2 Q) B → r • B = 0 → B ≠ 0 →
        (∃ cs, precomputeG2 g Q = .ok (cs, normalizeJac Q)) ∧
        ∀ (P : J C1) A, Rep b (den1 P) A → A ≠ 0 → (∀ k, prePairing k g Q P = ecPairing k g Q P) ∧
          ∀ y, prePairing true g Q P = .ok y → prePairing false g Q P = .ok y ∧ y.SCan ∧ y.sden = (e B A : G12)) ∧
      ∀ (Q1 Q2 : J C2) (P1 P2 : J C1) B1 B2 A1 A2, Rep tw (den2 Q1) B1 → Rep tw (den2 Q2) B2 → r • B1 = 0 → r • B2 = 0 →
        Rep b (den1 P1) A1 → Rep b (den1 P2) A2 → B1 ≠ 0 → B2 ≠ 0 → A1 ≠ 0 → A2 ≠ 0 →
        ∀ y, prePairing2 true g Q1 P1 Q2 P2 = .ok y → prePairing2 false g Q1 P1 Q2 P2 = .ok y ∧ y.SCan ∧
          y.sden = (e B1 A1 * e B2 A2 : G12ˣ) := by
  subst ht hb
  refine ⟨Abs.Setup.pair, fun B B' A h h' => ?_, fun B A A' h => ?_, fun B A h => ?_, fun g g1 g2 => ⟨fun Q B hB hr h0 => ?_, ?_⟩⟩
  · exact Abs.Setup.pair_add_left (Pr.tor_of_r hS h) (Pr.tor_of_r hS h') A
  · exact Abs.Setup.pair_add (Pr.tor_of_r hS h) A A'
  · exact Pr.nondeg_S hS (Pr.tor_of_r hS h) A
  · obtain ⟨e1, -, cs, h1, h2⟩ := pre_aux hS ⟨g1, g2⟩ hB hr h0
    refine ⟨⟨cs, h1⟩, fun P A hA hA0 => ⟨single_aux hS ⟨g1, g2⟩ hB hr h0 hA hA0, ?_⟩⟩
    exact single_val hS ⟨g1, g2⟩ hB hr h0 hA hA0
  · intro Q1 Q2 P1 P2 B1 B2 A1 A2 q1 q2 r1 r2 p1 p2 n1 n2 m1 m2
    exact double_aux hS ⟨g1, g2⟩ q1 r1 n1 q2 r2 n2 p1 m1 p2 m2

/-- **C78** for each of the two curves there is a non-degenerate bilinear map e such that after each sequence of `init` ending
with this curve (and, for SNARK1, starting with SNARK1): `precomputeG2` ends for every point of order r in any coordinates;
the precomputed form of the pairing is `opt_atePairing` (runs equal, result e(B, A)); and `millerLoop2` followed by the final
exponentiation stores the product of the two pairings.  Points different from infinity. -/
theorem C78_precomputed (c : Curve) : ∃ e : (curve c.twist).Point → (curve (c.b : ZMod p)).Point → G12ˣ,
    (∀ B B' A, r • B = 0 → r • B' = 0 → e (B + B') A = e B A * e B' A) ∧
    (∀ B A A', r • B = 0 → e B (A + A') = e B A * e B A') ∧
    (∀ B A, r • B = 0 → (e B A = 1 ↔ B = 0 ∨ A = 0)) ∧
    ∀ (l : List Curve) (hl : l ≠ []), l.getLast hl = c → l.head hl = .snark1 ∨ c = .snark2 →
      ∃ s, St.start.run l = .ok s ∧
      (∀ (Q : J C2) B, Rep c.twist (den2 Q) B → r • B = 0 → B ≠ 0 →
        (∃ cs, precomputeG2 ⟨s.b82, s.binv⟩ Q = .ok (cs, normalizeJac Q)) ∧
        ∀ (P : J C1) A, Rep (c.b : ZMod p) (den1 P) A → A ≠ 0 →
          (∀ k, prePairing k ⟨s.b82, s.binv⟩ Q P = ecPairing k ⟨s.b82, s.binv⟩ Q P) ∧
          ∀ y, prePairing true ⟨s.b82, s.binv⟩ Q P = .ok y →
            prePairing false ⟨s.b82, s.binv⟩ Q P = .ok y ∧ y.SCan ∧ y.sden = (e B A : G12)) ∧
      ∀ (Q1 Q2 : J C2) (P1 P2 : J C1) B1 B2 A1 A2, Rep c.twist (den2 Q1) B1 → Rep c.twist (den2 Q2) B2 →
        r • B1 = 0 → r • B2 = 0 → Rep (c.b : ZMod p) (den1 P1) A1 → Rep (c.b : ZMod p) (den1 P2) A2 →
        B1 ≠ 0 → B2 ≠ 0 → A1 ≠ 0 → A2 ≠ 0 → ∀ y, prePairing2 true ⟨s.b82, s.binv⟩ Q1 P1 Q2 P2 = .ok y →
          prePairing2 false ⟨s.b82, s.binv⟩ Q1 P1 Q2 P2 = .ok y ∧ y.SCan ∧ y.sden = (e B1 A1 * e B2 A2 : G12ˣ) := by
  obtain ⟨e, h1, h2, h3, h4⟩ := comp_aux (Pr.is_setup c) (Pr.is_setup c).tw (Pr.is_setup c).b
  refine ⟨e, h1, h2, h3, fun l hl hc hh => ?_⟩
  obtain ⟨s, e1, e2, e3⟩ := factor_iff l hl
  rw [hc] at e3
  exact ⟨s, e1, h4 ⟨s.b82, s.binv⟩ e2 (e3.2 hh)⟩

/-- **C78** at infinity the precomputed form is wrong: `precomputeG2` goes on with (0, 0, 1), later lines are 0, and the result
is 0 instead of 1; in the code (k = false) and the checked run alike -/
theorem C78_infinity_wrong {g : Cfg} (hg : g.binv.SCan) (Q : J C2) (hQ : Q.z = 0) (P : J C1) (k : Bool) :
    prePairing k g Q P = .ok ⟨⟨⟨0, 0⟩, ⟨0, 0⟩, ⟨0, 0⟩⟩, ⟨⟨0, 0⟩, ⟨0, 0⟩, ⟨0, 0⟩⟩⟩ ∧
      ∃ y, jacPairing k g Q P = .ok y ∧ y.sden = 1 := by
  have hz : FF.eqb Q.z 0 = true := by rw [hQ]; decide +kernel
  constructor
  · rw [C78_run hg]
    have e : normalizeJac Q = ⟨0, 0, 0⟩ := by
      unfold normalizeJac
      exact if_pos hz
    rw [e]
    unfold optAte
    rw [show affQ ⟨0, 0, 0⟩ = (Fast.z2, Fast.z2) from rfl, Fast.miller_zero (P := affP (normalizeJac P)) hg (normalizeJac P).x.lt
      (normalizeJac P).y.lt, Res.bind_ok]
    exact Fast.finalExp_zero k
  · refine ⟨oneW, ?_, oneW_sden⟩
    unfold jacPairing
    rw [hz, Bool.true_or, if_pos rfl]

/-- a checked single run on the generators ends, with a value different from 1 -/
example (c : Curve) {g : Cfg} (hg : g.binv.SCan) (hf : G2.xi * beta g.b82 g.binv = (c.b : G2)) :
    ∃ y, prePairing true g (tQ c) (tP c) = .ok y ∧ y.a.a.a ≠ montR := by
  rw [C78_run hg]
  have e1 : normalizeJac (tQ c) = tQ c := by cases c <;> decide +kernel
  have e2 : normalizeJac (tP c) = tP c := by cases c <;> decide +kernel
  rw [e1, e2]
  exact Pr.run_model c ⟨hg, hf⟩
/-- the checked double run on the generators ends for each curve, with a value different from 1; the other hypotheses of
C78_precomputed hold for them by the example after C77_bilinear -/
example (c : Curve) {g : Cfg} (hg : g.binv.SCan) (hf : G2.xi * beta g.b82 g.binv = (c.b : G2)) :
    ∃ y, prePairing2 true g (tQ c) (tP c) (tQ c) (tP c) = .ok y ∧ y.a.a.a ≠ montR := by
  obtain ⟨cs, y, h1, h2, h3⟩ := Pr.run2_model c ⟨hg, hf⟩
  have e1 : normalizeJac (tQ c) = tQ c := by cases c <;> decide +kernel
  have e2 : normalizeJac (tP c) = tP c := by cases c <;> decide +kernel
  refine ⟨y, ?_, h3⟩
  have e3 : precomputeG2 g (tQ c) = .ok (cs, tQ c) := by
    unfold precomputeG2
    rw [e1]
    dsimp only
    rw [show affQ (tQ c) = Pr.bufQ c from rfl, h1]; rfl
  unfold prePairing2
  rw [e3, Res.bind_ok, Res.bind_ok, e2]
  exact h2

end Verif.Snark
