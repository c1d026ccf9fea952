import Verif.Props.SnarkFinal
import Verif.Snark.PairWrong

/-!
Property theorems C76: the pairing of the SNARK build.

`optAte false` is the code of `opt_atePairing` on buffers, `optAte true` the run that stops with `throw` at the first
product of Fp6 or Fp12 that can leave its range (`C75_checked`, `C76_square_checked`).
-/

namespace Verif.Snark

open Verif.Hom Verif.Ec
open WeierstrassCurve.Affine (Point)

/-! ### C76 -/

theorem tors {G : Type*} [AddCommGroup G] {r : ℕ} {x : G} (h : r • x = 0) (n : ℕ) : r • n • x = 0 := by
  rw [smul_comm, h, nsmul_zero]

/-- what the pairing is, for abstract data -/
theorem pairing_aux {c : Curve} {S : Abs.Setup (ZMod p) G2 G12} (hS : Pr.Is c S) {tw : G2} {b : ZMod p} (ht : S.tw = tw)
    (hb : S.b = b) : ∃ e : (curve tw).Point → (curve b).Point → G12ˣ,
    (∀ B B' A, r • B = 0 → r • B' = 0 → e (B + B') A = e B A * e B' A) ∧
    (∀ B A A', r • B = 0 → e B (A + A') = e B A * e B A') ∧
    (∀ B A, r • B = 0 → e B A ^ r = 1) ∧
    (∀ B A, r • B = 0 → (e B A = 1 ↔ B = 0 ∨ A = 0)) ∧
    ∀ g : Cfg, g.binv.SCan → G2.xi * beta g.b82 g.binv = (c.b : G2) →
      ∀ (Q : R2 × R2) (P : ℕ × ℕ), Q.1.SCan → Q.2.SCan → P.1 < p → P.2 < p →
      ∀ (hQ : (curve tw).Nonsingular Q.1.sden Q.2.sden) (hP : (curve b).Nonsingular (residue P.1) (residue P.2)),
      r • (Point.some _ _ hQ : (curve tw).Point) = 0 → ∀ y, optAte true g Q P = .ok y →
        optAte false g Q P = .ok y ∧ y.SCan ∧ y.sden = (e (.some _ _ hQ) (.some _ _ hP) : G12) := by
  subst ht hb
  refine ⟨Abs.Setup.pair, fun B B' A h h' => ?_, fun B A A' h => ?_, fun B A h => ?_, fun B A h => ?_, ?_⟩
  · exact Abs.Setup.pair_add_left (Pr.tor_of_r hS h) (Pr.tor_of_r hS h') A
  · exact Abs.Setup.pair_add (Pr.tor_of_r hS h) A A'
  · have := Abs.Setup.pair_pow_r (Pr.tor_of_r hS h) A
    rwa [hS.r] at this
  · exact Pr.nondeg_S hS (Pr.tor_of_r hS h) A
  · intro g g1 g2 Q P q1 q2 p1 p2 hQ hP hB y hy
    rw [Abs.Setup.pair_some]
    exact Pr.optAte_val hS (Abs.Setup.OnE.of hP) (g := g) (b := P) ⟨g1, g2⟩ ⟨p1, p2, rfl, rfl⟩ ⟨q1, rfl⟩ ⟨q2, rfl⟩ hQ
      (Pr.tor_of_r hS hB) y hy

/-- **C76** for each of the two curves there is a non-degenerate bilinear map e of order r on the r-torsion of the twist
and the curve, such that after each sequence of `init` ending with this curve (and, for SNARK1, starting with SNARK1)
every run of `opt_atePairing` on canonical buffers of affine points whose products stay in range stores e -/
theorem C76_pairing (c : Curve) : ∃ e : (curve c.twist).Point → (curve (c.b : ZMod p)).Point → G12ˣ,
    (∀ B B' A, r • B = 0 → r • B' = 0 → e (B + B') A = e B A * e B' A) ∧
    (∀ B A A', r • B = 0 → e B (A + A') = e B A * e B A') ∧
    (∀ B A, r • B = 0 → e B A ^ r = 1) ∧
    (∀ B A, r • B = 0 → (e B A = 1 ↔ B = 0 ∨ A = 0)) ∧
    ∀ (l : List Curve) (hl : l ≠ []), l.getLast hl = c → l.head hl = .snark1 ∨ c = .snark2 →
      ∃ s, St.start.run l = .ok s ∧
      ∀ (Q : R2 × R2) (P : ℕ × ℕ), Q.1.SCan → Q.2.SCan → Canon P.1 → Canon P.2 →
      ∀ (hQ : (curve c.twist).Nonsingular Q.1.sden Q.2.sden)
        (hP : (curve (c.b : ZMod p)).Nonsingular (residue P.1) (residue P.2)),
      r • (Point.some _ _ hQ : (curve c.twist).Point) = 0 → ∀ y, optAte true ⟨s.b82, s.binv⟩ Q P = .ok y →
        optAte false ⟨s.b82, s.binv⟩ Q P = .ok y ∧ y.SCan ∧
          y.sden = (e (.some _ _ hQ) (.some _ _ hP) : G12) := by
  obtain ⟨e, h1, h2, h3, h4, h5⟩ := pairing_aux (Pr.is_setup c) (Pr.is_setup c).tw (Pr.is_setup c).b
  refine ⟨e, h1, h2, h3, h4, fun l hl hc hh => ?_⟩
  obtain ⟨s, e1, e2, e3⟩ := factor_iff l hl
  rw [hc] at e3
  exact ⟨s, e1, h5 ⟨s.b82, s.binv⟩ e2 (e3.2 hh)⟩

/-- **C76** bilinearity of what the code stores: if Q', P' are buffers of multiples of the points in Q, P, the result is the
power -/
theorem C76_bilinear (c : Curve) {g : Cfg} (hg : g.binv.SCan) (hf : G2.xi * beta g.b82 g.binv = (c.b : G2))
    {Q Q' : R2 × R2} {P P' : ℕ × ℕ} (q1 : Q.1.SCan) (q2 : Q.2.SCan) (p1 : Canon P.1) (p2 : Canon P.2)
    (q1' : Q'.1.SCan) (q2' : Q'.2.SCan) (p1' : Canon P'.1) (p2' : Canon P'.2)
    (hQ : (curve c.twist).Nonsingular Q.1.sden Q.2.sden) (hQ' : (curve c.twist).Nonsingular Q'.1.sden Q'.2.sden)
    (hP : (curve (c.b : ZMod p)).Nonsingular (residue P.1) (residue P.2))
    (hP' : (curve (c.b : ZMod p)).Nonsingular (residue P'.1) (residue P'.2))
    (hr : r • (Point.some _ _ hQ : (curve c.twist).Point) = 0) {a b : ℕ}
    (ha : (Point.some _ _ hQ' : (curve c.twist).Point) = a • Point.some _ _ hQ)
    (hb : (Point.some _ _ hP' : (curve (c.b : ZMod p)).Point) = b • Point.some _ _ hP)
    {y y' : R12} (hy : optAte true g Q P = .ok y) (hy' : optAte true g Q' P' = .ok y') :
    optAte false g Q P = .ok y ∧ optAte false g Q' P' = .ok y' ∧ y'.SCan ∧ y'.sden = y.sden ^ (a * b) ∧
      y.sden ^ r = 1 ∧ y.sden ≠ 1 := by
  obtain ⟨e, h1, h2, h3, h4, h5⟩ := pairing_aux (Pr.is_setup c) (Pr.is_setup c).tw (Pr.is_setup c).b
  have hr' : r • (Point.some _ _ hQ' : (curve c.twist).Point) = 0 := by
    rw [ha]; exact tors hr _
  obtain ⟨k1, k2, k3⟩ := h5 g hg hf Q P q1 q2 p1 p2 hQ hP hr y hy
  obtain ⟨l1, l2, l3⟩ := h5 g hg hf Q' P' q1' q2' p1' p2' hQ' hP' hr' y' hy'
  have z1 : ∀ A, e 0 A = 1 := fun A => (h4 0 A (nsmul_zero r)).2 (.inl rfl)
  have z2 : ∀ B, r • B = 0 → e B 0 = 1 := fun B h => (h4 B 0 h).2 (.inr rfl)
  have m1 : ∀ B A, r • B = 0 → ∀ n : ℕ, e (n • B) A = e B A ^ n := fun B A h n => by
    induction n with
    | zero => rw [zero_nsmul, z1, pow_zero]
    | succ n ih => rw [succ_nsmul, h1 _ _ _ (tors h _) h, ih, pow_succ]
  have m2 : ∀ B A, r • B = 0 → ∀ n : ℕ, e B (n • A) = e B A ^ n := fun B A h n => by
    induction n with
    | zero => rw [zero_nsmul, z2 B h, pow_zero]
    | succ n ih => rw [succ_nsmul, h2 _ _ _ h, ih, pow_succ]
  refine ⟨k1, l1, l2, ?_, ?_, ?_⟩
  · rw [l3, k3, ha, hb, m2 _ _ (tors hr _), m1 _ _ hr, ← pow_mul, Units.val_pow_eq_pow_val]
  · rw [k3, ← Units.val_pow_eq_pow_val, h3 _ _ hr, Units.val_one]
  · rw [k3]
    intro h
    have h : e (.some _ _ hQ) (.some _ _ hP) = 1 := Units.ext h
    rcases (h4 _ _ hr).1 h with h | h
    · exact Point.some_ne_zero hQ h
    · exact Point.some_ne_zero hP h

/-- **C76** the curves have prime order r -/
theorem C76_order (c : Curve) : Nat.card (curve (c.b : ZMod p)).Point = r := by
  have key : ∀ {S : Abs.Setup (ZMod p) G2 G12}, Pr.Is c S → ∀ b, S.b = b → Nat.card (curve b).Point = r := by
    rintro S hS b rfl
    exact Pr.card_S hS
  exact key (Pr.is_setup c) _ (Pr.is_setup c).b

/-- **C76** the digits of the loop are what `getGoodRepl` makes of 6z + 2 as computed by `init` -/
theorem C76_digits : (∃ s : Sint, (do
      let m ← Sint.setInt64 (fun _ => ⟨[0], false⟩) 0 4965661367192848881
      let six ← Sint.ofInt 6
      let two ← Sint.ofInt 2
      let c ← Init.sMul six (m 0)
      Init.sAdd c two : Res Sint) = .ok s ∧ s.neg = false ∧ Verif.val s.v = 6 * z + 2 ∧
      Naf.goodRepl s.v = .ok (true, siTbl)) ∧
    siTbl.take 2 = [1, 1] ∧ (∀ d ∈ siTbl, d = 0 ∨ d = 1 ∨ d = -1) ∧
    siTbl.foldl (fun a d => 2 * a + d) 0 = (6 * z + 2 : ℤ) :=
  ⟨⟨_, sixZ2V_run, rfl, sixZ2V_val, siTbl_run⟩, rfl, by decide, by decide +kernel⟩

/-- **C76** after a sequence of `init` that starts with SNARK2 and ends with SNARK1 the result is not bilinear: there are
points Q, P, P' with rQ = 0 and P' = 2P for which it is defined and differs from the square -/
theorem C76_wrong_init (l : List Curve) (hl : l ≠ []) (h2 : l.head hl = .snark2) (h1 : l.getLast hl = .snark1) :
    ∃ s, St.start.run l = .ok s ∧ ∃ (Q : R2 × R2) (P P' : ℕ × ℕ), Q.1.SCan ∧ Q.2.SCan ∧ Canon P.1 ∧ Canon P.2 ∧
      Canon P'.1 ∧ Canon P'.2 ∧
      ∃ (hQ : (curve (l.getLast hl).twist).Nonsingular Q.1.sden Q.2.sden)
        (hP : (curve ((l.getLast hl).b : ZMod p)).Nonsingular (residue P.1) (residue P.2))
        (hP' : (curve ((l.getLast hl).b : ZMod p)).Nonsingular (residue P'.1) (residue P'.2)),
      r • (Point.some _ _ hQ : (curve (l.getLast hl).twist).Point) = 0 ∧
      (Point.some _ _ hP' : (curve ((l.getLast hl).b : ZMod p)).Point) = 2 • Point.some _ _ hP ∧
      ∃ y y', optAte false ⟨s.b82, s.binv⟩ Q P = .ok y ∧ optAte false ⟨s.b82, s.binv⟩ Q P' = .ok y' ∧
        y'.sden ≠ y.sden ^ 2 := by
  obtain ⟨s, e, k1, k2⟩ := b82_run l hl h2
  obtain ⟨y, y', w⟩ := Pr.run_wrong_model (g := ⟨s.b82, s.binv⟩) k1 k2
  rw [h1]
  have key : ∀ {S : Abs.Setup (ZMod p) G2 G12}, Pr.Is .snark1 S → ∀ tw b, S.tw = tw → S.b = b → b = 3 →
      ∃ (hQ : (curve tw).Nonsingular (Pr.bufQ .snark1).1.sden (Pr.bufQ .snark1).2.sden)
        (hP : (curve b).Nonsingular (residue (Pr.bufP .snark1).1) (residue (Pr.bufP .snark1).2))
        (hP' : (curve b).Nonsingular (residue Pr.bufP2.1) (residue Pr.bufP2.2)),
        r • (Point.some _ _ hQ : (curve tw).Point) = 0 ∧
        (Point.some _ _ hP' : (curve b).Point) = 2 • Point.some _ _ hP := by
    rintro S hS tw b rfl rfl h3
    obtain ⟨v1, v2⟩ := Pr.bufQ_val .snark1
    obtain ⟨p1, p2, p3⟩ := Pr.bufP2_pt S.good0 h3
    rw [v1.2, v2.2]
    have h := (Pr.genN_tor hS).r
    rw [hS.r] at h
    exact ⟨Pr.genN_non hS, p1, p2, h, by rw [two_nsmul]; exact p3⟩
  obtain ⟨a1, a2, a3, a4, a5⟩ := key (Pr.is_setup .snark1) _ _ (Pr.is_setup .snark1).tw (Pr.is_setup .snark1).b
    (by norm_num [Curve.b])
  exact ⟨s, e, Pr.bufQ .snark1, Pr.bufP .snark1, Pr.bufP2, (Pr.bufQ_can _).1, (Pr.bufQ_can _).2, (Pr.bufP_lt _).1,
    (Pr.bufP_lt _).2, Pr.bufP2_val.1, Pr.bufP2_val.2.1, a1, a2, a3, a4, a5, y, y', w⟩

/-- **C76** for all inputs, also invalid ones, a checked run that ends normally is a run of the code -/
theorem C76_checked (g : Cfg) (Q : R2 × R2) (P : ℕ × ℕ) {y : R12} (h : optAte true g Q P = .ok y) :
    optAte false g Q P = .ok y := Mono.optAte g Q P y h

example : ([.snark2, .snark1] : List Curve).head (by simp) = .snark2 ∧
    ([.snark2, .snark1] : List Curve).getLast (by simp) = .snark1 := ⟨rfl, rfl⟩

theorem frob_exp {d p : ℕ} (hp : d ∣ p - 1) (h0 : 0 < p) (k : ℕ) :
    (p ^ (k + 1) - 1) / d = (p ^ k - 1) / d * p + (p - 1) / d := by
  have h1 : d ∣ p ^ k - 1 := hp.trans (by simpa using Nat.sub_dvd_pow_sub_pow p 1 k)
  have e : p ^ (k + 1) - 1 = (p ^ k - 1) * p + (p - 1) := by
    have := Nat.pow_pos (n := k) h0
    rw [Nat.sub_mul, ← pow_succ, one_mul]
    have : p ≤ p ^ (k + 1) := by rw [pow_succ]; exact Nat.le_mul_of_pos_left _ this
    omega
  rw [e, Nat.add_div_of_dvd_left hp, Nat.mul_comm, Nat.mul_div_assoc _ h1, Nat.mul_comm]

/-- **C76** `FrobEndOnTwist_1`, `_2`, `_8`: canonical, and the Frobenius p, p², p⁸ of the point (x w², y w³) over w⁶ = ξ -/
theorem C76_frobenius (Q : R2 × R2) (h1 : Q.1.SCan) (h2 : Q.2.SCan) :
    ∀ k ∈ [(1, frobTwist1 Q), (2, frobTwist2 Q), (8, frobTwist8 Q)], k.2.1.SCan ∧ k.2.2.SCan ∧
      k.2.1.sden = Q.1.sden ^ p ^ k.1 * G2.xi ^ ((p ^ k.1 - 1) / 3) ∧
      k.2.2.sden = Q.2.sden ^ p ^ k.1 * G2.xi ^ ((p ^ k.1 - 1) / 2) := by
  have g : G2.gam = G2.xi ^ ((p - 1) / 6) := G2.gam_eq
  have d3 : 3 ∣ p - 1 := by decide +kernel
  have d2 : 2 ∣ p - 1 := by decide +kernel
  have d6 : 6 ∣ p - 1 := by decide +kernel
  have step : ∀ (k : ℕ) (T : R2 × R2), (T.1.SCan ∧ T.2.SCan ∧
      T.1.sden = Q.1.sden ^ p ^ k * G2.xi ^ ((p ^ k - 1) / 3) ∧ T.2.sden = Q.2.sden ^ p ^ k * G2.xi ^ ((p ^ k - 1) / 2)) →
      ((frobTwist1 T).1.SCan ∧ (frobTwist1 T).2.SCan ∧
      (frobTwist1 T).1.sden = Q.1.sden ^ p ^ (k + 1) * G2.xi ^ ((p ^ (k + 1) - 1) / 3) ∧
      (frobTwist1 T).2.sden = Q.2.sden ^ p ^ (k + 1) * G2.xi ^ ((p ^ (k + 1) - 1) / 2)) := by
    rintro k T ⟨t1, t2, e1, e2⟩
    obtain ⟨⟨c1, v1⟩, c2, v2⟩ := Pr.frob1_val (Q := T) ⟨t1, e1⟩ ⟨t2, e2⟩
    refine ⟨c1, c2, ?_, ?_⟩
    · rw [v1, ← G2.pow_p, mul_pow, ← pow_mul, ← pow_mul, ← pow_succ, frob_exp d3 p_pos, pow_add, g, ← pow_mul,
        show (p - 1) / 6 * 2 = (p - 1) / 3 by omega]
      ring
    · rw [v2, ← G2.pow_p, mul_pow, ← pow_mul, ← pow_mul, ← pow_succ, frob_exp d2 p_pos, pow_add, g, ← pow_mul,
        show (p - 1) / 6 * 3 = (p - 1) / 2 by omega]
      ring
  have s0 := step 0 Q ⟨h1, h2, by simp, by simp⟩
  have s1 := step 1 _ s0
  have s8 := step 7 _ (step 6 _ (step 5 _ (step 4 _ (step 3 _ (step 2 _ s1)))))
  intro k hk
  simp only [List.mem_cons, List.not_mem_nil, or_false] at hk
  rcases hk with rfl | rfl | rfl
  · exact s0
  · exact s1
  · exact s8

/-- **C76** the checked square is the square, unless one of its two inner products does not fit -/
theorem C76_square_checked (x : R12) :
    (∀ t, S6.mulGammaAdd x.b x.a = .ok t → S12.squareK false x = S12.square x ∧
      S12.squareK true x = if Fits x.b x.a ∧ Fits (S6.add x.a x.b) t then S12.square x else .throw) := by
  have hf : ∀ x y : R6, cb x y < pN ↔ Fits x y := fun x y => by rw [pN_def]; exact Iff.rfl
  intro t e
  unfold S12.squareK
  rw [e, Res.bind_ok]
  refine ⟨if_neg fun t => Bool.noConfusion t.1, ?_⟩
  rw [Res.bind_ok]
  by_cases h : Fits x.b x.a ∧ Fits (S6.add x.a x.b) t
  · rw [if_pos h, if_neg fun t => t.2 ⟨(hf _ _).2 h.1, (hf _ _).2 h.2⟩]
  · rw [if_neg h, if_pos ⟨rfl, fun t => h ⟨(hf _ _).1 t.1, (hf _ _).1 t.2⟩⟩]

/-- the hypotheses of C76_pairing hold, for each curve and after each good sequence of `init`, for the generators: they are
on the curves, the first one has order r, the checked run ends and its result is not 1 -/
example (c : Curve) (l : List Curve) (hl : l ≠ []) (hc : l.getLast hl = c) (hh : l.head hl = .snark1 ∨ c = .snark2) :
    ∃ s, St.start.run l = .ok s ∧ ∃ y, optAte true ⟨s.b82, s.binv⟩ (Pr.bufQ c) (Pr.bufP c) = .ok y ∧ y.a.a.a ≠ montR := by
  obtain ⟨s, e1, e2, e3⟩ := factor_iff l hl
  rw [hc] at e3
  exact ⟨s, e1, Pr.run_model c ⟨e2, e3.2 hh⟩⟩
example (c : Curve) : ∃ (hQ : (curve c.twist).Nonsingular (Pr.bufQ c).1.sden (Pr.bufQ c).2.sden)
    (_ : (curve (c.b : ZMod p)).Nonsingular (residue (Pr.bufP c).1) (residue (Pr.bufP c).2)),
    (Pr.bufQ c).1.SCan ∧ (Pr.bufQ c).2.SCan ∧ Canon (Pr.bufP c).1 ∧ Canon (Pr.bufP c).2 ∧
      r • (Point.some _ _ hQ : (curve c.twist).Point) = 0 := by
  have key : ∀ {S : Abs.Setup (ZMod p) G2 G12}, Pr.Is c S → ∀ tw b, S.tw = tw → S.b = b →
      ∃ (hQ : (curve tw).Nonsingular (Pr.bufQ c).1.sden (Pr.bufQ c).2.sden)
        (_ : (curve b).Nonsingular (residue (Pr.bufP c).1) (residue (Pr.bufP c).2)),
        r • (Point.some _ _ hQ : (curve tw).Point) = 0 := by
    rintro S hS tw b rfl rfl
    obtain ⟨v1, v2⟩ := Pr.bufQ_val c
    have v3 := Pr.bufP_val c
    rw [v1.2, v2.2, v3.ex, v3.ey]
    have h := (Pr.genN_tor hS).r
    rw [hS.r] at h
    exact ⟨Pr.genN_non hS, Pr.genP_non hS, h⟩
  obtain ⟨h1, h2, h3⟩ := key (Pr.is_setup c) _ _ (Pr.is_setup c).tw (Pr.is_setup c).b
  exact ⟨h1, h2, (Pr.bufQ_can c).1, (Pr.bufQ_can c).2, (Pr.bufP_lt c).1, (Pr.bufP_lt c).2, h3⟩

end Verif.Snark
