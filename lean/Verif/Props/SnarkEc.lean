import Verif.Props.SnarkPair
import Verif.Snark.Ec
import Verif.Props.Ec

/-!
Property theorems C77: the elliptic-curve routines of the SNARK build and the entry points of its pairing.

`J C1` and `J C2` are triples of canonical buffers, `den1` and `den2` the triples of field elements they stand for;
`Rep b P A`, `Valid b P` and `curve b` as in Props/Ec.lean.
-/

namespace Verif.Snark

open Verif.Ec
open WeierstrassCurve.Affine (Point)

/-! ### C77 -/

section
variable {K L : Type} [Add K] [Sub K] [Mul K] [Neg K] [Inv K] [Zero K] [One K] [FF K]
variable [Field L] [DecidableEq L] [FF L] [LawfulFF L] {φ : K → L}

theorem ops_aux (h : FHom φ) {b : L} (hb : Good b) (old : J K) {P Q : J K} {A B : (curve b).Point}
    (hP : Rep b (jmap φ P) A) (hQ : Rep b (jmap φ Q) B) :
    Rep b (jmap φ (dbl P)) (A + A) ∧ Rep b (jmap φ (Ec.add old P Q)) (A + B) ∧ Rep b (jmap φ (Ec.sub old P Q)) (A - B) ∧
    Rep b (jmap φ (Ec.neg P)) (-A) ∧ Rep b (jmap φ (normalize P)) A ∧ Rep b (jmap φ (normalizeJac P)) A ∧
    (eq P Q = true ↔ A = B) := by
  rw [h.dbl, h.ecAdd, h.ecSub, h.ecNeg, h.normalize, h.normalizeJac, ← h.ecEq]
  exact ⟨rep_dbl hb hP, rep_add hb _ hP hQ, rep_sub hb _ hP hQ, rep_neg hP, (normalize_spec hP).1, (normalizeJac_spec hP).1,
    eq_spec hP hQ⟩

theorem sm_aux (h : FHom φ) {b : L} (hb : Good b) {P : J K} {A : (curve b).Point} (hP : Rep b (jmap φ P) A) :
    (∀ s, WF s → Rep b (jmap φ (scalarMult P s)) (val s • A)) ∧
    (∀ m : ℕ, m < 2 ^ 31 → Rep b (jmap φ (scalarMultInt P m)) (m • A)) ∧
    (∀ m : ℕ, m < 2 ^ 64 → Rep b (jmap φ (scalarMultSize P m)) (m • A)) ∧
    (∀ m : ℤ, -2 ^ 31 ≤ m → m < 0 → Rep b (jmap φ (scalarMultInt P m)) ((2 ^ 32 + m) • A)) := by
  refine ⟨fun s hs => ?_, fun m hm => ?_, fun m hm => ?_, fun m h1 h2 => ?_⟩
  · rw [h.scalarMult]; exact scalarMult_rep hb hP hs
  · rw [h.scalarMultInt]
    unfold scalarMultInt
    rcases Nat.eq_zero_or_pos m with h0 | h0
    · subst h0
      simp only [Nat.cast_zero, if_true, zero_nsmul]; exact rep_clear
    · have e : ((m : ℤ) % 2 ^ 32).toNat = m := by omega
      rw [if_neg (by omega), e]
      exact int_aux hb hP (by norm_num) m h0 (by omega)
  · rw [h.scalarMultSize]
    unfold scalarMultSize
    rcases Nat.eq_zero_or_pos m with h0 | h0
    · subst h0
      simp only [if_true, zero_nsmul]; exact rep_clear
    · rw [if_neg (by omega)]
      exact int_aux hb hP (by norm_num) m h0 hm
  · rw [h.scalarMultInt]
    unfold scalarMultInt
    rw [if_neg (by omega)]
    have e : m % 2 ^ 32 = 2 ^ 32 + m := by omega
    rw [e]
    have := int_aux hb hP (W := 32) (by norm_num) (2 ^ 32 + m).toNat (by omega) (by omega)
    rw [← natCast_zsmul] at this
    rwa [Int.toNat_of_nonneg (by omega)] at this

omit [DecidableEq L] in
theorem inf_aux (h : FHom φ) {b : L} {P : J K} {A : (curve b).Point} (hP : Rep b (jmap φ P) A) : isInf P = true ↔ A = 0 := by
  rw [← h.isInf]
  refine (LawfulFF.isZero_iff _).trans ?_
  rcases hP with ⟨h1, h2⟩ | ⟨h1, hn, h2⟩
  · exact ⟨fun _ => h2, fun _ => h1⟩
  · exact ⟨fun t => absurd t h1, fun t => absurd (h2.symm.trans t) (Point.some_ne_zero hn)⟩

theorem card_smul {G : Type} [AddCommGroup G] {n : ℕ} (h : Nat.card G = n) (x : G) : n • x = 0 := by
  subst h; exact card_nsmul_eq_zero'

theorem norm_aux (h : FHom φ) (hi : ∀ {x y}, φ x = φ y → x = y) {b : L} {P : J K} {A : (curve b).Point} (hP : Rep b (jmap φ P) A) :
    isInf (normalize P) = FF.eqb P.z 0 ∧ (FF.eqb P.z 0 = true ↔ A = 0) ∧
    (FF.eqb P.z 0 = false → normalize P = normalizeJac P ∧
      ∃ hn : (curve b).Nonsingular (φ (normalize P).x) (φ (normalize P).y), A = .some _ _ hn) := by
  have e0 : FF.eqb P.z 0 = FF.isZero P.z := by
    rw [← h.eqb_zero, ← h.isZero, Bool.eq_iff_iff, LawfulFF.eqb_iff, LawfulFF.isZero_iff]
  have hA : FF.eqb P.z 0 = true ↔ A = 0 := by
    rw [← h.eqb_zero, LawfulFF.eqb_iff]
    rcases hP with ⟨h1, h2⟩ | ⟨h1, hn, h2⟩
    · exact ⟨fun _ => h2, fun _ => h1⟩
    · exact ⟨fun t => absurd t h1, fun t => absurd (h2.symm.trans t) (Point.some_ne_zero hn)⟩
  obtain ⟨n1, n2⟩ := normalize_spec hP
  rw [← h.normalize] at n1 n2
  refine ⟨?_, hA, fun hz => ⟨?_, ?_⟩⟩
  · by_cases hz : FF.eqb P.z 0 = true
    · rw [hz]
      have : isInf P = true := e0.symm.trans hz
      unfold Ec.normalize
      rw [this, Bool.true_or, if_pos rfl, this]
    · rw [Bool.not_eq_true] at hz
      rw [hz, ← h.isInf, ← Bool.not_eq_true]
      intro t
      have z0 : (jmap φ (normalize P)).z = 0 := (LawfulFF.isZero_iff _).1 t
      rcases n1 with ⟨h1, h2⟩ | ⟨h1, -⟩
      · rw [hA.2 h2] at hz; exact Bool.noConfusion hz
      · exact h1 z0
  · unfold Ec.normalize normalizeJac
    have : isInf P = false := e0.symm.trans hz
    rw [this, hz, Bool.false_or, if_neg Bool.false_ne_true]
    have hc : ∀ x y : K, x * y = y * x := fun x y => hi (by rw [h.mul, h.mul, mul_comm])
    dsimp only
    rw [hc P.z⁻¹]
  · rcases n2 with n2 | n2
    · rcases n1.elim with ⟨h0, -⟩ | ⟨x, y, hn, -, hx, hy, e⟩
      · rw [n2] at h0; exact absurd h0 one_ne_zero
      · rw [n2] at hx hy
        have e1 : x = φ (normalize P).x := by rw [show φ (normalize P).x = _ from hx]; ring
        have e2 : y = φ (normalize P).y := by rw [show φ (normalize P).y = _ from hy]; ring
        subst e1 e2
        exact ⟨hn, e⟩
    · rcases n1 with ⟨h1, h2⟩ | ⟨h1, -⟩
      · rw [hA.2 h2] at hz; exact Bool.noConfusion hz
      · exact absurd n2 h1
end

/-- **C77** after every sequence of `init`, whatever its order, `isValid` tests membership of the curve selected last, on both
groups; ξ = 9 + u -/
theorem C77_isValid (l : List Curve) (hl : l ≠ []) : ∃ s, St.start.run l = .ok s ∧
    (∀ P, ∃ v, isValid1 s P = .ok v ∧ (v = true ↔ residue P.z.n = 0 ∨
      residue P.y.n ^ 2 = residue P.x.n ^ 3 + ((l.getLast hl).b : ZMod p) * residue P.z.n ^ 6)) ∧
    (∀ Q, ∃ v, isValid2 s Q = .ok v ∧ (v = true ↔ Q.z.v.sden = 0 ∨
      (⟨9, 1⟩ : G2) * Q.y.v.sden ^ 2 = ⟨9, 1⟩ * Q.x.v.sden ^ 3 + ((l.getLast hl).b : G2) * Q.z.v.sden ^ 6)) := by
  obtain ⟨s, e, h1, h2, h3⟩ := run_binv l hl
  refine ⟨s, e, isValid1_spec h1, fun Q => ?_⟩
  obtain ⟨v, e, h⟩ := isValid2_spec h2 h3 Q
  refine ⟨v, e, h.trans ?_⟩
  have hx : (⟨9, 1⟩ : G2) = G2.xi := rfl
  rw [hx]
  show Q.z.v.sden = 0 ∨ Q.y.v.sden ^ 2 = Q.x.v.sden ^ 3 + (l.getLast hl).twist * Q.z.v.sden ^ 6 ↔ _
  have hn : G2.xi ≠ 0 := xi_ne
  have ht : G2.xi * (l.getLast hl).twist = ((l.getLast hl).b : G2) := by
    unfold Curve.twist; field_simp
  refine or_congr Iff.rfl ⟨fun t => ?_, fun t => mul_left_cancel₀ hn ?_⟩
  · rw [t, ← ht]; ring
  · rw [t, ← ht]; ring

/-- **C77** a triple is valid exactly when it stands for a point of the curve, which is then unique -/
theorem C77_represents (l : List Curve) (hl : l ≠ []) : ∃ s, St.start.run l = .ok s ∧
    (∀ P, isValid1 s P = .ok true ↔ ∃! A : (curve ((l.getLast hl).b : ZMod p)).Point, Rep _ (den1 P) A) ∧
    (∀ Q, isValid2 s Q = .ok true ↔ ∃! B : (curve (l.getLast hl).twist).Point, Rep _ (den2 Q) B) := by
  obtain ⟨s, e, h1, h2, h3⟩ := run_binv l hl
  refine ⟨s, e, fun P => ?_, fun Q => ?_⟩
  · obtain ⟨v, e, h⟩ := isValid1_spec h1 P
    have : isValid1 s P = .ok true ↔ v = true := by rw [e]; exact ⟨Res.ok.inj, congrArg _⟩
    rw [this, h]
    refine ⟨fun h => ?_, fun ⟨A, h, _⟩ => h.valid (Curve.good1 _)⟩
    obtain ⟨A, hA⟩ := h.rep (Curve.good1 _)
    exact ⟨A, hA, fun B hB => hB.unique hA⟩
  · obtain ⟨v, e, h⟩ := isValid2_spec h2 h3 Q
    have : isValid2 s Q = .ok true ↔ v = true := by rw [e]; exact ⟨Res.ok.inj, congrArg _⟩
    rw [this, h]
    refine ⟨fun h => ?_, fun ⟨A, h, _⟩ => h.valid (Curve.good _)⟩
    obtain ⟨A, hA⟩ := h.rep (Curve.good _)
    exact ⟨A, hA, fun B hB => hB.unique hA⟩

/-- **C77** doubling, addition in every case and whatever the output held before, subtraction, negation, both normalisations
and `operator==` on the curve over Fp -/
theorem C77_ops_G1 (c : Curve) (old : J C1) {P Q : J C1} {A B : (curve (c.b : ZMod p)).Point} (hP : Rep _ (den1 P) A)
    (hQ : Rep _ (den1 Q) B) :
    Rep _ (den1 (dbl P)) (A + A) ∧ Rep _ (den1 (Ec.add old P Q)) (A + B) ∧ Rep _ (den1 (Ec.sub old P Q)) (A - B) ∧
    Rep _ (den1 (Ec.neg P)) (-A) ∧ Rep _ (den1 (normalize P)) A ∧ Rep _ (den1 (normalizeJac P)) A ∧
    (eq P Q = true ↔ A = B) := ops_aux hom1 c.good1 old hP hQ
/-- **C77** the same on the twist -/
theorem C77_ops_G2 (c : Curve) (old : J C2) {P Q : J C2} {A B : (curve c.twist).Point} (hP : Rep _ (den2 P) A)
    (hQ : Rep _ (den2 Q) B) :
    Rep _ (den2 (dbl P)) (A + A) ∧ Rep _ (den2 (Ec.add old P Q)) (A + B) ∧ Rep _ (den2 (Ec.sub old P Q)) (A - B) ∧
    Rep _ (den2 (Ec.neg P)) (-A) ∧ Rep _ (den2 (normalize P)) A ∧ Rep _ (den2 (normalizeJac P)) A ∧
    (eq P Q = true ↔ A = B) := ops_aux hom2 c.good old hP hQ

/-- **C77** scalar multiplication by a `Vuint` of any length, a non-negative `int`, a `size_t`; a negative `int` m acts as
2^32 + m -/
theorem C77_scalar_G1 (c : Curve) {P : J C1} {A : (curve (c.b : ZMod p)).Point} (hP : Rep _ (den1 P) A) :
    (∀ s, WF s → Rep _ (den1 (scalarMult P s)) (val s • A)) ∧
    (∀ m : ℕ, m < 2 ^ 31 → Rep _ (den1 (scalarMultInt P m)) (m • A)) ∧
    (∀ m : ℕ, m < 2 ^ 64 → Rep _ (den1 (scalarMultSize P m)) (m • A)) ∧
    (∀ m : ℤ, -2 ^ 31 ≤ m → m < 0 → Rep _ (den1 (scalarMultInt P m)) ((2 ^ 32 + m) • A)) := sm_aux hom1 c.good1 hP
theorem C77_scalar_G2 (c : Curve) {P : J C2} {A : (curve c.twist).Point} (hP : Rep _ (den2 P) A) :
    (∀ s, WF s → Rep _ (den2 (scalarMult P s)) (val s • A)) ∧
    (∀ m : ℕ, m < 2 ^ 31 → Rep _ (den2 (scalarMultInt P m)) (m • A)) ∧
    (∀ m : ℕ, m < 2 ^ 64 → Rep _ (den2 (scalarMultSize P m)) (m • A)) ∧
    (∀ m : ℤ, -2 ^ 31 ≤ m → m < 0 → Rep _ (den2 (scalarMultInt P m)) ((2 ^ 32 + m) • A)) := sm_aux hom2 c.good hP

theorem r_aux {b : ZMod p} (hb : Good b) (hc : Nat.card (curve b).Point = r) {P : J C1} (hP : Valid b (den1 P)) {s : List ℕ}
    (hs : WF s) (hr : val s = r) : isInf (scalarMult P s) = true := by
  obtain ⟨A, hA⟩ := hP.rep hb
  exact (inf_aux hom1 ((sm_aux hom1 hb hA).1 s hs)).2 (card_smul (hc.trans hr.symm) A)

/-- **C77** r times any valid point of the curve over Fp is infinity -/
theorem C77_r (c : Curve) {P : J C1} (hP : Valid (c.b : ZMod p) (den1 P)) {s : List ℕ} (hs : WF s) (hr : val s = r) :
    isInf (scalarMult P s) = true := r_aux c.good1 (C76_order c) hP hs hr

/-- **C77** the two entry points agree on valid points -/
theorem C77_same (c : Curve) (k : Bool) (g : Cfg) {Q : J C2} {P : J C1} (hQ : Valid c.twist (den2 Q))
    (hP : Valid (c.b : ZMod p) (den1 P)) : ecPairing k g Q P = jacPairing k g Q P := by
  obtain ⟨B, hB⟩ := hQ.rep c.good
  obtain ⟨A, hA⟩ := hP.rep c.good1
  obtain ⟨q1, q2, q3⟩ := norm_aux hom2 C2.den_inj.1 hB
  obtain ⟨p1, p2, p3⟩ := norm_aux hom1 C1.den_inj.1 hA
  unfold ecPairing jacPairing
  dsimp only
  rw [q1, p1]
  by_cases h : (FF.eqb Q.z 0 || FF.eqb P.z 0) = true
  · rw [if_pos h, if_pos h]
  · rw [if_neg h, if_neg h]
    rw [Bool.not_eq_true, Bool.or_eq_false_iff] at h
    rw [(q3 h.1).1, (p3 h.2).1]

theorem entry_aux {c : Curve} {S : Abs.Setup (ZMod p) G2 G12} (hS : Pr.Is c S) {tw : G2} {b : ZMod p} (ht : S.tw = tw)
    (hb : S.b = b) : ∃ e : (curve tw).Point → (curve b).Point → G12ˣ,
    (∀ B B' A, r • B = 0 → r • B' = 0 → e (B + B') A = e B A * e B' A) ∧
    (∀ B A A', r • B = 0 → e B (A + A') = e B A * e B A') ∧
    (∀ B A, r • B = 0 → e B A ^ r = 1) ∧
    (∀ B A, r • B = 0 → (e B A = 1 ↔ B = 0 ∨ A = 0)) ∧
    ∀ g : Cfg, g.binv.SCan → G2.xi * beta g.b82 g.binv = (c.b : G2) →
      ∀ (Q : J C2) (P : J C1) B A, Rep tw (den2 Q) B → Rep b (den1 P) A → r • B = 0 →
        (B = 0 ∨ A = 0 → ecPairing false g Q P = .ok oneW ∧ ecPairing true g Q P = .ok oneW) ∧
        ∀ y, ecPairing true g Q P = .ok y → ecPairing false g Q P = .ok y ∧ y.SCan ∧ y.sden = (e B A : G12) := by
  obtain ⟨e, h1, h2, h3, h4, h5⟩ := pairing_aux hS ht hb
  refine ⟨e, h1, h2, h3, h4, fun g hg hf Q P B A hB hA hr => ?_⟩
  obtain ⟨q1, q2, q3⟩ := norm_aux hom2 C2.den_inj.1 hB
  obtain ⟨p1, p2, p3⟩ := norm_aux hom1 C1.den_inj.1 hA
  have z : B = 0 ∨ A = 0 ↔ (isInf (normalize Q) || isInf (normalize P)) = true := by
    rw [q1, p1, Bool.or_eq_true, q2, p2]
  have inf : B = 0 ∨ A = 0 → ∀ k, ecPairing k g Q P = .ok oneW := fun h k => by
    unfold ecPairing; dsimp only
    rw [if_pos (z.1 h)]
  refine ⟨fun h => ⟨inf h _, inf h _⟩, fun y hy => ?_⟩
  by_cases h : B = 0 ∨ A = 0
  · rw [inf h] at hy
    cases hy
    refine ⟨inf h _, by decide +kernel, ?_⟩
    rw [oneW_sden, (h4 B A hr).2 h, Units.val_one]
  · have h' : ¬ (isInf (Ec.normalize Q) || isInf (Ec.normalize P)) = true := fun t => h (z.2 t)
    unfold ecPairing at hy ⊢
    dsimp only at hy ⊢
    rw [if_neg h'] at hy ⊢
    rw [q1, p1, Bool.not_eq_true, Bool.or_eq_false_iff] at h'
    obtain ⟨-, hq, eq⟩ := q3 h'.1
    obtain ⟨-, hp, ep⟩ := p3 h'.2
    rw [eq] at hr ⊢
    rw [ep]
    exact h5 g hg hf (affQ (normalize Q)) (affP (normalize P)) (normalize Q).x.can (normalize Q).y.can (normalize P).x.lt
      (normalize P).y.lt hq hp hr y hy

/-- **C77** `opt_atePairing(f, Q, P)` on points in any coordinates, infinity included: with the map e of C76 the result is
e(B, A) for the points B, A in Q, P, hence the same for all representatives; 1 is stored if and only if one of them is
infinity.  By `C77_same` this is also `opt_atePairingJac`. -/
theorem C77_pairing (c : Curve) : ∃ e : (curve c.twist).Point → (curve (c.b : ZMod p)).Point → G12ˣ,
    (∀ B B' A, r • B = 0 → r • B' = 0 → e (B + B') A = e B A * e B' A) ∧
    (∀ B A A', r • B = 0 → e B (A + A') = e B A * e B A') ∧
    (∀ B A, r • B = 0 → e B A ^ r = 1) ∧
    (∀ B A, r • B = 0 → (e B A = 1 ↔ B = 0 ∨ A = 0)) ∧
    ∀ (l : List Curve) (hl : l ≠ []), l.getLast hl = c → l.head hl = .snark1 ∨ c = .snark2 →
      ∃ s, St.start.run l = .ok s ∧
      ∀ (Q : J C2) (P : J C1) B A, Rep c.twist (den2 Q) B → Rep (c.b : ZMod p) (den1 P) A → r • B = 0 →
        (B = 0 ∨ A = 0 → ecPairing false ⟨s.b82, s.binv⟩ Q P = .ok oneW ∧ ecPairing true ⟨s.b82, s.binv⟩ Q P = .ok oneW) ∧
        ∀ y, ecPairing true ⟨s.b82, s.binv⟩ Q P = .ok y →
          ecPairing false ⟨s.b82, s.binv⟩ Q P = .ok y ∧ y.SCan ∧ y.sden = (e B A : G12) := by
  obtain ⟨e, h1, h2, h3, h4, h5⟩ := entry_aux (Pr.is_setup c) (Pr.is_setup c).tw (Pr.is_setup c).b
  refine ⟨e, h1, h2, h3, h4, fun l hl hc hh => ?_⟩
  obtain ⟨s, e1, e2, e3⟩ := factor_iff l hl
  rw [hc] at e3
  exact ⟨s, e1, h5 ⟨s.b82, s.binv⟩ e2 (e3.2 hh)⟩

theorem bilin_aux {c : Curve} {S : Abs.Setup (ZMod p) G2 G12} (hS : Pr.Is c S) {tw : G2} {b : ZMod p} (ht : S.tw = tw)
    (hb : S.b = b) (ht' : Good tw) (hb' : Good b) {g : Cfg} (hg : g.binv.SCan) (hf : G2.xi * beta g.b82 g.binv = (c.b : G2))
    {Q : J C2} {P : J C1} {B A} (hQ : Rep tw (den2 Q) B) (hP : Rep b (den1 P) A) (hr : r • B = 0)
    {u v : List ℕ} (hu : WF u) (hv : WF v) {y y' : R12} (hy : ecPairing true g Q P = .ok y)
    (hy' : ecPairing true g (scalarMult Q u) (scalarMult P v) = .ok y') :
    ecPairing false g Q P = .ok y ∧ ecPairing false g (scalarMult Q u) (scalarMult P v) = .ok y' ∧
      y'.sden = y.sden ^ (val u * val v) ∧ y.sden ^ r = 1 ∧ (y.sden = 1 ↔ isInf Q = true ∨ isInf P = true) := by
  obtain ⟨e, h1, h2, h3, h4, h5⟩ := entry_aux hS ht hb
  obtain ⟨k1, k2, k3⟩ := (h5 g hg hf Q P B A hQ hP hr).2 y hy
  obtain ⟨l1, l2, l3⟩ := (h5 g hg hf _ _ _ _ ((sm_aux hom2 ht' hQ).1 u hu) ((sm_aux hom1 hb' hP).1 v hv) (tors hr _)).2 y' hy'
  have z1 : ∀ A, e 0 A = 1 := fun A => (h4 0 A (nsmul_zero r)).2 (.inl rfl)
  have z2 : ∀ B, r • B = 0 → e B 0 = 1 := fun B h => (h4 B 0 h).2 (.inr rfl)
  have m1 : ∀ B A, r • B = 0 → ∀ n : ℕ, e (n • B) A = e B A ^ n := fun B A h n => by
    induction n with
    | zero => rw [zero_nsmul, z1, pow_zero]
    | succ n ih => rw [succ_nsmul, h1 _ _ _ (tors h _) h, ih, pow_succ]
  have m2 : ∀ B A, r • B = 0 → ∀ n : ℕ, e B (n • A) = e B A ^ n := fun B A h n => by
    induction n with
    | zero => rw [zero_nsmul, z2 B h, pow_zero]
    | succ n ih => rw [succ_nsmul, h2 _ _ _ h, ih, pow_succ]
  refine ⟨k1, l1, ?_, ?_, ?_⟩
  · rw [l3, k3, m2 _ _ (tors hr _), m1 _ _ hr, ← pow_mul, Units.val_pow_eq_pow_val]
  · rw [k3, ← Units.val_pow_eq_pow_val, h3 _ _ hr, Units.val_one]
  · have i1 : isInf Q = true ↔ B = 0 := inf_aux hom2 hQ
    have i2 : isInf P = true ↔ A = 0 := inf_aux hom1 hP
    rw [i1, i2, ← h4 B A hr, k3]
    exact ⟨fun h => Units.ext h, fun h => by rw [h, Units.val_one]⟩

/-- **C77** bilinearity through the interface: the pairing of the results of scalar multiplication is the power -/
theorem C77_bilinear (c : Curve) {g : Cfg} (hg : g.binv.SCan) (hf : G2.xi * beta g.b82 g.binv = (c.b : G2))
    {Q : J C2} {P : J C1} {B A} (hQ : Rep c.twist (den2 Q) B) (hP : Rep (c.b : ZMod p) (den1 P) A) (hr : r • B = 0)
    {u v : List ℕ} (hu : WF u) (hv : WF v) {y y' : R12} (hy : ecPairing true g Q P = .ok y)
    (hy' : ecPairing true g (scalarMult Q u) (scalarMult P v) = .ok y') :
    ecPairing false g Q P = .ok y ∧ ecPairing false g (scalarMult Q u) (scalarMult P v) = .ok y' ∧
      y'.sden = y.sden ^ (val u * val v) ∧ y.sden ^ r = 1 ∧ (y.sden = 1 ↔ isInf Q = true ∨ isInf P = true) :=
  bilin_aux (Pr.is_setup c) (Pr.is_setup c).tw (Pr.is_setup c).b c.good c.good1 hg hf hQ hP hr hu hv hy hy'

/-- triples of the generators -/
def tP (c : Curve) : J C1 := ⟨⟨_, (Pr.bufP_lt c).1⟩, ⟨_, (Pr.bufP_lt c).2⟩, 1⟩
def tQ (c : Curve) : J C2 := ⟨⟨_, (Pr.bufQ_can c).1⟩, ⟨_, (Pr.bufQ_can c).2⟩, 1⟩

example : isValid1 ⟨true, false, 3, Pr.bufB .snark1⟩ (tP .snark1) = .ok true ∧
    isValid1 ⟨true, false, 3, Pr.bufB .snark1⟩ ⟨(tP .snark1).x, (tP .snark1).x, 1⟩ = .ok false ∧
    isValid1 ⟨true, true, 82, Pr.bufB .snark2⟩ (tP .snark1) = .ok false ∧
    isValid2 ⟨true, false, 3, Pr.bufB .snark1⟩ (tQ .snark1) = .ok true ∧
    isValid2 ⟨true, true, 82, Pr.bufB .snark2⟩ (tQ .snark2) = .ok true ∧
    isValid2 ⟨true, true, 82, Pr.bufB .snark2⟩ (tQ .snark1) = .ok false := by decide +kernel
example (c : Curve) : eq (Ec.add (tP c) (dbl (tP c)) (tP c)) (scalarMult (tP c) [3]) = true ∧
    eq (Ec.sub (tP c) (dbl (tP c)) (tP c)) (tP c) = true ∧ eq (dbl (tP c)) (tP c) = false ∧
    isInf (Ec.add (tP c) (tP c) (Ec.neg (tP c))) = true ∧
    eq (Ec.add (tQ c) (dbl (tQ c)) (tQ c)) (scalarMult (tQ c) [3]) = true ∧
    eq (scalarMultInt (tQ c) 5) (scalarMultSize (tQ c) 5) = true ∧
    eq (scalarMultInt (tP c) (-1)) (Ec.neg (tP c)) = false ∧ normalize (dbl (tP c)) ≠ dbl (tP c) := by
  cases c <;> decide +kernel
/-- the hypotheses of C77_pairing and C77_bilinear hold for the generators, for each curve, and the result is not 1 -/
example (c : Curve) : ∃ (B : (curve c.twist).Point) (A : (curve (c.b : ZMod p)).Point), Rep _ (den2 (tQ c)) B ∧
    Rep _ (den1 (tP c)) A ∧ r • B = 0 := by
  have key : ∀ {S : Abs.Setup (ZMod p) G2 G12}, Pr.Is c S → ∀ tw b, S.tw = tw → S.b = b →
      ∃ (B : (curve tw).Point) (A : (curve b).Point), Rep _ (den2 (tQ c)) B ∧ Rep _ (den1 (tP c)) A ∧ r • B = 0 := by
    rintro S hS tw b rfl rfl
    obtain ⟨v1, v2⟩ := Pr.bufQ_val c
    have v3 := Pr.bufP_val c
    have h := (Pr.genN_tor hS).r
    rw [hS.r] at h
    refine ⟨_, _, Rep.mk (Pr.genN_non hS) ?_ ?_ ?_, Rep.mk (Pr.genP_non hS) ?_ ?_ ?_, h⟩
    · show (⟨montR, 0⟩ : R2).sden ≠ 0
      rw [one_sden]; exact one_ne_zero
    · show (Pr.bufQ c).1.sden = _ * (⟨montR, 0⟩ : R2).sden ^ 2
      rw [one_sden, v1.2, one_pow, mul_one]
    · show (Pr.bufQ c).2.sden = _ * (⟨montR, 0⟩ : R2).sden ^ 3
      rw [one_sden, v2.2, one_pow, mul_one]
    · show residue montR ≠ 0
      rw [residue_montR]; exact one_ne_zero
    · show residue (Pr.bufP c).1 = _ * residue montR ^ 2
      rw [residue_montR, v3.ex, one_pow, mul_one]
    · show residue (Pr.bufP c).2 = _ * residue montR ^ 3
      rw [residue_montR, v3.ey, one_pow, mul_one]
  exact key (Pr.is_setup c) _ _ (Pr.is_setup c).tw (Pr.is_setup c).b
example (c : Curve) (l : List Curve) (hl : l ≠ []) (hc : l.getLast hl = c) (hh : l.head hl = .snark1 ∨ c = .snark2) :
    ∃ s, St.start.run l = .ok s ∧ ∃ y, ecPairing true ⟨s.b82, s.binv⟩ (tQ c) (tP c) = .ok y ∧ y.a.a.a ≠ montR := by
  obtain ⟨s, e1, e2, e3⟩ := factor_iff l hl
  rw [hc] at e3
  refine ⟨s, e1, ?_⟩
  have h1 : normalize (tQ c) = tQ c := by cases c <;> decide +kernel
  have h2 : normalize (tP c) = tP c := by cases c <;> decide +kernel
  have h3 : (isInf (tQ c) || isInf (tP c)) = false := by cases c <;> decide +kernel
  unfold ecPairing
  dsimp only
  rw [h1, h2, h3, if_neg Bool.false_ne_true]
  exact Pr.run_model c ⟨e2, e3.2 hh⟩

end Verif.Snark
