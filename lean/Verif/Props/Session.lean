import Verif.Ec.Session
import Verif.Props.Pairing
import Verif.Props.SnarkEc
import Verif.Snark.CompInf

/-!
Property theorems C81: sequences of calls on points of both groups with pairings between them.
-/

namespace Verif
open Fp Ec

/-! ### Model of the sequences -/

/-- One call of the default build on the objects of class `Ec1` and `Ec2`.  `opt_atePairing` normalises its operands, bn.h:2968-2969. -/
def Session.step (m : Mem Fe × Mem F2) : Ses → (Mem Fe × Mem F2) × Out F12
  | .g1 c => (((c.step m.1).1, m.2), .ec (c.step m.1).2)
  | .g2 c => ((m.1, (c.step m.2).1), .ec (c.step m.2).2)
  | .pair q p => ((m.1.put p (normalize (m.1 p)), m.2.put q (normalize (m.2 q))), .gt (Pairing.optAte (m.2 q) (m.1 p)))

/-- a sequence: final objects and answers -/
def Session.run (m : Mem Fe × Mem F2) : List Ses → (Mem Fe × Mem F2) × List (Out F12)
  | [] => (m, [])
  | s :: ss =>
    let x := step m s
    let y := run x.1 ss
    (y.1, x.2 :: y.2)

namespace Snark

/-- One call of the SNARK build; the flag is `false` for the code, `true` for the checked run (Final.lean). -/
def sStep (k : Bool) (g : Cfg) (m : Mem C1 × Mem C2) : Ses → Res ((Mem C1 × Mem C2) × Out R12)
  | .g1 c => .ok (((c.step m.1).1, m.2), .ec (c.step m.1).2)
  | .g2 c => .ok ((m.1, (c.step m.2).1), .ec (c.step m.2).2)
  | .pair q p => do
    let f ← ecPairing k g (m.2 q) (m.1 p)
    pure ((m.1.put p (normalize (m.1 p)), m.2.put q (normalize (m.2 q))), .gt f)

def sRun (k : Bool) (g : Cfg) (m : Mem C1 × Mem C2) : List Ses → Res ((Mem C1 × Mem C2) × List (Out R12))
  | [] => .ok (m, [])
  | s :: ss => do
    let x ← sStep k g m s
    let y ← sRun k g x.1 ss
    pure (y.1, x.2 :: y.2)

end Snark

/-! ### C81 -/

theorem spec_tors {G : Type} [AddCommGroup G] {n : ℕ} {B : ℕ → G} (h : ∀ k, n • B k = 0) (c : Call) (k : ℕ) : n • c.spec B k = 0 := by
  have key : ∀ (o : ℕ) (x : G), n • x = 0 → n • Call.upd B o x k = 0 := fun o x hx => by
    unfold Call.upd; split
    · exact hx
    · exact h k
  cases c with
  | clear o => exact key o _ (nsmul_zero n)
  | copy o a => exact key o _ (h a)
  | dbl o a => exact key o _ (by rw [nsmul_add, h, add_zero])
  | add o a b => exact key o _ (by rw [nsmul_add, h, h, add_zero])
  | sub o a b => exact key o _ (by rw [nsmul_sub, h, h, sub_zero])
  | neg o a => exact key o _ (by rw [smul_neg, h, neg_zero])
  | mul o a s => exact key o _ (by rw [nsmul_left_comm, h, nsmul_zero])
  | normalize a => exact h k
  | eq a b => exact h k

theorem homId {K : Type} [Field K] [FF K] : FHom (id : K → K) :=
  ⟨fun _ _ => rfl, fun _ _ => rfl, fun _ _ => rfl, fun _ => rfl, fun _ => rfl, rfl, rfl, fun _ => rfl, fun _ => rfl, fun _ _ => rfl⟩

/-- **C81** default build.  There is a map e, bilinear and non-degenerate on points of order r, such that for every sequence of calls
(of any length, in any order, objects coinciding in any way, the results of earlier calls used in later ones, operands changed by
`==` and by the pairing) on objects that stand for points A k of the curve and points B k of order r of the twist: every answer
of `==` says whether the points are equal, every pairing is e of the two points at that moment, and the objects stand in the end
for the points which the sequence gives in the groups. -/
theorem C81_default : ∃ e : (curve b2).Point → (curve b1).Point → F12ˣ,
    (∀ B B' A, r • B = 0 → r • B' = 0 → e (B + B') A = e B A * e B' A) ∧
    (∀ B A A', r • B = 0 → e B (A + A') = e B A * e B A') ∧
    (∀ B A, r • B = 0 → (e B A = 1 ↔ B = 0 ∨ A = 0)) ∧
    ∀ (ss : List Ses), (∀ s ∈ ss, s.Wf) → ∀ (m : Mem Fe × Mem F2) (A : ℕ → (curve b1).Point) (B : ℕ → (curve b2).Point),
      (∀ k, Rep b1 (m.1 k) (A k)) → (∀ k, Rep b2 (m.2 k) (B k)) → (∀ k, r • B k = 0) →
      ∃ A' B', Ses.Agrees (fun B A => (e B A : F12)) id A B ss (Session.run m ss).2 A' B' ∧
        (∀ k, Rep b1 ((Session.run m ss).1.1 k) (A' k)) ∧ (∀ k, Rep b2 ((Session.run m ss).1.2 k) (B' k)) := by
  refine ⟨Pairing.pair, fun B B' A h h' => Pairing.pair_add_left h h' A, fun B A A' h => Pairing.pair_add h A A', fun B A h => ⟨Pairing.pair_eq_one h, ?_⟩, ?_⟩
  · rintro (h | h)
    · rw [h, Pairing.pair_zero_left]
    · rw [h, Pairing.pair_zero]
  intro ss
  induction ss with
  | nil => intro _ m A B h1 h2 _; exact ⟨A, B, ⟨rfl, rfl⟩, h1, h2⟩
  | cons s ss ih =>
    intro hw m A B h1 h2 h3
    have hw' : ∀ s ∈ ss, s.Wf := fun t ht => hw t (List.mem_cons_of_mem _ ht)
    have hs := hw s List.mem_cons_self
    cases s with
    | g1 c =>
      obtain ⟨k1, k2⟩ := c.step_spec homId (fun h => h) good1 (m := m.1) h1 hs
      obtain ⟨A', B', a, b, d⟩ := ih hw' ((c.step m.1).1, m.2) _ B k1 h2 h3
      exact ⟨A', B', ⟨k2, a⟩, b, d⟩
    | g2 c =>
      obtain ⟨k1, k2⟩ := c.step_spec homId (fun h => h) good2 (m := m.2) h2 hs
      obtain ⟨A', B', a, b, d⟩ := ih hw' (m.1, (c.step m.2).1) A _ h1 k1 (spec_tors h3 c)
      exact ⟨A', B', ⟨k2, a⟩, b, d⟩
    | pair q i =>
      have k1 : Reps id b1 (m.1.put i (normalize (m.1 i))) A := Reps.norm homId (m := m.1) h1 i
      have k2 : Reps id b2 (m.2.put q (normalize (m.2 q))) B := Reps.norm homId (m := m.2) h2 q
      obtain ⟨A', B', a, b, d⟩ := ih hw' (m.1.put i (normalize (m.1 i)), m.2.put q (normalize (m.2 q))) A B k1 k2 h3
      exact ⟨A', B', ⟨Pairing.optAte_rep (h2 q) (h1 i), a⟩, b, d⟩

/-- the hypotheses hold for the base points in every object -/
example : ∃ (A : ℕ → (curve b1).Point) (B : ℕ → (curve b2).Point), (∀ k, Rep b1 ((fun _ => g1 : Mem Fe) k) (A k)) ∧
    (∀ k, Rep b2 ((fun _ => g2 : Mem F2) k) (B k)) ∧ ∀ k, r • B k = 0 := by
  obtain ⟨A, hA⟩ := rep1 g1_valid
  obtain ⟨B, hB, hr⟩ := (inG2_iff g2).1 g2_inG2
  exact ⟨fun _ => A, fun _ => B, fun _ => hA, fun _ => hB, fun _ => hr⟩
/-- a sequence with coinciding objects: 2P + P = 3P ≠ P, and the comparison has changed the representative -/
example : ((Session.run (fun _ => g1, fun _ => g2) [.g1 (.dbl 0 0), .g1 (.add 0 0 1), .g1 (.mul 2 1 [3]), .g1 (.eq 0 2), .g1 (.eq 0 1),
      .g2 (.sub 3 3 3), .g2 (.eq 3 0)]).2.map fun o => match o with | .ec t => t | .gt _ => none) =
      [none, none, none, some true, some false, none, some false] ∧
    ((Session.run (fun _ => g1, fun _ => g2) [.g1 (.dbl 0 0), .g1 (.eq 0 1)]).1.1 0).z ≠
      ((Session.run (fun _ => g1, fun _ => g2) [.g1 (.dbl 0 0)]).1.1 0).z := by decide +kernel

namespace Snark

theorem sRun_cons {k : Bool} {g : Cfg} {m : Mem C1 × Mem C2} {s : Ses} {ss : List Ses} {x y} (h : sStep k g m s = .ok x)
    (h' : sRun k g x.1 ss = .ok y) : sRun k g m (s :: ss) = .ok (y.1, x.2 :: y.2) := by
  rw [sRun]
  exact Fast.ok_bind h (Fast.ok_bind h' rfl)
theorem sStep_g1 (k : Bool) (g : Cfg) (m : Mem C1 × Mem C2) (c : Call) :
    sStep k g m (.g1 c) = .ok (((c.step m.1).1, m.2), .ec (c.step m.1).2) := by rw [sStep]
theorem sStep_g2 (k : Bool) (g : Cfg) (m : Mem C1 × Mem C2) (c : Call) :
    sStep k g m (.g2 c) = .ok ((m.1, (c.step m.2).1), .ec (c.step m.2).2) := by rw [sStep]
theorem sStep_pair {k : Bool} {g : Cfg} {m : Mem C1 × Mem C2} {q i : ℕ} {f : R12} (h : ecPairing k g (m.2 q) (m.1 i) = .ok f) :
    sStep k g m (.pair q i) = .ok ((m.1.put i (normalize (m.1 i)), m.2.put q (normalize (m.2 q))), .gt f) := by
  rw [sStep]
  exact Fast.ok_bind h rfl
theorem sStep_pair_inv {k : Bool} {g : Cfg} {m : Mem C1 × Mem C2} {q i : ℕ} {x} (h : sStep k g m (.pair q i) = .ok x) :
    ∃ f, ecPairing k g (m.2 q) (m.1 i) = .ok f := by
  rw [sStep] at h
  obtain ⟨f, f1, -⟩ := bind_eq_ok h
  exact ⟨f, f1⟩

/-- **C81** SNARK build, both curves, after each sequence of `init` ending with this curve (and, for SNARK1, starting with SNARK1):
the same for every sequence of calls whose checked run ends; the code then gives the same objects and answers. -/
theorem C81_snark (c : Curve) : ∃ e : (curve c.twist).Point → (curve (c.b : ZMod p)).Point → G12ˣ,
    (∀ B B' A, r • B = 0 → r • B' = 0 → e (B + B') A = e B A * e B' A) ∧
    (∀ B A A', r • B = 0 → e B (A + A') = e B A * e B A') ∧
    (∀ B A, r • B = 0 → (e B A = 1 ↔ B = 0 ∨ A = 0)) ∧
    ∀ (l : List Curve) (hl : l ≠ []), l.getLast hl = c → l.head hl = .snark1 ∨ c = .snark2 →
      ∃ s, St.start.run l = .ok s ∧
      ∀ (ss : List Ses), (∀ t ∈ ss, t.Wf) → ∀ (m : Mem C1 × Mem C2) (A : ℕ → (curve (c.b : ZMod p)).Point)
        (B : ℕ → (curve c.twist).Point), (∀ k, Rep (c.b : ZMod p) (den1 (m.1 k)) (A k)) → (∀ k, Rep c.twist (den2 (m.2 k)) (B k)) →
        (∀ k, r • B k = 0) → ∀ m' os, sRun true ⟨s.b82, s.binv⟩ m ss = .ok (m', os) →
        sRun false ⟨s.b82, s.binv⟩ m ss = .ok (m', os) ∧
        ∃ A' B', Ses.Agrees (fun B A => (e B A : G12)) R12.sden A B ss os A' B' ∧
          (∀ k, Rep (c.b : ZMod p) (den1 (m'.1 k)) (A' k)) ∧ (∀ k, Rep c.twist (den2 (m'.2 k)) (B' k)) := by
  obtain ⟨e, e1, e2, -, e4, e5⟩ := C77_pairing c
  refine ⟨e, e1, e2, e4, fun l hl hc hh => ?_⟩
  obtain ⟨s, s1, s2⟩ := e5 l hl hc hh
  refine ⟨s, s1, ?_⟩
  clear e5 s1
  generalize (⟨s.b82, s.binv⟩ : Cfg) = g at s2 ⊢
  intro ss
  induction ss with
  | nil =>
    intro _ m A B h1 h2 _ m' os h
    cases h
    exact ⟨rfl, A, B, ⟨rfl, rfl⟩, h1, h2⟩
  | cons t ss ih =>
    intro hw m A B h1 h2 h3 m' os h
    have hw' : ∀ s ∈ ss, s.Wf := fun t ht => hw t (List.mem_cons_of_mem _ ht)
    have hs := hw t List.mem_cons_self
    rw [sRun] at h
    obtain ⟨x, x1, h⟩ := bind_eq_ok h
    obtain ⟨y, y1, y2⟩ := bind_eq_ok h
    obtain ⟨rfl, rfl⟩ := Prod.mk.inj (Res.ok.inj y2)
    cases t with
    | g1 d =>
      rw [sStep_g1] at x1
      obtain rfl := Res.ok.inj x1
      obtain ⟨k1, k2⟩ := d.step_spec hom1 C1.den_inj.1 c.good1 (m := m.1) h1 hs
      obtain ⟨z, A', B', a, b, f⟩ := ih hw' ((d.step m.1).1, m.2) _ B k1 h2 h3 _ _ y1
      exact ⟨sRun_cons (sStep_g1 _ _ _ _) z, A', B', ⟨k2, a⟩, b, f⟩
    | g2 d =>
      rw [sStep_g2] at x1
      obtain rfl := Res.ok.inj x1
      have h4 : Reps C2.den c.twist m.2 B := h2
      obtain ⟨k1, k2⟩ := d.step_spec hom2 C2.den_inj.1 c.good h4 hs
      have h5 : ∀ k, r • d.spec B k = 0 := spec_tors h3 d
      obtain ⟨z, A', B', a, b, f⟩ := ih hw' (m.1, (d.step m.2).1) A (d.spec B) h1 k1 h5 _ _ y1
      exact ⟨sRun_cons (sStep_g2 _ _ _ _) z, A', B', ⟨k2, a⟩, b, f⟩
    | pair q i =>
      obtain ⟨f, f1⟩ := sStep_pair_inv x1
      rw [sStep_pair f1] at x1
      obtain rfl := Res.ok.inj x1
      obtain ⟨w1, -, w3⟩ := (s2 _ _ _ _ (h2 q) (h1 i) (h3 q)).2 f f1
      have k1 : Reps C1.den _ (m.1.put i (normalize (m.1 i))) A := Reps.norm hom1 (m := m.1) h1 i
      have k2 : Reps C2.den _ (m.2.put q (normalize (m.2 q))) B := Reps.norm hom2 (m := m.2) h2 q
      obtain ⟨z, A', B', a, b, d⟩ := ih hw' (m.1.put i (normalize (m.1 i)), m.2.put q (normalize (m.2 q))) A B k1 k2 h3 _ _ y1
      exact ⟨sRun_cons (sStep_pair w1) z, A', B', ⟨w3, a⟩, b, d⟩

/-- sequences whose checked run ends, for each curve and each sequence of `init`: a pairing of the base points, then a doubling, a
comparison and a negation; C77 shows the hypotheses on the points -/
example (c : Curve) (l : List Curve) (hl : l ≠ []) (hc : l.getLast hl = c) (hh : l.head hl = .snark1 ∨ c = .snark2) :
    ∃ s, St.start.run l = .ok s ∧ ∃ x, sRun true ⟨s.b82, s.binv⟩ (fun _ => tP c, fun _ => tQ c)
      [.pair 0 0, .g1 (.dbl 0 0), .g1 (.eq 0 1), .g2 (.neg 1 0)] = .ok x := by
  obtain ⟨s, e1, e2, e3⟩ := factor_iff l hl
  rw [hc] at e3
  refine ⟨s, e1, ?_⟩
  have h1 : normalize (tQ c) = tQ c := by cases c <;> decide +kernel
  have h2 : normalize (tP c) = tP c := by cases c <;> decide +kernel
  have h3 : (isInf (tQ c) || isInf (tP c)) = false := by cases c <;> decide +kernel
  have h4 : ∃ y, ecPairing true ⟨s.b82, s.binv⟩ (tQ c) (tP c) = .ok y := by
    unfold ecPairing
    dsimp only
    rw [h1, h2, h3, if_neg Bool.false_ne_true]
    obtain ⟨y, hy, -⟩ := Pr.run_model c (g := ⟨s.b82, s.binv⟩) ⟨e2, e3.2 hh⟩
    exact ⟨y, hy⟩
  obtain ⟨y, hy⟩ := h4
  exact ⟨_, sRun_cons (sStep_pair (m := (fun _ => tP c, fun _ => tQ c)) hy) (sRun_cons (sStep_g1 _ _ _ _) (sRun_cons (sStep_g1 _ _ _ _)
    (sRun_cons (sStep_g2 _ _ _ _) (by rw [sRun]))))⟩

end Snark
end Verif
