import Verif.Props.Session
import Verif.Props.Power
import Verif.Props.Tower
import Verif.Props.Tmpl

/-!
Property theorems C85: sequences of calls on points of both groups and on objects of class `Fp12` that receive pairing values.
-/

namespace Verif
open Fp Ec

/-! ### Model of the sequences (default build) -/

/-- A call on `Fp12` objects given by their addresses.  Except `fixed_power` each routine gives the value of the function on the old
contents also if objects coincide (C61, C73), so a call stores that value. -/
inductive GtCall where
  /-- assignment of `Fp12(1)`, bn.h:1373-1377 -/
  | one (o : ℕ)
  /-- assignment of objects -/
  | copy (o a : ℕ)
  /-- `Fp12::mul(z, x, y)` and `*=`, bn.h:1450 -/
  | mul (o a b : ℕ)
  /-- `Fp12::square(z)`, bn.h:1476, in place -/
  | square (o : ℕ)
  /-- `z.sqru()`, bn.h:1561-1610, in place -/
  | sqru (o : ℕ)
  /-- `z.inverse()`, bn.h:1620-1634, in place -/
  | inverse (o : ℕ)
  /-- `x.Frobenius(z)`, bn.h:1640-1667 -/
  | frobenius (o a : ℕ)
  /-- `z = power(x, s)` with a `Vuint` s, zm.h:1387-1411 -/
  | power (o a : ℕ) (s : List ℕ)
  /-- `fixed_power(z, x)`, bn.h:2310-2337; for one and the same object (`C73_fixedPower_self`) it stores another value -/
  | fixedPower (o a : ℕ)
  /-- `x == y`, bn.h:1415-1418 -/
  | eq (a b : ℕ)

/-- a call on points, on `Fp12` objects, or `opt_atePairing(f, Q, P)`, bn.h:2966-2975, with f the object o -/
inductive GSes where
  | g1 (c : Call)
  | g2 (c : Call)
  | gt (c : GtCall)
  | pair (o q p : ℕ)

/-- the objects of the three classes -/
structure GMem where
  m1 : Mem Fe
  m2 : Mem F2
  m3 : ℕ → F12

/-- one object replaced -/
def gPut (g : ℕ → F12) (o : ℕ) (x : F12) : ℕ → F12 := fun k => if k = o then x else g k

def GtCall.step (g : ℕ → F12) : GtCall → (ℕ → F12) × Option Bool
  | one o => (gPut g o 1, none)
  | copy o a => (gPut g o (g a), none)
  | mul o a b => (gPut g o (g a * g b), none)
  | square o => (gPut g o (g o).square, none)
  | sqru o => (gPut g o (g o).sqru, none)
  | inverse o => (gPut g o (g o)⁻¹, none)
  | frobenius o a => (gPut g o (g a).frobenius, none)
  | power o a s => (gPut g o (Verif.power (g a) s), none)
  | fixedPower o a => (gPut g o (if o = a then Cpp.fixedPowerAlias (g a) else (g a).fixedPower), none)
  | eq a b => (g, some (F12.eq (g a) (g b)))

/-- One call: objects and answer. -/
def GSes.step (m : GMem) : GSes → GMem × Option Bool
  | g1 c => (⟨(c.step m.m1).1, m.m2, m.m3⟩, (c.step m.m1).2)
  | g2 c => (⟨m.m1, (c.step m.m2).1, m.m3⟩, (c.step m.m2).2)
  | gt c => (⟨m.m1, m.m2, (c.step m.m3).1⟩, (c.step m.m3).2)
  | pair o q p => (⟨m.m1.put p (normalize (m.m1 p)), m.m2.put q (normalize (m.m2 q)),
      gPut m.m3 o (Pairing.optAte (m.m2 q) (m.m1 p))⟩, none)

def GSes.run (m : GMem) : List GSes → GMem × List (Option Bool)
  | [] => (m, [])
  | s :: ss =>
    let x := step m s
    let y := run x.1 ss
    (y.1, x.2 :: y.2)

/-! ### Specification in groups -/

def GtCall.Wf : GtCall → Prop
  | power _ _ s => WF s
  | _ => True
def GSes.Wf : GSes → Prop
  | g1 c | g2 c => c.Wf
  | gt c => c.Wf
  | pair _ _ _ => True

/-- what a call does to the values, in any group -/
def GtCall.spec {T : Type} [Group T] (C : ℕ → T) : GtCall → ℕ → T
  | one o => Function.update C o 1
  | copy o a => Function.update C o (C a)
  | mul o a b => Function.update C o (C a * C b)
  | square o | sqru o => Function.update C o (C o ^ 2)
  | inverse o => Function.update C o (C o)⁻¹
  | frobenius o a => Function.update C o (C a ^ p)
  | power o a s => Function.update C o (C a ^ val s)
  | fixedPower o a => Function.update C o (C a ^ (if o = a then 2 ^ 62 + 2 ^ 56 else 2 ^ 62 + 2 ^ 55 + 1))
  | eq _ _ => C

/-- what it answers -/
def GtCall.Answer {T : Type} (C : ℕ → T) : GtCall → Option Bool → Prop
  | eq a b, some t => t = true ↔ C a = C b
  | eq _ _, none => False
  | _, some _ => False
  | _, none => True

section
variable {G H T : Type} [AddCommGroup G] [AddCommGroup H] [Group T]

/-- the values in the three groups after a call -/
def GSes.spec (e : H → G → T) (A : ℕ → G) (B : ℕ → H) (C : ℕ → T) : GSes → (ℕ → G) × (ℕ → H) × (ℕ → T)
  | g1 c => (c.spec A, B, C)
  | g2 c => (A, c.spec B, C)
  | gt c => (A, B, c.spec C)
  | pair o q p => (A, B, Function.update C o (e (B q) (A p)))

def GSes.Answer (A : ℕ → G) (B : ℕ → H) (C : ℕ → T) : GSes → Option Bool → Prop
  | g1 c, t => c.Answer A t
  | g2 c, t => c.Answer B t
  | gt c, t => c.Answer C t
  | pair _ _ _, t => t = none

/-- all answers of a sequence are right, and these are the final values -/
def GSes.Agrees (e : H → G → T) : (ℕ → G) → (ℕ → H) → (ℕ → T) → List GSes → List (Option Bool) → (ℕ → G) → (ℕ → H) → (ℕ → T) → Prop
  | A, B, C, [], [], A', B', C' => A' = A ∧ B' = B ∧ C' = C
  | A, B, C, s :: ss, t :: ts, A', B', C' =>
    s.Answer A B C t ∧ Agrees e (s.spec e A B C).1 (s.spec e A B C).2.1 (s.spec e A B C).2.2 ss ts A' B' C'
  | _, _, _, _, _, _, _, _ => False
end

/-! ### Lemmas -/

theorem r_dvd_cyclo : r ∣ p ^ 4 - p ^ 2 + 1 := by decide +kernel

theorem cyclo_of_tors {x : F12} (h : x ^ r = 1) : x ^ (p ^ 4 - p ^ 2 + 1) = 1 := by
  obtain ⟨n, hn⟩ := r_dvd_cyclo
  generalize p ^ 4 - p ^ 2 + 1 = N at hn ⊢
  rw [hn, pow_mul, h, one_pow]

/-- the objects hold these elements of order r -/
def GtHolds (g : ℕ → F12) (C : ℕ → F12ˣ) : Prop := ∀ k, g k = (C k : F12) ∧ C k ^ r = 1

theorem GtHolds.cyc {g : ℕ → F12} {C : ℕ → F12ˣ} (h : GtHolds g C) (a : ℕ) : g a ^ (p ^ 4 - p ^ 2 + 1) = 1 := by
  refine cyclo_of_tors ?_
  rw [(h a).1, ← Units.val_pow_eq_pow_val, (h a).2, Units.val_one]

theorem GtHolds.put {g : ℕ → F12} {C : ℕ → F12ˣ} (h : GtHolds g C) (o : ℕ) {x : F12} {u : F12ˣ} (h1 : x = u) (h2 : u ^ r = 1) :
    GtHolds (gPut g o x) (Function.update C o u) := by
  intro k
  unfold gPut
  by_cases hk : k = o
  · subst hk; rw [if_pos rfl, Function.update_self]; exact ⟨h1, h2⟩
  · rw [if_neg hk, Function.update_of_ne hk]; exact h k

theorem fixedPower_alias {x : F12} (h : F12.Cyclo x) : Cpp.fixedPowerAlias x = x ^ (2 ^ 62 + 2 ^ 56) := by
  have key : ∀ m n : ℕ, ((Cp.ofF12 x).squareN m).squareN n = Cp.ofF12 (x ^ 2 ^ (m + n)) := by
    intro m n
    rw [F12.squareN_add, h.squareN]
  have hb := fun m n : ℕ => F12.Cyclo.batch (x := x) (h.pow (2 ^ m)) (h.pow (2 ^ n))
    (fun e => h.of_pow_two e) (fun e => h.of_pow_two e) (fun e => by rw [e, one_pow])
    (fun e => by rw [e, one_pow])
  have hz : x ^ (2 ^ 62 + 2 ^ 56) = x ^ 2 ^ 55 * x ^ 2 ^ 55 * x ^ 2 ^ (55 + (62 - 55)) := by
    rw [← pow_add, ← pow_add]
    congr 1
  unfold Cpp.fixedPowerAlias
  dsimp only
  generalize 2 ^ 62 + 2 ^ 56 = e at *
  generalize 62 - 55 = n at *
  generalize 55 = m at *
  rw [key, h.squareN, (hb m (m + n)).1, (hb m (m + n)).2, hz]

theorem tors_pow {G : Type} [Group G] {x : G} {r : ℕ} (h : x ^ r = 1) (n : ℕ) : (x ^ n) ^ r = 1 := by
  rw [← pow_mul, mul_comm, pow_mul, h, one_pow]

theorem GtCall.step_spec {g : ℕ → F12} {C : ℕ → F12ˣ} (h : GtHolds g C) (c : GtCall) (hw : c.Wf) :
    GtHolds (c.step g).1 (c.spec C) ∧ c.Answer C (c.step g).2 := by
  cases c with
  | one o => exact ⟨h.put o Units.val_one.symm (one_pow r), trivial⟩
  | copy o a => exact ⟨h.put o (h a).1 (h a).2, trivial⟩
  | mul o a b =>
    exact ⟨h.put o (by rw [(h a).1, (h b).1, Units.val_mul]) (by rw [mul_pow, (h a).2, (h b).2, one_mul]), trivial⟩
  | square o =>
    exact ⟨h.put o (by rw [C31_square, (h o).1, Units.val_pow_eq_pow_val, pow_two]) (tors_pow (h o).2 2), trivial⟩
  | sqru o =>
    exact ⟨h.put o (by rw [C34_sqru (h.cyc o), (h o).1, Units.val_pow_eq_pow_val, pow_two]) (tors_pow (h o).2 2), trivial⟩
  | inverse o =>
    exact ⟨h.put o (by rw [(h o).1, Units.val_inv_eq_inv_val]) (by rw [inv_pow, (h o).2, inv_one]), trivial⟩
  | frobenius o a =>
    exact ⟨h.put o (by rw [C33_frobenius, (h a).1, Units.val_pow_eq_pow_val]) (tors_pow (h a).2 _), trivial⟩
  | power o a s =>
    exact ⟨h.put o (by rw [C18_power _ hw, (h a).1, Units.val_pow_eq_pow_val]) (tors_pow (h a).2 _), trivial⟩
  | fixedPower o a =>
    refine ⟨h.put o ?_ (tors_pow (h a).2 _), trivial⟩
    split
    · rw [fixedPower_alias (h.cyc a), (h a).1, Units.val_pow_eq_pow_val]
    · rw [C34_fixed_power (h.cyc a), (h a).1, Units.val_pow_eq_pow_val]
  | eq a b =>
    refine ⟨h, ?_⟩
    show F12.eq (g a) (g b) = true ↔ C a = C b
    rw [(C31_eq _ _).2, (h a).1, (h b).1, Units.val_inj]

/-! ### C85 -/

/-- **C85** There is a map e, bilinear and non-degenerate on points of order r, such that for every sequence of calls (of any length,
in any order, objects coinciding in any way) on objects that stand for points A k of the curve, points B k of order r of the
twist and elements C k of order r of Fp12: every answer of `==` in the three classes says whether the values are equal, and
the objects stand in the end for the values which the sequence gives in the three groups.  `sqru` and `fixed_power`, which are
wrong for other elements, are included: all values that a sequence can produce have order r.  (`fixed_power` into its own
operand gives the power 2^62 + 2^56 instead of 2^62 + 2^55 + 1.) -/
theorem C85_sequences : ∃ e : (curve b2).Point → (curve b1).Point → F12ˣ,
    (∀ B B' A, r • B = 0 → r • B' = 0 → e (B + B') A = e B A * e B' A) ∧
    (∀ B A A', r • B = 0 → e B (A + A') = e B A * e B A') ∧
    (∀ B A, r • B = 0 → (e B A = 1 ↔ B = 0 ∨ A = 0)) ∧
    ∀ (ss : List GSes), (∀ s ∈ ss, s.Wf) → ∀ (m : GMem) (A : ℕ → (curve b1).Point) (B : ℕ → (curve b2).Point) (C : ℕ → F12ˣ),
      (∀ k, Rep b1 (m.m1 k) (A k)) → (∀ k, Rep b2 (m.m2 k) (B k)) → (∀ k, r • B k = 0) →
      (∀ k, m.m3 k = (C k : F12) ∧ C k ^ r = 1) →
      ∃ A' B' C', GSes.Agrees e A B C ss (GSes.run m ss).2 A' B' C' ∧
        (∀ k, Rep b1 ((GSes.run m ss).1.m1 k) (A' k)) ∧ (∀ k, Rep b2 ((GSes.run m ss).1.m2 k) (B' k)) ∧
        (∀ k, (GSes.run m ss).1.m3 k = (C' k : F12) ∧ C' k ^ r = 1) := by
  refine ⟨Pairing.pair, fun B B' A h h' => Pairing.pair_add_left h h' A, fun B A A' h => Pairing.pair_add h A A', fun B A h => ⟨Pairing.pair_eq_one h, ?_⟩, ?_⟩
  · rintro (h | h)
    · rw [h, Pairing.pair_zero_left]
    · rw [h, Pairing.pair_zero]
  intro ss
  induction ss with
  | nil => intro _ m A B C h1 h2 _ h4; exact ⟨A, B, C, ⟨rfl, rfl, rfl⟩, h1, h2, h4⟩
  | cons s ss ih =>
    intro hw m A B C h1 h2 h3 h4
    have hw' : ∀ s ∈ ss, s.Wf := fun t ht => hw t (List.mem_cons_of_mem _ ht)
    have hs := hw s List.mem_cons_self
    cases s with
    | g1 c =>
      obtain ⟨k1, k2⟩ := c.step_spec homId (fun h => h) good1 (m := m.m1) h1 hs
      obtain ⟨A', B', C', a, b⟩ := ih hw' ⟨(c.step m.m1).1, m.m2, m.m3⟩ _ B C k1 h2 h3 h4
      exact ⟨A', B', C', ⟨k2, a⟩, b⟩
    | g2 c =>
      obtain ⟨k1, k2⟩ := c.step_spec homId (fun h => h) good2 (m := m.m2) h2 hs
      obtain ⟨A', B', C', a, b⟩ := ih hw' ⟨m.m1, (c.step m.m2).1, m.m3⟩ A _ C h1 k1 (spec_tors h3 c) h4
      exact ⟨A', B', C', ⟨k2, a⟩, b⟩
    | gt c =>
      obtain ⟨k1, k2⟩ := c.step_spec h4 hs
      obtain ⟨A', B', C', a, b⟩ := ih hw' ⟨m.m1, m.m2, (c.step m.m3).1⟩ A B _ h1 h2 h3 k1
      exact ⟨A', B', C', ⟨k2, a⟩, b⟩
    | pair o q i =>
      have k1 : Reps id b1 (m.m1.put i (normalize (m.m1 i))) A := Reps.norm homId (m := m.m1) h1 i
      have k2 : Reps id b2 (m.m2.put q (normalize (m.m2 q))) B := Reps.norm homId (m := m.m2) h2 q
      have k3 : GtHolds (gPut m.m3 o (Pairing.optAte (m.m2 q) (m.m1 i))) (Function.update C o (Pairing.pair (B q) (A i))) :=
        GtHolds.put h4 o (Pairing.optAte_rep (h2 q) (h1 i)) (Pairing.pair_pow_r _ _)
      obtain ⟨A', B', C', a, b⟩ := ih hw' ⟨m.m1.put i (normalize (m.m1 i)), m.m2.put q (normalize (m.m2 q)), _⟩ A B _ k1 k2 h3 k3
      exact ⟨A', B', C', ⟨rfl, a⟩, b⟩

/-- the hypotheses hold for the base points and their pairing in every object -/
example : ∃ (A : ℕ → (curve b1).Point) (B : ℕ → (curve b2).Point) (C : ℕ → F12ˣ), (∀ k, Rep b1 ((fun _ => g1 : Mem Fe) k) (A k)) ∧
    (∀ k, Rep b2 ((fun _ => g2 : Mem F2) k) (B k)) ∧ (∀ k, r • B k = 0) ∧
    ∀ k, (fun _ => Pairing.optAte g2 g1 : ℕ → F12) k = (C k : F12) ∧ C k ^ r = 1 := by
  obtain ⟨A, hA⟩ := rep1 g1_valid
  obtain ⟨B, hB, hr⟩ := (inG2_iff g2).1 g2_inG2
  exact ⟨fun _ => A, fun _ => B, fun _ => Pairing.pair B A, fun _ => hA, fun _ => hB, fun _ => hr, fun _ =>
    ⟨Pairing.optAte_rep hB hA, Pairing.pair_pow_r B A⟩⟩

/-- **C85** `fixed_power` into its own operand is the power |z| only for 1, among the elements of order r. -/
theorem C85_fixed_power_self {g : ℕ → F12} {o : ℕ} (h : g o ^ r = 1) :
    ((GtCall.fixedPower o o).step g).1 o = g o ^ (2 ^ 62 + 2 ^ 55 + 1) ↔ g o = 1 := by
  have e : ((GtCall.fixedPower o o).step g).1 o = Cpp.fixedPowerAlias (g o) := by
    simp only [GtCall.step, gPut, if_true]
  rw [e, fixedPower_alias (cyclo_of_tors h)]
  have h0 : g o ≠ 0 := by
    intro h0
    rw [h0, zero_pow (by decide +kernel)] at h
    exact zero_ne_one h
  constructor
  · intro h'
    rw [show 2 ^ 62 + 2 ^ 56 = (2 ^ 62 + 2 ^ 55 + 1) + (2 ^ 55 - 1) by norm_num, pow_add] at h'
    have h1 := mul_eq_left₀ (pow_ne_zero _ h0) |>.1 h'
    have d := Nat.dvd_gcd (orderOf_dvd_of_pow_eq_one h1) (orderOf_dvd_of_pow_eq_one h)
    rw [show Nat.gcd (2 ^ 55 - 1) r = 1 by decide +kernel] at d
    exact orderOf_eq_one_iff.1 (Nat.dvd_one.1 d)
  · intro h'; rw [h', one_pow, one_pow]

/-- an element of order r for which it is wrong -/
example : ∃ g : ℕ → F12, g 0 ^ r = 1 ∧ ((GtCall.fixedPower 0 0).step g).1 0 ≠ g 0 ^ (2 ^ 62 + 2 ^ 55 + 1) := by
  have h1 := (C45_torsion g2_valid g1_valid).2
  have h2 := (C50_base (a := [1]) (b := [1]) (by decide) (by decide)).1
  generalize Pairing.optAte g2 g1 = x at h1 h2
  exact ⟨fun _ => x, h1, fun h => h2 ((C85_fixed_power_self (g := fun _ => x) (o := 0) h1).1 h)⟩

/-- **C85** the restriction to elements of order r is needed: `sqru` of 1 + w is not the square. -/
theorem C85_sqru_other : (GSes.run ⟨fun _ => g1, fun _ => g2, fun _ => ⟨1, 1⟩⟩ [.gt (.mul 0 1 1), .gt (.sqru 1), .gt (.eq 0 1)]).2 =
    [none, none, some false] := by decide +kernel

example : (GSes.run ⟨fun _ => g1, fun _ => g2, fun _ => (⟨1, 1⟩ : F12).mapToCyclo⟩ [.gt (.mul 0 1 1), .gt (.sqru 1), .gt (.eq 0 1),
    .gt (.eq 0 2), .gt (.inverse 0), .gt (.mul 0 0 1), .gt (.one 3), .gt (.eq 0 3)]).2 =
    [none, none, some true, some false, none, none, none, some true] := by decide +kernel

end Verif
