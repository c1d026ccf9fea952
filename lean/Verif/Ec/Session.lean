import Verif.Ec.History
import Verif.Ec.Hom

/-!
Sequences of calls on objects of class `EcT`: the results of earlier calls are the operands of later ones, objects may coincide, and
`operator==` and `normalize` store back into their operands (the coordinates are `mutable`, bn.h:2817).
-/

namespace Verif.Ec

/-! ### Model -/

/-- a call on objects given by their addresses -/
inductive Call where
  /-- `clear()`, bn.h:2860-2865 -/
  | clear (o : ℕ)
  /-- assignment of objects -/
  | copy (o a : ℕ)
  /-- `EcT::dbl`, bn.h:2867-2870 -/
  | dbl (o a : ℕ)
  /-- `EcT::add`, bn.h:2871-2874 -/
  | add (o a b : ℕ)
  /-- `EcT::sub`, bn.h:2875-2880 -/
  | sub (o a b : ℕ)
  /-- `EcT::neg`, bn.h:2881-2886 -/
  | neg (o a : ℕ)
  /-- `EcT::mul` by a `Vuint`, bn.h:2887-2891 -/
  | mul (o a : ℕ) (s : List ℕ)
  /-- `normalize()`, bn.h:2827-2838 -/
  | normalize (a : ℕ)
  /-- `operator==`, bn.h:2896-2906 -/
  | eq (a b : ℕ)

namespace Call
section
variable {K : Type} [Add K] [Sub K] [Mul K] [Neg K] [Inv K] [Zero K] [One K] [FF K]

/-- One call: memory and answer.  The routines with only references write through them (`dblAt`, `addAt`, `negAt`); `sub` and `mul`
have a local triple, which is left out (C42_local). -/
def step (m : Mem K) : Call → Mem K × Option Bool
  | clear o => (clearAt m o, none)
  | copy o a => (copyAt m o a, none)
  | dbl o a => (dblAt m o a, none)
  | add o a b => (addAt m o a b, none)
  | sub o a b => (m.put o (Ec.sub (m o) (m a) (m b)), none)
  | neg o a => (negAt m o a, none)
  | mul o a s => (m.put o (scalarMult (m a) s), none)
  | normalize a => (m.put a (Ec.normalize (m a)), none)
  | eq a b =>
    let m := m.put a (Ec.normalize (m a))
    let m := m.put b (Ec.normalize (m b))
    let t :=
      if isInf (m a) then if isInf (m b) then true else false
      else if isInf (m b) then false
      else FF.eqb (m a).x (m b).x && FF.eqb (m a).y (m b).y
    (m, some t)
end

/-- scalars are well-formed `Vuint`s -/
def Wf : Call → Prop
  | mul _ _ s => WF s
  | _ => True

/-! ### Specification in a group -/

variable {G : Type} [AddCommGroup G]

/-- one value replaced -/
def upd (A : ℕ → G) (o : ℕ) (x : G) : ℕ → G := fun k => if k = o then x else A k

/-- what a call does to the values -/
def spec (A : ℕ → G) : Call → ℕ → G
  | clear o => upd A o 0
  | copy o a => upd A o (A a)
  | dbl o a => upd A o (A a + A a)
  | add o a b => upd A o (A a + A b)
  | sub o a b => upd A o (A a - A b)
  | neg o a => upd A o (-A a)
  | mul o a s => upd A o (val s • A a)
  | normalize _ | eq _ _ => A

/-- what it answers -/
def Answer (A : ℕ → G) : Call → Option Bool → Prop
  | eq a b, some t => t = true ↔ A a = A b
  | eq _ _, none => False
  | _, some _ => False
  | _, none => True
end Call

/-- a call on points of the curve, a call on points of the twist, or `opt_atePairing(f, Q, P)`, bn.h:2966-2975 -/
inductive Ses where
  | g1 (c : Call)
  | g2 (c : Call)
  | pair (q p : ℕ)

/-- the answer of a call: of the group, or a pairing value -/
inductive Out (V : Type) where
  | ec (t : Option Bool)
  | gt (v : V)

namespace Ses

def Wf : Ses → Prop
  | g1 c | g2 c => c.Wf
  | pair _ _ => True

variable {G H V L : Type} [AddCommGroup G] [AddCommGroup H]

/-- values after a call -/
def spec (A : ℕ → G) (B : ℕ → H) : Ses → (ℕ → G) × (ℕ → H)
  | g1 c => (c.spec A, B)
  | g2 c => (A, c.spec B)
  | pair _ _ => (A, B)

/-- the answer is the right one: for a pairing, the value of the map e on the values of the operands -/
def Answer (e : H → G → L) (den : V → L) (A : ℕ → G) (B : ℕ → H) : Ses → Out V → Prop
  | g1 c, .ec t => c.Answer A t
  | g2 c, .ec t => c.Answer B t
  | pair q p, .gt v => den v = e (B q) (A p)
  | _, _ => False

/-- all answers of a sequence are right, and these are the final values -/
def Agrees (e : H → G → L) (den : V → L) : (ℕ → G) → (ℕ → H) → List Ses → List (Out V) → (ℕ → G) → (ℕ → H) → Prop
  | A, B, [], [], A', B' => A' = A ∧ B' = B
  | A, B, s :: ss, o :: os, A', B' => s.Answer e den A B o ∧ Agrees e den (s.spec A B).1 (s.spec A B).2 ss os A' B'
  | _, _, _, _, _, _ => False
end Ses

/-! ### Lemmas -/

section
variable {K L : Type} [Add K] [Sub K] [Mul K] [Neg K] [Inv K] [Zero K] [One K] [FF K]
variable [Field L] [DecidableEq L] [FF L] [LawfulFF L] {φ : K → L}

/-- every object stands for a point -/
def Reps (φ : K → L) (b : L) (m : Mem K) (A : ℕ → (curve b).Point) : Prop := ∀ k, Rep b (jmap φ (m k)) (A k)

omit [Add K] [Sub K] [Mul K] [Neg K] [Inv K] [Zero K] [One K] [FF K] [DecidableEq L] [FF L] [LawfulFF L] in
theorem Reps.put {b : L} {m : Mem K} {A : ℕ → (curve b).Point} (h : Reps φ b m A) {P : J K} {X : (curve b).Point} (o : ℕ)
    (hP : Rep b (jmap φ P) X) : Reps φ b (m.put o P) (fun k => if k = o then X else A k) := by
  intro k
  unfold Mem.put
  by_cases hk : k = o
  · rw [if_pos hk]; simp only [if_pos hk]; exact hP
  · rw [if_neg hk]; simp only [if_neg hk]; exact h k

theorem upd_self {G : Type} [AddCommGroup G] (A : ℕ → G) (o : ℕ) : (fun k => if k = o then A o else A k) = A := by
  funext k; by_cases hk : k = o <;> simp [hk]

theorem Reps.norm (h : FHom φ) {b : L} {m : Mem K} {A : ℕ → (curve b).Point} (hm : Reps φ b m A) (a : ℕ) :
    Reps φ b (m.put a (normalize (m a))) A := by
  have := hm.put (X := A a) a (P := normalize (m a)) (by rw [h.normalize]; exact (normalize_spec (hm a)).1)
  rwa [upd_self] at this

omit [DecidableEq L] in
theorem normalize_twice (h : FHom φ) (hi : ∀ {x y}, φ x = φ y → x = y) (P : J K) : normalize (normalize P) = normalize P := by
  have key : ∀ P : J L, normalize (normalize P) = normalize P := by
    intro P
    by_cases hc : (isInf P || FF.eqb P.z 1) = true
    · have : normalize P = P := by unfold normalize; rw [if_pos hc]
      rw [this, this]
    · have : ∃ x y, normalize P = ⟨x, y, 1⟩ := by unfold normalize; rw [if_neg hc]; exact ⟨_, _, rfl⟩
      obtain ⟨x, y, e⟩ := this
      rw [e]
      unfold normalize
      rw [if_pos]
      rw [Bool.or_eq_true]
      exact .inr ((LawfulFF.eqb_iff _ _).2 rfl)
  have e : jmap φ (normalize (normalize P)) = jmap φ (normalize P) := by rw [h.normalize, h.normalize, key]
  generalize normalize (normalize P) = R at *
  generalize normalize P = S at *
  obtain ⟨a, b, c⟩ := R
  obtain ⟨a', b', c'⟩ := S
  have e1 : φ a = φ a' := congrArg J.x e
  have e2 : φ b = φ b' := congrArg J.y e
  have e3 : φ c = φ c' := congrArg J.z e
  rw [hi e1, hi e2, hi e3]

/-- one call -/
theorem Call.step_spec (h : FHom φ) (hi : ∀ {x y}, φ x = φ y → x = y) {b : L} (hb : Good b) {m : Mem K} {A : ℕ → (curve b).Point} (hm : Reps φ b m A) (c : Call)
    (hc : c.Wf) : Reps φ b (c.step m).1 (c.spec A) ∧ c.Answer A (c.step m).2 := by
  cases c with
  | clear o =>
    refine ⟨?_, trivial⟩
    unfold step
    dsimp only
    rw [clearAt_eq]
    exact hm.put o (by rw [h.clear]; exact rep_clear)
  | copy o a =>
    refine ⟨?_, trivial⟩
    unfold step
    dsimp only
    rw [copyAt_eq]
    exact hm.put o (hm a)
  | dbl o a =>
    refine ⟨?_, trivial⟩
    unfold step
    dsimp only
    rw [dblAt_eq]
    exact hm.put o (by rw [h.dbl]; exact rep_dbl hb (hm a))
  | add o a d =>
    refine ⟨?_, trivial⟩
    unfold step
    dsimp only
    rw [addAt_eq]
    exact hm.put o (by rw [h.ecAdd]; exact rep_add hb _ (hm a) (hm d))
  | sub o a d =>
    exact ⟨hm.put o (by rw [h.ecSub]; exact rep_sub hb _ (hm a) (hm d)), trivial⟩
  | neg o a =>
    refine ⟨?_, trivial⟩
    unfold step
    dsimp only
    rw [negAt_eq]
    exact hm.put o (by rw [h.ecNeg]; exact rep_neg (hm a))
  | mul o a s =>
    exact ⟨hm.put o (by rw [h.scalarMult]; exact scalarMult_rep hb (hm a) hc), trivial⟩
  | normalize a => exact ⟨hm.norm h a, trivial⟩
  | eq a d =>
    have h1 := (hm.norm h a).norm h d
    refine ⟨h1, ?_⟩
    have ea : (m.put a (Ec.normalize (m a))).put d (Ec.normalize (m.put a (Ec.normalize (m a)) d)) a = Ec.normalize (m a) := by
      by_cases hd : a = d
      · subst hd; rw [put_same, put_same, normalize_twice h hi]
      · rw [put_other _ hd, put_same]
    have ed : (m.put a (Ec.normalize (m a))).put d (Ec.normalize (m.put a (Ec.normalize (m a)) d)) d = Ec.normalize (m d) := by
      rw [put_same]
      by_cases hd : d = a
      · subst hd; rw [put_same, normalize_twice h hi]
      · rw [put_other _ hd]
    have e : (step m (Call.eq a d)).2 = some (Ec.eq (m a) (m d)) := by
      unfold step
      dsimp only
      rw [ea, ed]; rfl
    rw [e]
    show Ec.eq (m a) (m d) = true ↔ A a = A d
    rw [← h.ecEq]
    exact eq_spec (hm a) (hm d)
end

end Verif.Ec
