import Verif.Ec.Mem

/-! Sequences of `EcT` calls on a memory of points. -/

namespace Verif.Ec

/-- A call; the first argument is the object written. -/
inductive Op (K : Type) where
  /-- `set(x, y)` with verification -/
  | set2 (o : ℕ) (x y : K)
  /-- `set(x, y, z)` with verification -/
  | set3 (o : ℕ) (x y z : K)
  | clear (o : ℕ)
  | dbl (o a : ℕ)
  | add (o a b : ℕ)
  | sub (o a b : ℕ)
  | neg (o a : ℕ)
  /-- `mul` by a `Vuint` -/
  | mul (o a : ℕ) (s : List ℕ)
  | normalize (o : ℕ)

namespace Op
variable {K : Type}

/-- the object written -/
def out : Op K → ℕ
  | set2 o _ _ | set3 o _ _ _ | clear o | dbl o _ | add o _ _ | sub o _ _ | neg o _ | mul o _ _
  | normalize o => o

/-- the objects read -/
def ins : Op K → List ℕ
  | set2 .. | set3 .. | clear _ => []
  | dbl _ a | neg _ a | mul _ a _ => [a]
  | add _ a b | sub _ a b => [a, b]
  | normalize o => [o]

/-- scalars are well-formed `Vuint`s -/
def Wf : Op K → Prop
  | mul _ _ s => WF s
  | _ => True

variable [Add K] [Sub K] [Mul K] [Neg K] [Inv K] [Zero K] [One K] [FF K]

/-- One call; `none` is a thrown exception. -/
def step (valid : J K → Bool) (m : Mem K) : Op K → Option (Mem K)
  | set2 o x y => (Ec.set2 valid x y true).map (m.put o)
  | set3 o x y z => (Ec.set3 valid x y z true).map (m.put o)
  | clear o => some (m.put o Ec.clear)
  | dbl o a => some (m.put o (Ec.dbl (m a)))
  | add o a b => some (m.put o (Ec.add (m o) (m a) (m b)))
  | sub o a b => some (m.put o (Ec.sub (m o) (m a) (m b)))
  | neg o a => some (m.put o (Ec.neg (m a)))
  | mul o a s => some (m.put o (Ec.scalarMult (m a) s))
  | normalize o => some (m.put o (Ec.normalize (m o)))

/-- A sequence of calls. -/
def run (valid : J K → Bool) : Mem K → List (Op K) → Option (Mem K)
  | m, [] => some m
  | m, op :: ops => match op.step valid m with
    | none => none
    | some m' => run valid m' ops

/-- Every object is written before it is read (`S`: objects already written). -/
def Scoped : List ℕ → List (Op K) → Prop
  | _, [] => True
  | S, op :: ops => (∀ a ∈ op.ins, a ∈ S) ∧ op.Wf ∧ Scoped (op.out :: S) ops

end Op

variable {K : Type} [Field K] [DecidableEq K] [FF K] [LawfulFF K]

omit [DecidableEq K] [FF K] [LawfulFF K] in
theorem set2_valid {valid : J K → Bool} {x y : K} {P : J K} (h : set2 valid x y true = some P) :
    valid P = true ∧ P = ⟨x, y, 1⟩ := by
  unfold set2 at h
  cases hv : valid ⟨x, y, 1⟩
  · simp [hv] at h
  · simp [hv] at h
    exact ⟨by rw [← h]; exact hv, h.symm⟩

omit [Field K] [DecidableEq K] [FF K] [LawfulFF K] in
theorem set3_valid {valid : J K → Bool} {x y z : K} {P : J K} (h : set3 valid x y z true = some P) :
    valid P = true ∧ P = ⟨x, y, z⟩ := by
  unfold set3 at h
  cases hv : valid ⟨x, y, z⟩
  · simp [hv] at h
  · simp [hv] at h
    exact ⟨by rw [← h]; exact hv, h.symm⟩

theorem scalarMult_rep {b : K} (hb : Good b) {P : J K} {A : (curve b).Point} (h : Rep b P A)
    {s : List ℕ} (hs : WF s) : Rep b (scalarMult P s) (val s • A) := by
  have h0 : WF [0] := by decide
  unfold scalarMult
  by_cases hz : val s = 0
  · have : Vuint.compare s [0] = 0 := by
      rcases cmp_spec hs h0 with h | h | h
      · exact h.1
      · have := h.2; simp [val] at this; omega
      · have := h.2; simp [val] at this
    rw [if_pos this, hz, zero_nsmul]; exact rep_clear
  · have : ¬ Vuint.compare s [0] = 0 := by
      intro hc
      rcases cmp_spec hs h0 with h | h | h
      · exact hz (by have := h.2; simpa [val] using this)
      · rw [show cmp s [0] = 0 from hc] at h; simp at h
      · rw [show cmp s [0] = 0 from hc] at h; simp at h
    rw [if_neg this]
    obtain ⟨v, vs, e⟩ : ∃ v vs, s.reverse = v :: vs := by
      cases hr : s.reverse with
      | nil =>
        have := hs.pos
        rw [List.reverse_eq_nil_iff] at hr
        rw [hr] at this; simp at this
      | cons v vs => exact ⟨v, vs, rfl⟩
    have es : s = vs.reverse ++ [v] := by
      rw [← List.reverse_reverse s, e, List.reverse_cons]
    rw [e]
    have hw : ∀ u ∈ v :: vs, u < 2 ^ 64 := by
      intro u hu
      refine hs.words u ?_
      rw [← e] at hu; exact List.mem_reverse.1 hu
    have hv0 : 0 < v := by
      rcases Nat.eq_zero_or_pos v with h1 | h1
      · exfalso
        rcases hs.top with ht | ht
        · have hl : vs = [] := by
            have := congrArg List.length e
            rw [List.length_reverse, ht] at this
            rw [List.length_cons] at this
            exact List.eq_nil_of_length_eq_zero (by omega)
          rw [es, hl, h1] at hz; simp [val] at hz
        · rw [es, h1] at ht; simp at ht
      · exact h1
    have := rep_smMain hb (W := 64) (by norm_num) h v vs hv0 (hw v (by simp))
      (fun u hu => hw u (by simp [hu]))
    rw [foldl_rev_val] at this
    have ev : v * (2 ^ 64) ^ vs.length + vs.reverse.foldr (fun v acc => v + 2 ^ 64 * acc) 0 = val s := by
      rw [← foldr_val s, es, List.foldr_append]
      have aux : ∀ (l : List ℕ) (c : ℕ), l.foldr (fun v acc => v + 2 ^ 64 * acc) c
          = l.foldr (fun v acc => v + 2 ^ 64 * acc) 0 + (2 ^ 64) ^ l.length * c := by
        intro l c
        induction l with
        | nil => simp
        | cons y l ih => rw [List.foldr_cons, List.foldr_cons, ih, List.length_cons, pow_succ]; ring
      rw [List.foldr_cons, List.foldr_nil, aux vs.reverse (v + 2 ^ 64 * 0), List.length_reverse]
      ring
    rwa [ev] at this

theorem run_valid {b : K} (hb : Good b) {valid : J K → Bool} (hv : ∀ P, valid P = true ↔ Valid b P)
    (ops : List (Op K)) : ∀ (S : List ℕ) (m m' : Mem K), (∀ k ∈ S, Valid b (m k)) → Op.Scoped S ops →
      Op.run valid m ops = some m' → ∀ k, (k ∈ S ∨ k ∈ ops.map Op.out) → Valid b (m' k) := by
  induction ops with
  | nil =>
    intro S m m' hS _ hr k hk
    simp [Op.run] at hr
    subst hr
    exact hS k (by simpa using hk)
  | cons op ops ih =>
    intro S m m' hS hsc hr k hk
    obtain ⟨hin, hwf, hsc'⟩ := hsc
    unfold Op.run at hr
    have key : ∃ Q, op.step valid m = none ∨ (op.step valid m = some (m.put op.out Q) ∧ Valid b Q) := by
      have hrep : ∀ a ∈ op.ins, ∃ A, Rep b (m a) A := fun a ha => (hS a (hin a ha)).rep hb
      cases op with
      | set2 o x y =>
        cases h : Ec.set2 valid x y true with
        | none => exact ⟨⟨0, 0, 0⟩, .inl (by simp [Op.step, h])⟩
        | some P => exact ⟨P, .inr ⟨by simp [Op.step, Op.out, h], (hv P).1 (set2_valid h).1⟩⟩
      | set3 o x y z =>
        cases h : Ec.set3 valid x y z true with
        | none => exact ⟨⟨0, 0, 0⟩, .inl (by simp [Op.step, h])⟩
        | some P => exact ⟨P, .inr ⟨by simp [Op.step, Op.out, h], (hv P).1 (set3_valid h).1⟩⟩
      | clear o => exact ⟨_, .inr ⟨rfl, .inl rfl⟩⟩
      | dbl o a =>
        obtain ⟨A, hA⟩ := hrep a (by simp [Op.ins])
        exact ⟨_, .inr ⟨rfl, (rep_dbl hb hA).valid hb⟩⟩
      | add o a c =>
        obtain ⟨A, hA⟩ := hrep a (by simp [Op.ins])
        obtain ⟨C, hC⟩ := hrep c (by simp [Op.ins])
        exact ⟨_, .inr ⟨rfl, (rep_add hb _ hA hC).valid hb⟩⟩
      | sub o a c =>
        obtain ⟨A, hA⟩ := hrep a (by simp [Op.ins])
        obtain ⟨C, hC⟩ := hrep c (by simp [Op.ins])
        exact ⟨_, .inr ⟨rfl, (rep_sub hb _ hA hC).valid hb⟩⟩
      | neg o a =>
        obtain ⟨A, hA⟩ := hrep a (by simp [Op.ins])
        exact ⟨_, .inr ⟨rfl, (rep_neg hA).valid hb⟩⟩
      | mul o a s =>
        obtain ⟨A, hA⟩ := hrep a (by simp [Op.ins])
        exact ⟨_, .inr ⟨rfl, (scalarMult_rep hb hA hwf).valid hb⟩⟩
      | normalize o =>
        obtain ⟨A, hA⟩ := hrep o (by simp [Op.ins])
        exact ⟨_, .inr ⟨rfl, (normalize_spec hA).1.valid hb⟩⟩
    obtain ⟨Q, h | ⟨h, hQ⟩⟩ := key
    · rw [h] at hr; simp at hr
    · rw [h] at hr
      refine ih (op.out :: S) (m.put op.out Q) m' ?_ hsc' hr k ?_
      · intro j hj
        by_cases hjo : j = op.out
        · rw [hjo, put_same]; exact hQ
        · rw [put_other m hjo]
          exact hS j ((List.mem_cons.1 hj).resolve_left hjo)
      · rcases hk with hk | hk
        · left; simp [hk]
        · rw [List.map_cons, List.mem_cons] at hk
          rcases hk with hk | hk
          · left; simp [hk]
          · right; exact hk

end Verif.Ec
