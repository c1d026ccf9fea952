import Verif.Jit.Pieces

/-! Every instruction keeps registers and memory words below 2^64; routines, calls and the effect of straight-line code in a
routine. -/

namespace Verif
namespace Jit

open Fp Reg

/-- registers, xmm halves and memory hold 64-bit words, the carry is 0 or 1 -/
structure Good (s : St) : Prop where
  r : ∀ q, s.r q < B64
  x : ∀ i, s.x i < B64
  m : ∀ i, s.m i < B64
  c : ∀ c, s.cf = some c → c ≤ 1

theorem upd_lt {α : Type} [DecidableEq α] {f : α → ℕ} {a : α} {v : ℕ} (h : ∀ i, f i < B64) (hv : v < B64) (i : α) : Function.update f a v i < B64 := by
  rcases eq_or_ne i a with rfl | hi
  · rwa [Function.update_self]
  · rw [Function.update_of_ne hi]; exact h i

theorem Good.setR {s : St} (h : Good s) (d : Reg) {v : ℕ} (hv : v < B64) : Good (setR s d v) := ⟨upd_lt h.r hv, h.x, h.m, h.c⟩

theorem Good.flags {s : St} (h : Good s) {c : Option ℕ} (z : Option Bool) (hc : ∀ k, c = some k → k ≤ 1) : Good { s with cf := c, zf := z } :=
  ⟨h.r, h.x, h.m, hc⟩

theorem Good.mem {s : St} (h : Good s) {m : ℕ → ℕ} (hm : ∀ i, m i < B64) : Good { s with m := m } := ⟨h.r, h.x, hm, h.c⟩

theorem Good.xmm {s : St} (h : Good s) {x : ℕ → ℕ} (hx : ∀ i, x i < B64) : Good { s with x := x } := ⟨h.r, hx, h.m, h.c⟩

theorem Good.load {s : St} (h : Good s) {A v : ℕ} (e : load s.m A = .ok v) : v < B64 := by
  unfold Jit.load at e
  split at e
  · cases e; exact h.m _
  · cases e

theorem Good.store {s : St} (h : Good s) {A v : ℕ} {m : ℕ → ℕ} (hv : v < B64) (e : store s.m A v = .ok m) : ∀ i, m i < B64 := by
  unfold Jit.store at e
  split at e
  · cases e; exact upd_lt h.m hv
  · cases e

theorem Good.src {s : St} (h : Good s) {x : Src} {v : ℕ} (e : src s x = .ok v) : v < B64 := by
  rcases x with q | a | n
  · cases e; exact h.r q
  · exact h.load e
  · cases e; exact Nat.mod_lt _ (by omega)

theorem adc_lt (a b c : ℕ) : (adc a b c).1 < B64 := Nat.mod_lt _ (by omega)
theorem adc_c {a b c : ℕ} (ha : a < B64) (hb : b < B64) (hc : c ≤ 1) : (adc a b c).2 ≤ 1 := by unfold adc; dsimp only; omega
theorem sbb_lt (a b c : ℕ) : (sbb a b c).1 < B64 := Nat.mod_lt _ (by omega)
theorem sbb_c (a b c : ℕ) : (sbb a b c).2 ≤ 1 := by unfold sbb; dsimp only; split <;> omega

theorem alu_good {cf : Option ℕ} {a b : ℕ} {o : Alu} {v : ℕ × ℕ} (ha : a < B64) (hb : b < B64) (hc : ∀ c, cf = some c → c ≤ 1)
    (e : alu cf a b o = .ok v) : v.1 < B64 ∧ v.2 ≤ 1 := by
  have e64 : B64 = 2 ^ 64 := by norm_num
  rcases cf with _ | c
  · rcases o <;> simp only [alu, flag, Res.bind_ub, reduceCtorEq] at e <;> cases e
    · exact ⟨adc_lt _ _ _, adc_c ha hb (by omega)⟩
    · exact ⟨sbb_lt _ _ _, sbb_c _ _ _⟩
    · exact ⟨lt_of_le_of_lt Nat.and_le_left ha, by simp⟩
    · exact ⟨by rw [e64] at *; exact Nat.or_lt_two_pow ha hb, by simp⟩
    · exact ⟨by rw [e64] at *; exact Nat.xor_lt_two_pow ha hb, by simp⟩
  · have hc := hc c rfl
    rcases o <;> simp only [alu, flag, Res.bind_ok] at e <;> cases e
    · exact ⟨adc_lt _ _ _, adc_c ha hb (by omega)⟩
    · exact ⟨adc_lt _ _ _, adc_c ha hb (by omega)⟩
    · exact ⟨sbb_lt _ _ _, sbb_c _ _ _⟩
    · exact ⟨sbb_lt _ _ _, sbb_c _ _ _⟩
    · exact ⟨lt_of_le_of_lt Nat.and_le_left ha, by simp⟩
    · exact ⟨by rw [e64] at *; exact Nat.or_lt_two_pow ha hb, by simp⟩
    · exact ⟨by rw [e64] at *; exact Nat.xor_lt_two_pow ha hb, by simp⟩

theorem doOp_good {s t : St} {o : Op} (h : Good s) (e : doOp s o = .ok t) : Good t := by
  have dm : ∀ a b : ℕ, a < B64 → b < B64 → a * b / B64 < B64 := fun a b ha hb =>
    Nat.div_lt_of_lt_mul (lt_of_lt_of_le (Nat.mul_lt_mul_of_lt_of_lt ha hb) (by omega))
  cases o with
  | mov d x =>
    simp only [doOp] at e
    rcases hv : src s x with v | _ | _ | _ | _ <;> simp [hv] at e
    subst e; exact h.setR d (h.src hv)
  | st a q =>
    simp only [doOp] at e
    rcases hv : store s.m (ea s.r a) (s.r q) with v | _ | _ | _ | _ <;> simp [hv] at e
    subst e; exact h.mem (h.store (h.r q) hv)
  | alu o d x =>
    simp only [doOp] at e
    rcases hv : src s x with v | _ | _ | _ | _ <;> simp [hv] at e
    rcases hw : alu s.cf (s.r d) v o with w | _ | _ | _ | _ <;> simp [hw] at e
    have := alu_good (h.r d) (h.src hv) h.c hw
    subst e; exact (h.setR d this.1).flags _ (by rintro k ⟨⟩; exact this.2)
  | alum o a x =>
    simp only [doOp] at e
    rcases hv : src s x with v | _ | _ | _ | _ <;> simp [hv] at e
    rcases hu : load s.m (ea s.r a) with u | _ | _ | _ | _ <;> simp [hu] at e
    rcases hw : alu s.cf u v o with w | _ | _ | _ | _ <;> simp [hw] at e
    have := alu_good (h.load hu) (h.src hv) h.c hw
    rcases hm : store s.m (ea s.r a) w.1 with m | _ | _ | _ | _ <;> simp [hm] at e
    subst e; exact (h.mem (h.store this.1 hm)).flags _ (by rintro k ⟨⟩; exact this.2)
  | lea d a => cases e; exact h.setR d (Nat.mod_lt _ (by omega))
  | shr d n => cases e; exact (h.setR d (lt_of_le_of_lt (Nat.div_le_self _ _) (h.r d))).flags _ (by simp)
  | shl d n => cases e; exact (h.setR d (Nat.mod_lt _ (by omega))).flags _ (by simp)
  | shrd d q n => cases e; exact (h.setR d (Nat.mod_lt _ (by omega))).flags _ (by simp)
  | shld d q n => cases e; exact (h.setR d (Nat.mod_lt _ (by omega))).flags _ (by simp)
  | mul x =>
    simp only [doOp] at e
    rcases hv : src s x with v | _ | _ | _ | _ <;> simp [hv] at e
    subst e
    exact ((h.setR rax (Nat.mod_lt _ (by omega))).setR rdx (dm _ _ (h.r rax) (h.src hv))).flags _ (by simp)
  | mulx hi lo x =>
    simp only [doOp] at e
    rcases hv : src s x with v | _ | _ | _ | _ <;> simp [hv] at e
    subst e
    exact (h.setR lo (Nat.mod_lt _ (by omega))).setR hi (dm _ _ (h.r rdx) (h.src hv))
  | cmovc d q =>
    simp only [doOp] at e
    rcases hv : flag s.cf with v | _ | _ | _ | _ <;> simp [hv] at e
    subst e
    refine h.setR d ?_
    split
    · exact h.r q
    · exact h.r d
  | test d n => cases e; exact h.flags _ (by rintro k ⟨⟩; simp)
  | toX i q => cases e; exact h.xmm (upd_lt h.x (h.r q))
  | ofX d i => cases e; exact h.setR d (h.x i)
  | pxor i j =>
    cases e
    refine h.xmm (upd_lt h.x ?_)
    have := h.x i; have := h.x j
    have e64 : B64 = 2 ^ 64 := by norm_num
    rw [e64] at *; exact Nat.xor_lt_two_pow (by assumption) (by assumption)
  | paddd i j => cases e; exact h.xmm (upd_lt h.x (by unfold addd; omega))

variable (code : Sub → Code) (ra : Sub → ℕ → ℕ)

theorem step_good {c d : Conf Sub} (h : Good c.s) (e : step code ra c = .ok d) : Good d.s := by
  rcases c with ⟨k, l, fs, s⟩
  rcases l with _ | ⟨i, l⟩
  · cases e
  cases i with
  | op o =>
    simp only [step] at e
    rcases hv : doOp s o with v | _ | _ | _ | _ <;> simp [hv] at e
    subst e; exact doOp_good h hv
  | lab n => cases e; exact h
  | jmp n =>
    simp only [step] at e
    rcases hv : target n (code k) with v | _ | _ | _ | _ <;> simp [hv] at e
    subst e; exact h
  | jcc q n =>
    simp only [step] at e
    rcases hb : holds s q with b | _ | _ | _ | _ <;> simp [hb] at e
    cases b
    · simp at e; subst e; exact h
    · rcases hv : target n (code k) with v | _ | _ | _ | _ <;> simp [hv] at e
      subst e; exact h
  | call j =>
    simp only [step] at e
    rcases hv : store s.m ((s.r .rsp + (B64 - 8)) % B64) (ra k l.length % B64) with v | _ | _ | _ | _ <;> rw [hv] at e <;> simp at e
    subst e
    exact (h.setR rsp (Nat.mod_lt _ (by omega))).mem (h.store (Nat.mod_lt _ (by omega)) hv)
  | ret =>
    rcases fs with _ | ⟨⟨k', l'⟩, fs⟩
    · cases e
    · simp only [step] at e
      rcases hv : load s.m (s.r .rsp) with v | _ | _ | _ | _ <;> simp [hv] at e
      split at e
      · cases e; exact h.setR rsp (Nat.mod_lt _ (by omega))
      · cases e

theorem reach_good {c d : Conf Sub} (h : Good c.s) (e : Reach code ra c d) : Good d.s := by
  induction e with
  | refl => exact h
  | tail _ e ih => exact step_good code ra ih e

/-! ### pieces of routines -/

/-- The piece c of routine k runs through from state s and ends with Q, whatever follows it. -/
def Trip (k : Sub) (c : Code) (s : St) (Q : St → Prop) : Prop :=
  ∀ l, ∃ t, (∀ fs, Reach code ra ⟨k, c ++ l, fs, s⟩ ⟨k, l, fs, t⟩) ∧ Q t

/-- Routine j, entered in state s, comes to its `ret` with Q. -/
def Fn (j : Sub) (s : St) (Q : St → Prop) : Prop :=
  ∃ t l, (∀ fs, Reach code ra ⟨j, code j, fs, s⟩ ⟨j, .ret :: l, fs, t⟩) ∧ Q t

variable {code ra}

theorem Trip.nil {k : Sub} {s : St} {Q : St → Prop} (h : Q s) : Trip code ra k [] s Q := fun _ => ⟨s, fun _ => .refl, h⟩

theorem Trip.mono {k : Sub} {c : Code} {s : St} {P Q : St → Prop} (h : Trip code ra k c s P) (hk : ∀ t, P t → Q t) : Trip code ra k c s Q :=
  fun l => let ⟨t, e, p⟩ := h l; ⟨t, e, hk t p⟩

theorem Trip.append {k : Sub} {c d : Code} {s : St} {P Q : St → Prop} (h : Trip code ra k c s P) (hk : ∀ t, P t → Trip code ra k d t Q) :
    Trip code ra k (c ++ d) s Q := by
  intro l
  obtain ⟨t, e1, p⟩ := h (d ++ l)
  obtain ⟨u, e2, q⟩ := hk t p l
  exact ⟨u, fun fs => by rw [List.append_assoc]; exact (e1 fs).trans (e2 fs), q⟩

theorem Trip.good {k : Sub} {c : Code} {s : St} {Q : St → Prop} (h : Trip code ra k c s Q) (hs : Good s) :
    Trip code ra k c s fun t => Good t ∧ Q t :=
  fun l => let ⟨t, e, q⟩ := h l; ⟨t, e, reach_good code ra hs (e []), q⟩

theorem Trip.ops {k : Sub} {c : List Op} {s : St} {Q : St → Prop} (h : Ex c s Q) : Trip code ra k (ops c) s Q := by
  intro l
  obtain ⟨t, e, q⟩ := h
  refine ⟨t, fun fs => ?_, q⟩
  clear q
  induction c generalizing s with
  | nil => cases e; exact .refl
  | cons o c ih =>
    rw [exec_cons] at e
    rcases hv : doOp s o with v | _ | _ | _ | _ <;> rw [hv] at e <;> simp at e
    refine .head ?_ (ih e)
    show (doOp s o >>= _) = _
    rw [hv]; rfl

theorem Fn.of {j : Sub} {c : Code} {s : St} {Q : St → Prop} (hc : code j = c ++ [.ret]) (h : Trip code ra j c s Q) : Fn code ra j s Q := by
  obtain ⟨t, e, q⟩ := h [.ret]
  exact ⟨t, [], fun fs => by rw [hc]; exact e fs, q⟩

theorem Fn.good {j : Sub} {s : St} {Q : St → Prop} (h : Fn code ra j s Q) (hs : Good s) : Fn code ra j s fun t => Good t ∧ Q t :=
  let ⟨t, l, e, q⟩ := h; ⟨t, l, e, reach_good code ra hs (e []), q⟩

theorem Fn.mono {j : Sub} {s : St} {P Q : St → Prop} (h : Fn code ra j s P) (hk : ∀ t, P t → Q t) : Fn code ra j s Q :=
  let ⟨t, l, e, q⟩ := h; ⟨t, l, e, hk t q⟩

/-- the state after the `call` that pushed the return address v -/
def pushed (s : St) (S v : ℕ) : St := { setR s rsp (8 * (S - 1)) with m := Function.update s.m (S - 1) v }

theorem Trip.call {k j : Sub} {s : St} {S : ℕ} {P Q : St → Prop} (hS : s.r rsp = 8 * S) (h1 : 1 ≤ S) (h2 : 8 * S < B64)
    (h : ∀ v, v < B64 → Fn code ra j (pushed s S v) fun t => t.r rsp = 8 * (S - 1) ∧ t.m (S - 1) = v ∧ P t)
    (hk : ∀ t, P t → Q (setR t rsp (8 * S))) : Trip code ra k [.call j] s Q := by
  intro l
  have hv : ra k l.length % B64 < B64 := Nat.mod_lt _ (by omega)
  obtain ⟨t, l', e, e1, e2, p⟩ := h _ hv
  refine ⟨_, fun fs => .head ?_ ((e ((k, l) :: fs)).tail ?_), hk t p⟩
  · show (store s.m ((s.r .rsp + (B64 - 8)) % B64) (ra k l.length % B64) >>= _) = _
    have ha : (s.r .rsp + (B64 - 8)) % B64 = 8 * (S - 1) := by rw [hS]; omega
    rw [ha, store, if_pos (by omega), Nat.mul_div_cancel_left _ (by omega)]
    rfl
  · show (load t.m (t.r .rsp) >>= fun a => if a = ra k l.length % B64 then _ else _) = _
    rw [e1, load, if_pos (by omega), Nat.mul_div_cancel_left _ (by omega), e2, Res.bind_ok, if_pos rfl]
    have : (8 * (S - 1) + 8) % B64 = 8 * S := by omega
    rw [this]

/-! ### jumps -/

/-- In routine k the code l leads from state s to the code l' with Q. -/
def At (code : Sub → Code) (ra : Sub → ℕ → ℕ) (k : Sub) (l l' : Code) (s : St) (Q : St → Prop) : Prop :=
  ∃ t, (∀ fs, Reach code ra ⟨k, l, fs, s⟩ ⟨k, l', fs, t⟩) ∧ Q t

theorem At.refl {k : Sub} {l : Code} {s : St} {Q : St → Prop} (h : Q s) : At code ra k l l s Q := ⟨s, fun _ => .refl, h⟩
theorem At.mono {k : Sub} {l l' : Code} {s : St} {P Q : St → Prop} (h : At code ra k l l' s P) (hk : ∀ t, P t → Q t) : At code ra k l l' s Q :=
  let ⟨t, e, p⟩ := h; ⟨t, e, hk t p⟩
theorem At.trans {k : Sub} {l l' l'' : Code} {s : St} {P Q : St → Prop} (h : At code ra k l l' s P) (hk : ∀ t, P t → At code ra k l' l'' t Q) :
    At code ra k l l'' s Q :=
  let ⟨t, e, p⟩ := h; let ⟨u, f, q⟩ := hk t p; ⟨u, fun fs => (e fs).trans (f fs), q⟩
theorem At.good {k : Sub} {l l' : Code} {s : St} {Q : St → Prop} (h : At code ra k l l' s Q) (hs : Good s) :
    At code ra k l l' s fun t => Good t ∧ Q t :=
  let ⟨t, e, q⟩ := h; ⟨t, e, reach_good code ra hs (e []), q⟩
theorem Trip.at {k : Sub} {c : Code} {s : St} {Q : St → Prop} (h : Trip code ra k c s Q) (l : Code) : At code ra k (c ++ l) l s Q := h l
theorem At.ops {k : Sub} {c : List Op} {l : Code} {s : St} {Q : St → Prop} (h : Ex c s Q) : At code ra k (ops c ++ l) l s Q := Trip.ops h l
theorem At.head {k : Sub} {l l' l'' : Code} {s s' : St} {Q : St → Prop} (h : ∀ fs, step code ra ⟨k, l, fs, s⟩ = .ok ⟨k, l', fs, s'⟩)
    (hk : At code ra k l' l'' s' Q) : At code ra k l l'' s Q :=
  let ⟨t, e, q⟩ := hk; ⟨t, fun fs => .head (h fs) (e fs), q⟩
theorem At.lab {k : Sub} {n : ℕ} {l l' : Code} {s : St} {Q : St → Prop} (h : At code ra k l l' s Q) : At code ra k (.lab n :: l) l' s Q :=
  .head (fun _ => rfl) h
theorem At.jmp {k : Sub} {n : ℕ} {l l' l'' : Code} {s : St} {Q : St → Prop} (ht : target n (code k) = .ok l') (h : At code ra k l' l'' s Q) :
    At code ra k (.jmp n :: l) l'' s Q :=
  .head (fun fs => by show (target n (code k) >>= _) = _; rw [ht]; rfl) h
theorem At.jcc {k : Sub} {n : ℕ} {q : Cond} {l l' l'' : Code} {s : St} {Q : St → Prop} (hq : holds s q = .ok true) (ht : target n (code k) = .ok l')
    (h : At code ra k l' l'' s Q) : At code ra k (.jcc q n :: l) l'' s Q :=
  .head (fun fs => by show (holds s q >>= _) = _; rw [hq, Res.bind_ok, if_pos rfl, ht]; rfl) h
theorem At.pass {k : Sub} {n : ℕ} {q : Cond} {l l'' : Code} {s : St} {Q : St → Prop} (hq : holds s q = .ok false)
    (h : At code ra k l l'' s Q) : At code ra k (.jcc q n :: l) l'' s Q :=
  .head (fun fs => by show (holds s q >>= _) = _; rw [hq, Res.bind_ok, if_neg (by simp)]) h
theorem Fn.at {j : Sub} {l : Code} {s : St} {Q : St → Prop} (h : At code ra j (code j) (.ret :: l) s Q) : Fn code ra j s Q :=
  let ⟨t, e, q⟩ := h; ⟨t, l, e, q⟩

end Jit
end Verif
