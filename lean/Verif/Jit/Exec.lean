import Verif.Jit.Code

/-! Reasoning about straight-line code: execution of instruction lists, four-word blocks in registers and memory, and the
effect of the basic blocks of the code generator. -/

namespace Verif
namespace Jit

open Fp Reg

/-- executes a list of straight-line instructions -/
def exec : List Op → St → Res St
  | [], s => .ok s
  | o :: l, s => doOp s o >>= exec l

@[simp] theorem exec_nil (s : St) : exec [] s = .ok s := rfl
theorem exec_cons (o : Op) (l : List Op) (s : St) : exec (o :: l) s = doOp s o >>= exec l := rfl

theorem exec_append (a b : List Op) (s : St) : exec (a ++ b) s = exec a s >>= exec b := by
  induction a generalizing s with
  | nil => rfl
  | cons o l ih =>
    show (doOp s o >>= exec (l ++ b)) = ((doOp s o >>= exec l) >>= exec b)
    rcases h : doOp s o with t | _ | _ | _ | _ <;> simp [ih, Bind.bind, Res.bind]

/-- the code runs through and ends in a state with Q -/
def Ex (c : List Op) (s : St) (Q : St → Prop) : Prop := ∃ t, exec c s = .ok t ∧ Q t

theorem Ex.nil {s : St} {Q : St → Prop} (h : Q s) : Ex [] s Q := ⟨s, rfl, h⟩

theorem Ex.append {a b : List Op} {s : St} {P Q : St → Prop} (h : Ex a s P) (k : ∀ t, P t → Ex b t Q) : Ex (a ++ b) s Q := by
  obtain ⟨t, h1, h2⟩ := h
  obtain ⟨u, h3, h4⟩ := k t h2
  exact ⟨u, by rw [exec_append, h1]; exact h3, h4⟩

theorem Ex.cons {o : Op} {l : List Op} {s t : St} {Q : St → Prop} (h : doOp s o = .ok t) (k : Ex l t Q) : Ex (o :: l) s Q := by
  obtain ⟨u, h1, h2⟩ := k
  exact ⟨u, by rw [exec_cons, h]; exact h1, h2⟩

theorem Ex.mono {a : List Op} {s : St} {P Q : St → Prop} (h : Ex a s P) (k : ∀ t, P t → Q t) : Ex a s Q := by
  obtain ⟨t, h1, h2⟩ := h
  exact ⟨t, h1, k t h2⟩

/-- four words from address A on -/
def rd4 (m : ℕ → ℕ) (A : ℕ) : W4 := ⟨m A, m (A + 1), m (A + 2), m (A + 3)⟩
def rd8 (m : ℕ → ℕ) (A : ℕ) : W8 := ⟨rd4 m A, rd4 m (A + 4)⟩
def wr4 (m : ℕ → ℕ) (A : ℕ) (w : W4) : ℕ → ℕ :=
  Function.update (Function.update (Function.update (Function.update m A w.w0) (A + 1) w.w1) (A + 2) w.w2) (A + 3) w.w3
def wr8 (m : ℕ → ℕ) (A : ℕ) (w : W8) : ℕ → ℕ := wr4 (wr4 m A w.lo) (A + 4) w.hi

/-- a number in four registers, the highest word first -/
def R4 (r : Reg → ℕ) (z3 z2 z1 z0 : Reg) : W4 := ⟨r z0, r z1, r z2, r z3⟩

/-- only the registers in L change, and neither the xmm registers -/
structure Keep (L : List Reg) (s t : St) : Prop where
  r : ∀ q, q ∉ L → t.r q = s.r q
  x : t.x = s.x

theorem Keep.mono {L M : List Reg} {s t : St} (h : Keep L s t) (hs : L ⊆ M) : Keep M s t := ⟨fun q hq => h.r q fun k => hq (hs k), h.x⟩
theorem Keep.trans {L : List Reg} {s t u : St} (h : Keep L s t) (k : Keep L t u) : Keep L s u :=
  ⟨fun q hq => (k.r q hq).trans (h.r q hq), k.x.trans h.x⟩
theorem Keep.refl (L : List Reg) (s : St) : Keep L s s := ⟨fun _ _ => rfl, rfl⟩

/-- only the registers in L and the xmm registers in M change -/
structure KeepX (L : List Reg) (M : List ℕ) (s t : St) : Prop where
  r : ∀ q, q ∉ L → t.r q = s.r q
  x : ∀ i, i ∉ M → t.x i = s.x i

theorem Keep.toX {L : List Reg} {s t : St} (h : Keep L s t) (M : List ℕ) : KeepX L M s t := ⟨h.r, fun i _ => by rw [h.x]⟩
theorem KeepX.mono {L L' : List Reg} {M M' : List ℕ} {s t : St} (h : KeepX L M s t) (hs : L ⊆ L') (hm : M ⊆ M') : KeepX L' M' s t :=
  ⟨fun q hq => h.r q fun k => hq (hs k), fun q hq => h.x q fun k => hq (hm k)⟩
theorem KeepX.trans {L : List Reg} {M : List ℕ} {s t u : St} (h : KeepX L M s t) (k : KeepX L M t u) : KeepX L M s u :=
  ⟨fun q hq => (k.r q hq).trans (h.r q hq), fun q hq => (k.x q hq).trans (h.x q hq)⟩
theorem KeepX.refl (L : List Reg) (M : List ℕ) (s : St) : KeepX L M s s := ⟨fun _ _ => rfl, fun _ _ => rfl⟩

/-- the address `a` in state r is the word A, and n words fit behind it -/
structure Ptr (r : Reg → ℕ) (a : Addr) (A n : ℕ) : Prop where
  eq : r a.base + idxVal r a.idx + a.disp = 8 * A
  le : 8 * (A + n) ≤ B64

/-- the registers of an address do not lie in L -/
def Addr.avoid (a : Addr) (L : List Reg) : Prop := a.base ∉ L ∧ ∀ i, a.idx = some i → i ∉ L

instance (a : Addr) (L : List Reg) : Decidable (a.avoid L) := by
  unfold Addr.avoid
  rcases h : a.idx with _ | i
  · exact decidable_of_iff (a.base ∉ L) (by simp)
  · exact decidable_of_iff (a.base ∉ L ∧ i ∉ L) (by simp)

theorem Addr.avoid.mono {a : Addr} {L M : List Reg} (h : a.avoid M) (hs : L ⊆ M) : a.avoid L :=
  ⟨fun k => h.1 (hs k), fun i hi k => h.2 i hi (hs k)⟩

@[simp] theorem Addr.plus_base (a : Addr) (n : ℕ) : (a.plus n).base = a.base := rfl
@[simp] theorem Addr.plus_idx (a : Addr) (n : ℕ) : (a.plus n).idx = a.idx := rfl

theorem Addr.avoid.plus {a : Addr} {L : List Reg} (h : a.avoid L) (n : ℕ) : (a.plus n).avoid L := h

theorem Ptr.plus {r : Reg → ℕ} {a : Addr} {A n : ℕ} (h : Ptr r a A n) (k : ℕ) (hk : k ≤ n) : Ptr r (a.plus (8 * k)) (A + k) (n - k) := by
  refine ⟨?_, ?_⟩
  · have := h.eq; simp only [Addr.plus] at this ⊢; omega
  · have := h.le; omega

theorem Ptr.keep {r r' : Reg → ℕ} {a : Addr} {A n : ℕ} (h : Ptr r a A n) {L : List Reg} (hL : a.avoid L)
    (hK : ∀ q, q ∉ L → r' q = r q) : Ptr r' a A n := by
  refine ⟨?_, h.le⟩
  have := h.eq
  rw [hK _ hL.1]
  rcases hi : a.idx with _ | i
  · rw [hi] at this; exact this
  · rw [hi] at this; simp only [idxVal] at this ⊢; rw [hK i (hL.2 i hi)]; exact this

theorem Ptr.pt {r : Reg → ℕ} {q : Reg} {d A n : ℕ} (h : r q + d = 8 * A) (hn : 8 * (A + n) ≤ B64) : Ptr r (pt q d) A n := ⟨by simpa [Jit.pt, idxVal] using h, hn⟩

theorem ea_of {r : Reg → ℕ} {a : Addr} {A n : ℕ} (h : Ptr r a A n) (hn : 0 < n) : ea r a = 8 * A := by
  unfold ea
  rw [h.eq]
  exact Nat.mod_eq_of_lt (by have := h.le; omega)

theorem load_of {r : Reg → ℕ} {a : Addr} {A n : ℕ} (m : ℕ → ℕ) (h : Ptr r a A n) (hn : 0 < n) : load m (ea r a) = .ok (m A) := by
  rw [ea_of h hn, load, if_pos (by omega), Nat.mul_div_cancel_left _ (by omega)]

theorem store_of {r : Reg → ℕ} {a : Addr} {A n : ℕ} (m : ℕ → ℕ) (v : ℕ) (h : Ptr r a A n) (hn : 0 < n) :
    store m (ea r a) v = .ok (Function.update m A v) := by
  rw [ea_of h hn, store, if_pos (by omega), Nat.mul_div_cancel_left _ (by omega)]

/-! ### single instructions -/

theorem ld_ok {s : St} {d : Reg} {a : Addr} {A n : ℕ} (h : Ptr s.r a A n) (hn : 0 < n) : doOp s (ld d a) = .ok (setR s d (s.m A)) := by
  simp [ld, doOp, src, load_of s.m h hn]

theorem st_ok {s : St} {q : Reg} {a : Addr} {A n : ℕ} (h : Ptr s.r a A n) (hn : 0 < n) :
    doOp s (.st a q) = .ok { s with m := Function.update s.m A (s.r q) } := by
  simp [doOp, store_of s.m _ h hn]

/-- carry of the first instruction of a chain -/
def CfIn (withCarry : Bool) (cf : Option ℕ) (c : ℕ) : Prop := if withCarry then cf = some c else c = 0

theorem CfIn.no (cf : Option ℕ) : CfIn false cf 0 := by simp [CfIn]
theorem CfIn.yes {cf : Option ℕ} {c : ℕ} (h : cf = some c) : CfIn true cf c := by simpa [CfIn] using h

def op1 (isAdd : Bool) (a b c : ℕ) : ℕ × ℕ := if isAdd then adc a b c else sbb a b c
def op4 (isAdd : Bool) (x y : W4) (c : ℕ) : W4 × ℕ := if isAdd then add4 x y c else sub4 x y c

theorem alu_o1 {isAdd wc : Bool} {cf : Option ℕ} {c : ℕ} (h : CfIn wc cf c) (a b : ℕ) : alu cf a b (o1 isAdd wc) = .ok (op1 isAdd a b c) := by
  cases wc <;> cases isAdd <;> simp_all [CfIn, o1, alu, op1, flag]

theorem alu_o2 {isAdd : Bool} (a b c : ℕ) : alu (some c) a b (o2 isAdd) = .ok (op1 isAdd a b c) := by
  cases isAdd <;> simp [o2, alu, op1, flag]

/-- the state after an arithmetic instruction -/
def setA (s : St) (d : Reg) (v : ℕ × ℕ) : St := { setR s d v.1 with cf := some v.2, zf := some (v.1 == 0) }

theorem orr_ok {s : St} {o : Alu} {d q : Reg} {v : ℕ × ℕ} (h : alu s.cf (s.r d) (s.r q) o = .ok v) : doOp s (orr o d q) = .ok (setA s d v) := by
  simp [orr, doOp, src, h, setA]
theorem orm_ok {s : St} {o : Alu} {d : Reg} {a : Addr} {A n : ℕ} {v : ℕ × ℕ} (hp : Ptr s.r a A n) (hn : 0 < n)
    (h : alu s.cf (s.r d) (s.m A) o = .ok v) : doOp s (orm o d a) = .ok (setA s d v) := by
  simp [orm, doOp, src, load_of s.m hp hn, h, setA]
theorem ori_ok {s : St} {o : Alu} {d : Reg} {k : ℕ} {v : ℕ × ℕ} (h : alu s.cf (s.r d) (k % B64) o = .ok v) : doOp s (ori o d k) = .ok (setA s d v) := by
  simp [ori, doOp, src, h, setA]
theorem mv_ok (s : St) (d q : Reg) : doOp s (mv d q) = .ok (setR s d (s.r q)) := rfl
theorem mvi_ok (s : St) (d : Reg) (n : ℕ) : doOp s (mvi d n) = .ok (setR s d (n % B64)) := rfl
theorem lea_ok (s : St) (d : Reg) (a : Addr) : doOp s (.lea d a) = .ok (setR s d (ea s.r a)) := rfl
theorem ofX_ok (s : St) (d : Reg) (i : ℕ) : doOp s (.ofX d i) = .ok (setR s d (s.x i)) := rfl
theorem toX_ok (s : St) (i : ℕ) (q : Reg) : doOp s (.toX i q) = .ok { s with x := Function.update s.x i (s.r q) } := rfl
theorem shr_ok (s : St) (d : Reg) (n : ℕ) : doOp s (.shr d n) = .ok { setR s d (s.r d / 2 ^ n) with cf := none, zf := some (s.r d / 2 ^ n == 0) } := rfl
theorem shl_ok (s : St) (d : Reg) (n : ℕ) :
    doOp s (.shl d n) = .ok { setR s d (s.r d * 2 ^ n % B64) with cf := none, zf := some (s.r d * 2 ^ n % B64 == 0) } := rfl
theorem cmovc_ok {s : St} {c : ℕ} (h : s.cf = some c) (d q : Reg) : doOp s (.cmovc d q) = .ok (setR s d (if c = 1 then s.r q else s.r d)) := by
  simp [doOp, h, flag]
theorem mul_ok {s : St} {x : Src} {v : ℕ} (h : src s x = .ok v) :
    doOp s (.mul x) = .ok { setR (setR s .rax (s.r .rax * v % B64)) .rdx (s.r .rax * v / B64) with cf := none, zf := none } := by
  simp [doOp, h]
theorem mulx_ok {s : St} {hi lo : Reg} {x : Src} {v : ℕ} (h : src s x = .ok v) :
    doOp s (.mulx hi lo x) = .ok (setR (setR s lo (s.r .rdx * v % B64)) hi (s.r .rdx * v / B64)) := by
  simp [doOp, h]

@[simp] theorem setR_m (s : St) (d : Reg) (v : ℕ) : (setR s d v).m = s.m := rfl
@[simp] theorem setR_x (s : St) (d : Reg) (v : ℕ) : (setR s d v).x = s.x := rfl
@[simp] theorem setR_cf (s : St) (d : Reg) (v : ℕ) : (setR s d v).cf = s.cf := rfl
@[simp] theorem setR_zf (s : St) (d : Reg) (v : ℕ) : (setR s d v).zf = s.zf := rfl
theorem setR_r (s : St) (d : Reg) (v : ℕ) : (setR s d v).r = Function.update s.r d v := rfl
@[simp] theorem setA_m (s : St) (d : Reg) (v : ℕ × ℕ) : (setA s d v).m = s.m := rfl
@[simp] theorem setA_x (s : St) (d : Reg) (v : ℕ × ℕ) : (setA s d v).x = s.x := rfl
@[simp] theorem setA_cf (s : St) (d : Reg) (v : ℕ × ℕ) : (setA s d v).cf = some v.2 := rfl
theorem setA_r (s : St) (d : Reg) (v : ℕ × ℕ) : (setA s d v).r = Function.update s.r d v.1 := rfl

theorem keep_set {L : List Reg} {r r' : Reg → ℕ} {d : Reg} {v : ℕ} (h : ∀ q, q ∉ L → r' q = r q) (hd : d ∈ L) :
    ∀ q, q ∉ L → Function.update r' d v q = r q := by
  intro q hq
  rw [Function.update_of_ne (by rintro rfl; exact hq hd)]
  exact h q hq

end Jit
end Verif
