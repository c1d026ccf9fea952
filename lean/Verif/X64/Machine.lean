import Verif.Base
import Mathlib.Data.Nat.Bitwise

/-! A fragment of the x86-64 instruction set, enough for the routines generated by `zm.cpp` and `zm2.cpp`.

Registers hold numbers below 2^64.  Memory is read and written in aligned 8-byte words: `mem (A / 8)` is the word at byte
address A, any other access is `ub`.  A flag is `none` where the architecture leaves it undefined or where this model does
not track it; reading such a flag is `ub`. -/

namespace Verif
namespace X64

-- 2^64
scoped notation "W" => (18446744073709551616 : ℕ)

inductive Reg where
  | rax | rcx | rdx | rbx | rsp | rbp | rsi | rdi | r8 | r9 | r10 | r11 | r12 | r13 | r14 | r15
  deriving DecidableEq, Repr

structure Regs where
  rax : ℕ
  rcx : ℕ
  rdx : ℕ
  rbx : ℕ
  rsp : ℕ
  rbp : ℕ
  rsi : ℕ
  rdi : ℕ
  r8 : ℕ
  r9 : ℕ
  r10 : ℕ
  r11 : ℕ
  r12 : ℕ
  r13 : ℕ
  r14 : ℕ
  r15 : ℕ

def Regs.get (r : Regs) : Reg → ℕ
  | .rax => r.rax | .rcx => r.rcx | .rdx => r.rdx | .rbx => r.rbx | .rsp => r.rsp | .rbp => r.rbp | .rsi => r.rsi
  | .rdi => r.rdi | .r8 => r.r8 | .r9 => r.r9 | .r10 => r.r10 | .r11 => r.r11 | .r12 => r.r12 | .r13 => r.r13
  | .r14 => r.r14 | .r15 => r.r15

def Regs.set (r : Regs) (x : Reg) (v : ℕ) : Regs :=
  match x with
  | .rax => { r with rax := v } | .rcx => { r with rcx := v } | .rdx => { r with rdx := v } | .rbx => { r with rbx := v }
  | .rsp => { r with rsp := v } | .rbp => { r with rbp := v } | .rsi => { r with rsi := v } | .rdi => { r with rdi := v }
  | .r8 => { r with r8 := v } | .r9 => { r with r9 := v } | .r10 => { r with r10 := v } | .r11 => { r with r11 := v }
  | .r12 => { r with r12 := v } | .r13 => { r with r13 := v } | .r14 => { r with r14 := v } | .r15 => { r with r15 := v }

structure State where
  r : Regs
  /-- carry -/
  cf : Option Bool
  /-- zero -/
  zf : Option Bool
  /-- sign differs from overflow: signed "less" -/
  lt : Option Bool
  mem : ℕ → ℕ

/-- `ptr [base + 8 * idx + disp]`; a negative displacement is given modulo 2^64 -/
structure Addr where
  base : Reg
  idx : Option Reg := none
  disp : ℕ := 0

inductive Src where
  | r (x : Reg)
  | m (a : Addr)
  | i (n : ℕ)

inductive Alu where
  | add | adc | sub | sbb | cmp | and | xor

/-- straight-line instructions -/
inductive Op where
  /-- `mov d, s` -/
  | mov (d : Reg) (s : Src)
  /-- `mov [a], s` -/
  | st (a : Addr) (s : Reg)
  | alu (o : Alu) (d : Reg) (s : Src)
  | lea (d : Reg) (a : Addr)
  | shr (d : Reg) (n : ℕ)
  | neg (d : Reg)
  | inc (d : Reg)
  | dec (d : Reg)
  | mul (s : Reg)
  | div (s : Reg)
  /-- `setc al` -/
  | setc

inductive Cond where
  /-- jz, je -/
  | z
  /-- jnz, jne -/
  | nz
  /-- jge -/
  | ge
  /-- jc -/
  | b
  /-- jnc -/
  | nb

inductive Ins where
  | op (o : Op)
  | lab (n : ℕ)
  | jmp (n : ℕ)
  | jcc (c : Cond) (n : ℕ)
  | ret

/-- effective address -/
def ea (r : Regs) (a : Addr) : ℕ :=
  (r.get a.base + (match a.idx with | none => 0 | some i => 8 * r.get i) + a.disp) % W

def load (m : ℕ → ℕ) (A : ℕ) : Res ℕ := if A % 8 = 0 then .ok (m (A / 8)) else .ub
def store (m : ℕ → ℕ) (A v : ℕ) : Res (ℕ → ℕ) := if A % 8 = 0 then .ok (Function.update m (A / 8) v) else .ub

def flag : Option Bool → Res Bool
  | some b => .ok b
  | none => .ub

def src (s : State) : Src → Res ℕ
  | .r x => .ok (s.r.get x)
  | .m a => load s.mem (ea s.r a)
  | .i n => .ok n

/-- comparison of two's complement numbers -/
def sLt (a b : ℕ) : Bool := Nat.blt ((a + 2 ^ 63) % W) ((b + 2 ^ 63) % W)

def doAlu (s : State) (d : Reg) (a b : ℕ) : Alu → Res State
  | .add => .ok { s with r := s.r.set d ((a + b) % W), cf := some (Nat.ble W (a + b)), zf := some (Nat.beq ((a + b) % W) 0), lt := none }
  | .adc => do
    let c ← flag s.cf
    .ok { s with r := s.r.set d ((a + b + c.toNat) % W), cf := some (Nat.ble W (a + b + c.toNat)),
                 zf := some (Nat.beq ((a + b + c.toNat) % W) 0), lt := none }
  | .sub => .ok { s with r := s.r.set d ((a + W - b) % W), cf := some (Nat.blt a b), zf := some (Nat.beq a b),
                         lt := some (sLt a b) }
  | .sbb => do
    let c ← flag s.cf
    .ok { s with r := s.r.set d ((a + W - (b + c.toNat)) % W), cf := some (Nat.blt a (b + c.toNat)),
                 zf := some (Nat.beq ((a + W - (b + c.toNat)) % W) 0), lt := none }
  | .cmp => .ok { s with cf := some (Nat.blt a b), zf := some (Nat.beq a b), lt := some (sLt a b) }
  | .and => .ok { s with r := s.r.set d (a &&& b), cf := some false, zf := some (Nat.beq (a &&& b) 0), lt := none }
  | .xor => .ok { s with r := s.r.set d (a ^^^ b), cf := some false, zf := some (Nat.beq (a ^^^ b) 0), lt := none }

def doOp (s : State) : Op → Res State
  | .mov d x => do
    let v ← src s x
    .ok { s with r := s.r.set d v }
  | .st a x => do
    let m ← store s.mem (ea s.r a) (s.r.get x)
    .ok { s with mem := m }
  | .alu o d x => do
    let v ← src s x
    doAlu s d (s.r.get d) v o
  | .lea d a => .ok { s with r := s.r.set d (ea s.r a) }
  | .shr d n => .ok { s with r := s.r.set d (s.r.get d / 2 ^ n), cf := some ((s.r.get d).testBit (n - 1)),
                             zf := some (Nat.beq (s.r.get d / 2 ^ n) 0), lt := none }
  | .neg d => .ok { s with r := s.r.set d ((W - s.r.get d) % W), cf := some (!Nat.beq (s.r.get d) 0), zf := some (Nat.beq (s.r.get d) 0),
                           lt := none }
  | .inc d => .ok { s with r := s.r.set d ((s.r.get d + 1) % W), zf := some (Nat.beq ((s.r.get d + 1) % W) 0), lt := none }
  | .dec d => .ok { s with r := s.r.set d ((s.r.get d + (W - 1)) % W), zf := some (Nat.beq ((s.r.get d + (W - 1)) % W) 0), lt := none }
  | .mul x =>
    let t := s.r.rax * s.r.get x
    .ok { s with r := { s.r with rax := t % W, rdx := t / W }, cf := some (!Nat.beq (t / W) 0), zf := none, lt := none }
  | .div x =>
    let t := s.r.rdx * W + s.r.rax
    if s.r.get x = 0 ∨ W ≤ t / s.r.get x then .ub
    else .ok { s with r := { s.r with rax := t / s.r.get x, rdx := t % s.r.get x }, cf := none, zf := none, lt := none }
  | .setc => do
    let c ← flag s.cf
    .ok { s with r := { s.r with rax := s.r.rax / 256 * 256 + c.toNat } }

/-- does the jump happen -/
def holds (s : State) : Cond → Res Bool
  | .z => flag s.zf
  | .nz => do let b ← flag s.zf; .ok (!b)
  | .ge => do let b ← flag s.lt; .ok (!b)
  | .b => flag s.cf
  | .nb => do let b ← flag s.cf; .ok (!b)

/-- the code after label n -/
def target (n : ℕ) : List Ins → Option (List Ins)
  | [] => none
  | .lab k :: l => if k = n then some l else target n l
  | _ :: l => target n l

/-- run the code `l` of the program `p` until `ret`; the fuel only serves to write it as a total function -/
def exec (p : List Ins) : ℕ → List Ins → State → Res State
  | 0, _, _ => .diverge
  | _ + 1, [], _ => .ub
  | n + 1, .op o :: l, s => do
    let s ← doOp s o
    exec p n l s
  | n + 1, .lab _ :: l, s => exec p n l s
  | n + 1, .jmp k :: _, s =>
    match target k p with
    | none => .ub
    | some l => exec p n l s
  | n + 1, .jcc c k :: l, s => do
    let b ← holds s c
    if b then
      match target k p with
      | none => .ub
      | some l => exec p n l s
    else exec p n l s
  | _ + 1, .ret :: _, s => .ok s

/-- a call of the routine `p` in state s returns in state t -/
def Returns (p : List Ins) (s t : State) : Prop := ∃ n, exec p n p s = .ok t

/-! ### reasoning -/

/-- from (l, s) the program p comes to `ret`, in a state that satisfies P -/
def Tot (p l : List Ins) (s : State) (P : State → Prop) : Prop := ∃ n t, exec p n l s = .ok t ∧ P t

theorem Tot.returns {p : List Ins} {s : State} {P : State → Prop} (h : Tot p p s P) : ∃ t, Returns p s t ∧ P t := by
  obtain ⟨n, t, h, h'⟩ := h
  exact ⟨t, ⟨n, h⟩, h'⟩

theorem Tot.ret {p l : List Ins} {s : State} {P : State → Prop} (h : P s) : Tot p (.ret :: l) s P := ⟨1, s, rfl, h⟩

theorem Tot.mono {p l : List Ins} {s : State} {P Q : State → Prop} (h : Tot p l s P) (hPQ : ∀ t, P t → Q t) : Tot p l s Q := by
  obtain ⟨n, t, h, h'⟩ := h
  exact ⟨n, t, h, hPQ t h'⟩

/-- straight-line code -/
def block (s : State) : List Op → Res State
  | [] => .ok s
  | o :: l => do
    let s ← doOp s o
    block s l

theorem Tot.block {p : List Ins} {b : List Op} {l : List Ins} {s s' : State} {P : State → Prop} (h : block s b = .ok s')
    (h' : Tot p l s' P) : Tot p (b.map .op ++ l) s P := by
  induction b generalizing s with
  | nil => cases h; exact h'
  | cons o b ih =>
    unfold X64.block at h
    rcases e : doOp s o with t | _ | _ | _ | _ <;> rw [e] at h
    · obtain ⟨k, t', hk, hP⟩ := ih h
      refine ⟨k + 1, t', ?_, hP⟩
      show (doOp s o >>= _) = _
      rw [e]; exact hk
    all_goals cases h

theorem Tot.lab {p : List Ins} {k : ℕ} {l : List Ins} {s : State} {P : State → Prop} (h : Tot p l s P) :
    Tot p (.lab k :: l) s P := by
  obtain ⟨k, t', hk, hP⟩ := h
  exact ⟨k + 1, t', hk, hP⟩

theorem Tot.jmp {p : List Ins} {k : ℕ} {l l' : List Ins} {s : State} {P : State → Prop} (h : target k p = some l')
    (h' : Tot p l' s P) : Tot p (.jmp k :: l) s P := by
  obtain ⟨n, t', hk, hP⟩ := h'
  refine ⟨n + 1, t', ?_, hP⟩
  show (match target k p with | none => Res.ub | some l => exec p n l s) = _
  rw [h]; exact hk

theorem Tot.taken {p : List Ins} {c : Cond} {k : ℕ} {l l' : List Ins} {s : State} {P : State → Prop}
    (h : holds s c = .ok true) (h' : target k p = some l') (h2 : Tot p l' s P) : Tot p (.jcc c k :: l) s P := by
  obtain ⟨n, t', hk, hP⟩ := h2
  refine ⟨n + 1, t', ?_, hP⟩
  show (holds s c >>= fun b => if b then (match target k p with | none => Res.ub | some l => exec p n l s)
    else exec p n l s) = _
  rw [h, h']; exact hk

theorem Tot.not_taken {p : List Ins} {c : Cond} {k : ℕ} {l : List Ins} {s : State} {P : State → Prop}
    (h : holds s c = .ok false) (h2 : Tot p l s P) : Tot p (.jcc c k :: l) s P := by
  obtain ⟨n, t', hk, hP⟩ := h2
  refine ⟨n + 1, t', ?_, hP⟩
  show (holds s c >>= fun b => if b then (match target k p with | none => Res.ub | some l => exec p n l s)
    else exec p n l s) = _
  rw [h]; exact hk

theorem block_append {s t : State} {a b : List Op} (h : block s a = .ok t) : block s (a ++ b) = block t b := by
  induction a generalizing s with
  | nil => cases h; rfl
  | cons o a ih =>
    unfold block at h
    show (doOp s o >>= fun s => block s (a ++ b)) = _
    rcases e : doOp s o with u | _ | _ | _ | _ <;> rw [e] at h
    · exact ih h
    all_goals cases h

/-- the final state of a call is unique -/
theorem exec_mono {p : List Ins} : ∀ (n : ℕ) {l : List Ins} {s t : State}, exec p n l s = .ok t → exec p (n + 1) l s = .ok t := by
  intro n
  induction n with
  | zero => intro l s t h; cases h
  | succ n ih =>
    intro l s t h
    match l with
    | [] => cases h
    | .op o :: l =>
      unfold exec at h ⊢
      rcases e : doOp s o with u | _ | _ | _ | _ <;> rw [e] at h
      · exact ih h
      all_goals cases h
    | .lab _ :: l => unfold exec at h ⊢; exact ih h
    | .jmp k :: l =>
      unfold exec at h ⊢
      rcases e : target k p with _ | l' <;> rw [e] at h
      · cases h
      · exact ih h
    | .jcc c k :: l =>
      unfold exec at h ⊢
      rcases e : holds s c with b | _ | _ | _ | _ <;> rw [e] at h
      · rcases b
        · exact ih h
        · rw [Res.bind_ok, if_pos rfl] at h ⊢
          rcases e : target k p with _ | l' <;> rw [e] at h
          · cases h
          · exact ih h
      all_goals cases h
    | .ret :: l => exact h

theorem Returns.unique {p : List Ins} {s t u : State} (h : Returns p s t) (h' : Returns p s u) : t = u := by
  obtain ⟨n, hn⟩ := h
  obtain ⟨m, hm⟩ := h'
  have key : ∀ (k n : ℕ) (t : State), exec p n p s = .ok t → exec p (n + k) p s = .ok t := by
    intro k
    induction k with
    | zero => exact fun n t h => h
    | succ k ih => exact fun n t h => exec_mono _ (ih n t h)
  have h1 := key m n t hn
  have h2 := key n m u hm
  rw [Nat.add_comm, h2] at h1
  injection h1 with h1
  exact h1.symm

end X64
end Verif
