import Verif.Fp.Word
import Mathlib.Logic.Relation

/-! The x86-64 instructions used by class `PairingCode` (src/zm2.cpp:428-3573), with a stack.

Registers and the low halves of the xmm registers hold numbers below 2^64.  Memory is read and written in aligned 8-byte
words: `m (A / 8)` is the word at byte address A, any other access is `ub`.  A flag is `none` where the architecture leaves
it undefined or where this model does not track it; reading such a flag is `ub`.  `call` stores a return address below the
stack, `ret` compares the word on top of the stack with it: a return to anything but the place behind the call is `ub`. -/

namespace Verif
namespace Jit

open Fp (adc sbb)

inductive Reg where
  | rax | rcx | rdx | rbx | rsp | rbp | rsi | rdi | r8 | r9 | r10 | r11 | r12 | r13 | r14 | r15
  deriving DecidableEq, Repr

structure St where
  r : Reg → ℕ
  /-- low 64 bits of xmm0, xmm1, ... -/
  x : ℕ → ℕ
  /-- carry, 0 or 1 -/
  cf : Option ℕ
  /-- zero -/
  zf : Option Bool
  m : ℕ → ℕ

/-- `RegExp`: base + idx + disp -/
structure Addr where
  base : Reg
  idx : Option Reg := none
  disp : ℕ := 0
  deriving DecidableEq

/-- `RegExp + n` -/
def Addr.plus (a : Addr) (n : ℕ) : Addr := { a with disp := a.disp + n }

inductive Src where
  | r (q : Reg)
  | m (a : Addr)
  /-- a constant, as 64 bits -/
  | i (n : ℕ)

inductive Alu where
  | add | adc | sub | sbb | and | or | xor

/-- straight-line instructions -/
inductive Op where
  /-- `mov d, s` -/
  | mov (d : Reg) (s : Src)
  /-- `mov [a], s` -/
  | st (a : Addr) (s : Reg)
  | alu (o : Alu) (d : Reg) (s : Src)
  /-- arithmetic with the destination in memory -/
  | alum (o : Alu) (a : Addr) (s : Src)
  | lea (d : Reg) (a : Addr)
  | shr (d : Reg) (n : ℕ)
  | shl (d : Reg) (n : ℕ)
  /-- `shrd d, q, n` -/
  | shrd (d q : Reg) (n : ℕ)
  /-- `shld d, q, n` -/
  | shld (d q : Reg) (n : ℕ)
  | mul (s : Src)
  /-- `mulx hi, lo, s`: rdx times s -/
  | mulx (hi lo : Reg) (s : Src)
  /-- `cmovc d, q` -/
  | cmovc (d q : Reg)
  /-- `test d, n` -/
  | test (d : Reg) (n : ℕ)
  /-- `movq xmm, q` -/
  | toX (i : ℕ) (q : Reg)
  /-- `movq d, xmm` -/
  | ofX (d : Reg) (i : ℕ)
  | pxor (i j : ℕ)
  | paddd (i j : ℕ)

inductive Cond where
  | z | nz | cy

inductive Ins (κ : Type) where
  | op (o : Op)
  | lab (n : ℕ)
  | jmp (n : ℕ)
  | jcc (c : Cond) (n : ℕ)
  | call (k : κ)
  | ret

def setR (s : St) (d : Reg) (v : ℕ) : St := { s with r := Function.update s.r d v }

def idxVal (r : Reg → ℕ) : Option Reg → ℕ
  | none => 0
  | some i => r i

/-- effective address -/
def ea (r : Reg → ℕ) (a : Addr) : ℕ := (r a.base + idxVal r a.idx + a.disp) % B64

def load (m : ℕ → ℕ) (A : ℕ) : Res ℕ := if A % 8 = 0 then .ok (m (A / 8)) else .ub
def store (m : ℕ → ℕ) (A v : ℕ) : Res (ℕ → ℕ) := if A % 8 = 0 then .ok (Function.update m (A / 8) v) else .ub

def flag {α : Type} : Option α → Res α
  | some b => .ok b
  | none => .ub

def src (s : St) : Src → Res ℕ
  | .r q => .ok (s.r q)
  | .m a => load s.m (ea s.r a)
  | .i n => .ok (n % B64)

/-- result and carry of an arithmetic instruction -/
def alu (cf : Option ℕ) (a b : ℕ) : Alu → Res (ℕ × ℕ)
  | .add => .ok (adc a b 0)
  | .adc => do let c ← flag cf; .ok (adc a b c)
  | .sub => .ok (sbb a b 0)
  | .sbb => do let c ← flag cf; .ok (sbb a b c)
  | .and => .ok (a &&& b, 0)
  | .or => .ok (a ||| b, 0)
  | .xor => .ok (a ^^^ b, 0)

/-- `shld a, b, n` for 0 < n < 64: high word of [a:b] << n -/
def shld (a b n : ℕ) : ℕ := (a * 2 ^ n + b / 2 ^ (64 - n)) % B64

/-- addition of 32-bit lanes -/
def addd (a b : ℕ) : ℕ := (a % 2 ^ 32 + b % 2 ^ 32) % 2 ^ 32 + 2 ^ 32 * ((a / 2 ^ 32 + b / 2 ^ 32) % 2 ^ 32)

def doOp (s : St) : Op → Res St
  | .mov d x => do let v ← src s x; .ok (setR s d v)
  | .st a q => do let m ← store s.m (ea s.r a) (s.r q); .ok { s with m := m }
  | .alu o d x => do
    let v ← src s x
    let r ← alu s.cf (s.r d) v o
    .ok { setR s d r.1 with cf := some r.2, zf := some (r.1 == 0) }
  | .alum o a x => do
    let v ← src s x
    let w ← load s.m (ea s.r a)
    let r ← alu s.cf w v o
    let m ← store s.m (ea s.r a) r.1
    .ok { s with m := m, cf := some r.2, zf := some (r.1 == 0) }
  | .lea d a => .ok (setR s d (ea s.r a))
  | .shr d n => .ok { setR s d (s.r d / 2 ^ n) with cf := none, zf := some (s.r d / 2 ^ n == 0) }
  | .shl d n => .ok { setR s d (s.r d * 2 ^ n % B64) with cf := none, zf := some (s.r d * 2 ^ n % B64 == 0) }
  | .shrd d q n => .ok { setR s d (Fp.shrd (s.r d) (s.r q) n) with cf := none, zf := some (Fp.shrd (s.r d) (s.r q) n == 0) }
  | .shld d q n => .ok { setR s d (shld (s.r d) (s.r q) n) with cf := none, zf := some (shld (s.r d) (s.r q) n == 0) }
  | .mul x => do
    let v ← src s x
    .ok { setR (setR s .rax (s.r .rax * v % B64)) .rdx (s.r .rax * v / B64) with cf := none, zf := none }
  | .mulx hi lo x => do
    let v ← src s x
    .ok (setR (setR s lo (s.r .rdx * v % B64)) hi (s.r .rdx * v / B64))
  | .cmovc d q => do let c ← flag s.cf; .ok (setR s d (if c = 1 then s.r q else s.r d))
  | .test d n => .ok { s with cf := some 0, zf := some (s.r d &&& n == 0) }
  | .toX i q => .ok { s with x := Function.update s.x i (s.r q) }
  | .ofX d i => .ok (setR s d (s.x i))
  | .pxor i j => .ok { s with x := Function.update s.x i (s.x i ^^^ s.x j) }
  | .paddd i j => .ok { s with x := Function.update s.x i (addd (s.x i) (s.x j)) }

/-- does the jump happen -/
def holds (s : St) : Cond → Res Bool
  | .z => flag s.zf
  | .nz => do let b ← flag s.zf; .ok (!b)
  | .cy => do let b ← flag s.cf; .ok (b == 1)

/-- the code after label n -/
def target {κ : Type} (n : ℕ) : List (Ins κ) → Res (List (Ins κ))
  | [] => .ub
  | .lab k :: l => if k = n then .ok l else target n l
  | _ :: l => target n l

/-- a machine in routine `k`, with the rest `l` of its code and the callers still waiting -/
structure Conf (κ : Type) where
  k : κ
  l : List (Ins κ)
  fs : List (κ × List (Ins κ))
  s : St

section
variable {κ : Type} (code : κ → List (Ins κ)) (ra : κ → ℕ → ℕ)

/-- One instruction.  `code k` is the code of routine k; `ra k n` is the address of the place in routine k with n
instructions behind it.  A `ret` with no caller left has no successor: the machine stops there. -/
def step (c : Conf κ) : Res (Conf κ) :=
  match c.l with
  | [] => .ub
  | .op o :: l => do let s ← doOp c.s o; .ok { c with l := l, s := s }
  | .lab _ :: l => .ok { c with l := l }
  | .jmp n :: _ => do let l ← target n (code c.k); .ok { c with l := l }
  | .jcc q n :: l => do
    let b ← holds c.s q
    if b then do let l ← target n (code c.k); .ok { c with l := l }
    else .ok { c with l := l }
  | .call j :: l => do
    let sp := (c.s.r .rsp + (B64 - 8)) % B64
    let m ← store c.s.m sp (ra c.k l.length % B64)
    .ok ⟨j, code j, (c.k, l) :: c.fs, { setR c.s .rsp sp with m := m }⟩
  | .ret :: _ =>
    match c.fs with
    | [] => .exit
    | (k, l) :: fs => do
      let a ← load c.s.m (c.s.r .rsp)
      if a = ra k l.length % B64 then .ok ⟨k, l, fs, setR c.s .rsp ((c.s.r .rsp + 8) % B64)⟩ else .ub

/-- finitely many steps -/
def Reach : Conf κ → Conf κ → Prop := Relation.ReflTransGen fun c d => step code ra c = .ok d

/-- a call of routine k in state s (return address on top of the stack) comes to the final `ret` in state t -/
def Returns (k : κ) (s t : St) : Prop := ∃ l, Reach code ra ⟨k, code k, [], s⟩ ⟨k, .ret :: l, [], t⟩

/-- steps without fuel, to run examples: `n` steps or until the final `ret` -/
def run : ℕ → Conf κ → Res St
  | 0, _ => .diverge
  | n + 1, c =>
    match step code ra c with
    | .ok d => run n d
    | .exit => .ok c.s
    | .ub => .ub
    | .throw => .throw
    | .diverge => .diverge

end

end Jit
end Verif
