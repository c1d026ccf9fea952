import Verif.Jit.Compress
import Verif.Jit.DblNeg
import Verif.Jit.Inv
import Verif.Jit.Simple

/-! Calls of the generated routines, as the C++ code sees them: pointers in rdi, rsi, rdx, numbers in memory. -/

namespace Verif
namespace Jit

open Fp Reg

/-- the number in the n words from a on, least significant first -/
def num (m : ℕ → ℕ) (a : ℕ) : ℕ → ℕ
  | 0 => 0
  | n + 1 => m a + 2 ^ 64 * num m (a + 1) n

/-- the n words from a on and the k words from b on have no word in common -/
def Apart (a n b k : ℕ) : Prop := a + n ≤ b ∨ b + k ≤ a

/-- the tables the generated code reads: `s_pTbl` (i * p), `halfTbl_` (0 and (p + 1) / 2), `pNTbl_[2]` (p * 2^254) -/
structure Tables (g : Cfg) (m : ℕ → ℕ) : Prop where
  p : ∀ i, i < 10 → num m (g.pT + 4 * i) 4 = i * p % 2 ^ 256
  h0 : num m g.hT 4 = 0
  h1 : num m (g.hT + 4) 4 = (Fp.p + 1) / 2
  n : num m (g.nT + 16) 8 = Fp.p * 2 ^ 254

/-- all registers, xmm halves and memory words are 64-bit values; the carry flag is 0 or 1 if defined -/
structure Words (s : St) : Prop where
  r : ∀ q, s.r q < 2 ^ 64
  x : ∀ i, s.x i < 2 ^ 64
  m : ∀ i, s.m i < 2 ^ 64
  c : ∀ c, s.cf = some c → c ≤ 1

/-- State s at the entry of a routine: rsp = 8 * S points to the return address, below it there are d words of stack; the
tables are in memory, inside the address space and apart from the stack. -/
structure Env (g : Cfg) (s : St) (S d : ℕ) : Prop where
  words : Words s
  tables : Tables g s.m
  pb : 8 * (g.pT + 40) ≤ 2 ^ 64
  hb : 8 * (g.hT + 8) ≤ 2 ^ 64
  nb : 8 * (g.nT + 32) ≤ 2 ^ 64
  sp : s.r rsp = 8 * S
  room : d ≤ S
  top : 8 * (S + 1) < 2 ^ 64
  stp : Apart (S - d) (d + 1) g.pT 40
  sth : Apart (S - d) (d + 1) g.hT 8
  stn : Apart (S - d) (d + 1) g.nT 32

/-- an operand of n words at word A that is read: in the address space, apart from the stack -/
structure Src' (S d A n : ℕ) : Prop where
  bound : 8 * (A + n) ≤ 2 ^ 64
  stack : Apart (S - d) (d + 1) A n

/-- an operand that is written: apart from the tables too -/
structure Dst (g : Cfg) (S d A n : ℕ) : Prop extends Src' S d A n where
  tp : Apart A n g.pT 40
  th : Apart A n g.hT 8
  tn : Apart A n g.nT 32

/-- `f(z, x, y)`: z has n words, x has k, y has l -/
structure Call3 (g : Cfg) (s : St) (S d z n x k y l : ℕ) : Prop extends Env g s S d where
  az : s.r rdi = 8 * z
  ax : s.r rsi = 8 * x
  ay : s.r rdx = 8 * y
  z : Dst g S d z n
  x : Src' S d x k
  y : Src' S d y l

/-- `f(z, x)` -/
structure Call2 (g : Cfg) (s : St) (S d z n x k : ℕ) : Prop extends Env g s S d where
  az : s.r rdi = 8 * z
  ax : s.r rsi = 8 * x
  z : Dst g S d z n
  x : Src' S d x k

/-- The registers a System V callee must not change. -/
def calleeSaved : List Reg := [.rbx, .rbp, .rsp, .r12, .r13, .r14, .r15]

/-- A call of routine j in state s comes to its `ret`: rbx, rbp, rsp, r12-r15 as before, memory changed at most in the ranges
`out` (first word, number of words) and in the d words below the stack pointer, and Q holds.  The xmm registers, the flags and
the other registers may have changed. -/
def Does (g : Cfg) (j : Sub) (s : St) (S d : ℕ) (out : List (ℕ × ℕ)) (Q : St → Prop) : Prop :=
  ∀ ra : Sub → ℕ → ℕ, ∃ t, Returns (code g) ra j s t ∧ (∀ q ∈ calleeSaved, t.r q = s.r q) ∧
    (∀ i, (∀ o ∈ out, i < o.1 ∨ o.1 + o.2 ≤ i) → (i < S - d ∨ S ≤ i) → t.m i = s.m i) ∧ Q t

theorem Does.mono {g : Cfg} {j : Sub} {s : St} {S d : ℕ} {out : List (ℕ × ℕ)} {Q Q' : St → Prop} (h : Does g j s S d out Q)
    (hq : ∀ t, Q t → Q' t) : Does g j s S d out Q' := fun ra => by
  obtain ⟨t, h1, h2, h3, h4⟩ := h ra
  exact ⟨t, h1, h2, h3, hq t h4⟩

/-- pairs, sextuples and twelve numbers of n words each -/
def rd2 (n : ℕ) (m : ℕ → ℕ) (A : ℕ) : R2 := ⟨num m A n, num m (A + n) n⟩
def rd6 (n : ℕ) (m : ℕ → ℕ) (A : ℕ) : R6 := ⟨rd2 n m A, rd2 n m (A + 2 * n), rd2 n m (A + 4 * n)⟩
def rd12 (n : ℕ) (m : ℕ → ℕ) (A : ℕ) : R12 := ⟨rd6 n m A, rd6 n m (A + 6 * n)⟩
/-- g2, g3, g4, g5 of a compressed element (`CompressT`, bn.h:2128-2142): parts of an element of Fp12 -/
def rdC (m : ℕ → ℕ) (A : ℕ) : RC := ⟨rd2 4 m (A + 24), rd2 4 m (A + 16), rd2 4 m (A + 8), rd2 4 m (A + 40)⟩

theorem vn_num (n : ℕ) (m : ℕ → ℕ) (A : ℕ) : vn n m A = num m A n := by
  induction n generalizing A with
  | zero => rfl
  | succ n ih => rw [vn, num, ih]; rfl

section
variable {g : Cfg} {s : St} {S d : ℕ}

theorem Words.good (h : Words s) : Good s := ⟨h.r, h.x, h.m, h.c⟩

theorem rd4_of {m : ℕ → ℕ} (h : ∀ i, m i < B64) (A : ℕ) : rd4 m A = W4.of (num m A 4) := by
  rw [← vn_num, vn_rd4, W4.of_val ⟨h _, h _, h _, h _⟩]
theorem rd8_of {m : ℕ → ℕ} (h : ∀ i, m i < B64) (A : ℕ) : rd8 m A = W8.of (num m A 8) := by
  rw [← vn_num, vn_rd8, W8.of_val ⟨⟨h _, h _, h _, h _⟩, ⟨h _, h _, h _, h _⟩⟩]

theorem W4.of_mod (n : ℕ) : W4.of (n % 2 ^ 256) = W4.of n := by
  unfold W4.of
  simp only [W4.mk.injEq]
  refine ⟨?_, ?_, ?_, ?_⟩ <;> norm_num only <;> omega

theorem Env.tbl (h : Env g s S d) : Tbl g s.m where
  p i hi := by rw [rd4_of h.words.m, h.tables.p i hi, W4.of_mod]; rfl
  h i hi := by
    rw [rd4_of h.words.m]
    match i with
    | 0 => rw [Nat.mul_zero, Nat.add_zero, h.tables.h0]; rfl
    | 1 => rw [h.tables.h1]; rfl
  n := by
    rw [rd8_of h.words.m, h.tables.n]
    unfold pNTbl
    rw [show p * W256 / 2 ^ 2 = p * 2 ^ 254 from Nat.div_eq_of_eq_mul_left (by norm_num) (by rw [Nat.mul_assoc]; rfl)]
  pb := h.pb
  hb := h.hb
  nb := h.nb

/-- three pointers -/
def at3 (z x y : ℕ) : ℕ → ℕ
  | 0 => z
  | 1 => x
  | _ => y

variable {a : Act} {j : Sub} {z n x k y l : ℕ}

theorem saved_frame {gtn : ℕ} (h : gtn ≤ 10) : ∀ q ∈ calleeSaved, q ∉ r9 :: (gts gtn).filter fun q => !hasR ((gtSaved gtn).map Prod.snd) q := by
  interval_cases gtn <;> decide

/-- what an `Act` means for the caller -/
theorem does_of {P : ℕ → ℕ} {out : List (ℕ × ℕ)} {E : St → Prop} (hd : a.depth = d) (hcl : ∀ q ∈ calleeSaved, q ∉ a.clob)
    (hout : ∀ e ∈ a.outs, ∃ o ∈ out, o.1 ≤ P e.w + e.o ∧ P e.w + e.o + e.n ≤ o.1 + o.2)
    (h : ∀ ra, Fn (code g) ra j s fun t => Post g a 0 P S s t ∧ E t) :
    Does g j s S d out fun t => (∀ p ∈ a.outs.zip (a.f (a.inp P s.m)), num t.m (P p.1.w + p.1.o) p.1.n = p.2) ∧ E t := by
  intro ra
  obtain ⟨t, c, hr, hp, he⟩ := h ra
  refine ⟨t, ⟨c, hr []⟩, fun q hq => hp.reg q (hcl q hq), fun i hi hs => hp.fr i (fun e he hc => ?_) (by rw [hd]; omega), ?_, he⟩
  · obtain ⟨o, ho, h1, h2⟩ := hout e he
    have := hi o ho
    omega
  · intro p hm
    rw [← vn_num]
    exact hp.val p hm

theorem Env.pre {P : ℕ → ℕ} {out : List ℕ} (h : Env g s S d) (hd : a.depth = d) (hpre : a.pre = [])
    (hargs : ∀ w e, a.args[w]? = some e → e.val s = 8 * P w) (hs : ∀ w, w < a.args.length → Src' S d (P w) (a.l w))
    (hal : ∀ e ∈ a.al, Dis (P e.1) (a.l e.1) (P e.2.1) (a.l e.2.1) ∨ (e.2.2 = true ∧ P e.1 = P e.2.1))
    (hout : ∀ e ∈ a.outs, e.w ∈ out) (hz : ∀ w ∈ out, Dst g S d (P w) (a.l w)) : Pre g a 1 P S s where
  good := h.words.good
  tbl := h.tbl
  args := hargs
  bnd w hw := (hs w hw).bound
  al := hal
  pre e he := by rw [hpre] at he; cases he
  sp := h.sp
  dep := by rw [hd]; exact h.room
  top := h.top
  stk w hw := by rw [hd]; exact .of (hs w hw).stack
  stp := by rw [hd]; exact .of h.stp
  sth := by rw [hd]; exact .of h.sth
  stn := by rw [hd]; exact .of h.stn
  outT e he := by
    have hz := hz _ (hout e he)
    exact ⟨.of hz.tp, .of hz.th, .of hz.tn⟩

theorem call3_does (hargs : a.args = [.ad rdi 0, .ad rsi 0, .ad rdx 0]) (hlen : a.len = [n, k, l]) (hd : a.depth = d) (hpre : a.pre = [])
    (hout : ∀ e ∈ a.outs, e.w = 0 ∧ e.o + e.n ≤ n) (hcl : ∀ q ∈ calleeSaved, q ∉ a.clob)
    (hal : ∀ e ∈ a.al, Dis (at3 z x y e.1) (a.l e.1) (at3 z x y e.2.1) (a.l e.2.1) ∨ (e.2.2 = true ∧ at3 z x y e.1 = at3 z x y e.2.1))
    (hs : ∀ ra, Pre g a 1 (at3 z x y) S s → Fn (code g) ra j s (Post g a 0 (at3 z x y) S s)) (h : Call3 g s S d z n x k y l) :
    Does g j s S d [(z, n)] fun t => ∀ p ∈ a.outs.zip (a.f (a.inp (at3 z x y) s.m)), num t.m (z + p.1.o) p.1.n = p.2 := by
  have e0 : a.l 0 = n := by rw [Act.l, hlen]; rfl
  have e1 : a.l 1 = k := by rw [Act.l, hlen]; rfl
  have e2 : a.l 2 = l := by rw [Act.l, hlen]; rfl
  have hp : Pre g a 1 (at3 z x y) S s := h.toEnv.pre (out := [0]) hd hpre
    (by
      rw [hargs]
      intro w e he
      match w with
      | 0 => cases he; exact h.az
      | 1 => cases he; exact h.ax
      | 2 => cases he; exact h.ay
      | w + 3 => simp at he)
    (by
      rw [hargs]
      intro w hw
      match w with
      | 0 => rw [e0]; exact h.z.toSrc'
      | 1 => rw [e1]; exact h.x
      | 2 => rw [e2]; exact h.y
      | w + 3 => simp at hw)
    hal (fun e he => by rw [(hout e he).1]; exact List.mem_cons_self)
    (by
      intro w hw
      rw [List.mem_singleton] at hw
      subst hw
      rw [e0]; exact h.z)
  refine (does_of (P := at3 z x y) (E := fun _ => True) hd hcl ?_ fun ra => (hs ra hp).mono fun t ht => ⟨ht, trivial⟩).mono ?_
  · intro e he
    have := hout e he
    refine ⟨(z, n), List.mem_cons_self, ?_, ?_⟩ <;> rw [this.1] <;> simp only [at3] <;> omega
  · rintro t ⟨ht, -⟩ p hp'
    rw [← ht p hp', (hout p.1 (List.of_mem_zip hp').1).1]
    rfl

theorem call2_doesE {E : St → Prop} (hargs : a.args = [.ad rdi 0, .ad rsi 0]) (hlen : a.len = [n, k]) (hd : a.depth = d) (hpre : a.pre = [])
    (hout : ∀ e ∈ a.outs, e.w = 0 ∧ e.o + e.n ≤ n) (hcl : ∀ q ∈ calleeSaved, q ∉ a.clob)
    (hal : ∀ e ∈ a.al, Dis (at3 z x x e.1) (a.l e.1) (at3 z x x e.2.1) (a.l e.2.1) ∨ (e.2.2 = true ∧ at3 z x x e.1 = at3 z x x e.2.1))
    (hs : ∀ ra, Pre g a 1 (at3 z x x) S s → Fn (code g) ra j s fun t => Post g a 0 (at3 z x x) S s t ∧ E t) (h : Call2 g s S d z n x k) :
    Does g j s S d [(z, n)] fun t => (∀ p ∈ a.outs.zip (a.f (a.inp (at3 z x x) s.m)), num t.m (z + p.1.o) p.1.n = p.2) ∧ E t := by
  have e0 : a.l 0 = n := by rw [Act.l, hlen]; rfl
  have e1 : a.l 1 = k := by rw [Act.l, hlen]; rfl
  have hp : Pre g a 1 (at3 z x x) S s := h.toEnv.pre (out := [0]) hd hpre
    (by
      rw [hargs]
      intro w e he
      match w with
      | 0 => cases he; exact h.az
      | 1 => cases he; exact h.ax
      | w + 2 => simp at he)
    (by
      rw [hargs]
      intro w hw
      match w with
      | 0 => rw [e0]; exact h.z.toSrc'
      | 1 => rw [e1]; exact h.x
      | w + 2 => simp at hw)
    hal (fun e he => by rw [(hout e he).1]; exact List.mem_cons_self)
    (by
      intro w hw
      rw [List.mem_singleton] at hw
      subst hw
      rw [e0]; exact h.z)
  refine (does_of (P := at3 z x x) hd hcl ?_ fun ra => hs ra hp).mono ?_
  · intro e he
    have := hout e he
    refine ⟨(z, n), List.mem_cons_self, ?_, ?_⟩ <;> rw [this.1] <;> simp only [at3] <;> omega
  · rintro t ⟨ht, hE⟩
    refine ⟨fun p hp' => ?_, hE⟩
    rw [← ht p hp', (hout p.1 (List.of_mem_zip hp').1).1]
    rfl

theorem call2_does (hargs : a.args = [.ad rdi 0, .ad rsi 0]) (hlen : a.len = [n, k]) (hd : a.depth = d) (hpre : a.pre = [])
    (hout : ∀ e ∈ a.outs, e.w = 0 ∧ e.o + e.n ≤ n) (hcl : ∀ q ∈ calleeSaved, q ∉ a.clob)
    (hal : ∀ e ∈ a.al, Dis (at3 z x x e.1) (a.l e.1) (at3 z x x e.2.1) (a.l e.2.1) ∨ (e.2.2 = true ∧ at3 z x x e.1 = at3 z x x e.2.1))
    (hs : ∀ ra, Pre g a 1 (at3 z x x) S s → Fn (code g) ra j s (Post g a 0 (at3 z x x) S s)) (h : Call2 g s S d z n x k) :
    Does g j s S d [(z, n)] fun t => ∀ p ∈ a.outs.zip (a.f (a.inp (at3 z x x) s.m)), num t.m (z + p.1.o) p.1.n = p.2 :=
  (call2_doesE (E := fun _ => True) hargs hlen hd hpre hout hcl hal (fun ra hp => (hs ra hp).mono fun _ ht => ⟨ht, trivial⟩) h).mono
    fun _ ht => ht.1
/-! ### operand shapes -/

/-- the same object, or two objects with no word in common -/
def SameOr (z x n : ℕ) : Prop := z = x ∨ Apart z n x n

def Al3 (al : List (ℕ × ℕ × Bool)) (z n x k y l : ℕ) : Prop := ∀ e ∈ al, Dis (at3 z x y e.1) ([n, k, l].getD e.1 0) (at3 z x y e.2.1) ([n, k, l].getD e.2.1 0) ∨
  (e.2.2 = true ∧ at3 z x y e.1 = at3 z x y e.2.1)
theorem al_nil : Al3 [] z n x k y l := fun e he => by cases he
theorem al_inPlace (h1 : SameOr z x n) (h2 : SameOr z y n) : Al3 inPlace z n x n y n := by
  intro e he
  simp only [List.mem_cons, List.not_mem_nil, or_false] at he
  rcases he with rfl | rfl
  · exact h1.elim (fun h => .inr ⟨rfl, h⟩) fun h => .inl (.of h)
  · exact h2.elim (fun h => .inr ⟨rfl, h⟩) fun h => .inl (.of h)
theorem al_apart (h1 : Apart z n x k) (h2 : Apart z n y l) : Al3 apart z n x k y l := by
  intro e he
  simp only [List.mem_cons, List.not_mem_nil, or_false] at he
  rcases he with rfl | rfl
  · exact .inl (.of h1)
  · exact .inl (.of h2)
theorem al_same (h1 : SameOr z x n) : Al3 [(0, 1, true)] z n x n y l := by
  intro e he
  rw [List.mem_singleton] at he
  subst he
  exact h1.elim (fun h => .inr ⟨rfl, h⟩) fun h => .inl (.of h)
theorem al_other (h1 : Apart z n x k) : Al3 [(0, 1, false)] z n x k y l := by
  intro e he
  rw [List.mem_singleton] at he
  subst he
  exact .inl (.of h1)

theorem mem_elts {w n k : ℕ} {e : Elt} (h : e ∈ elts w n k) : e.w = w ∧ e.o + e.n ≤ k * n := by
  induction k with
  | zero => cases h
  | succ k ih =>
    rw [elts, List.mem_append, List.mem_singleton] at h
    rcases h with h | rfl
    · have := ih h
      rw [Nat.succ_mul]
      exact ⟨this.1, by omega⟩
    · exact ⟨rfl, by rw [Nat.succ_mul, Nat.mul_comm]⟩

variable {al : List (ℕ × ℕ × Bool)} {gtn nq dep : ℕ}

theorem frame3 {b c : ℕ} {F : List ℕ → List ℕ} (hs : ∀ ra, SatFn g ra j ((bodyA b n c k c l al F gtn dep).frame gtn nq)) (h10 : gtn ≤ 10)
    (hal : Al3 al z (b * n) x (c * k) y (c * l)) (h : Call3 g s S (dep + (gtn - 4 + nq)) z (b * n) x (c * k) y (c * l)) :
    Does g j s S (dep + (gtn - 4 + nq)) [(z, b * n)] fun t => ∀ p ∈ (elts 0 n b).zip (F ((elts 1 k c ++ elts 2 l c).map fun e => vn e.n s.m (at3 z x y e.w + e.o))),
      num t.m (z + p.1.o) p.1.n = p.2 :=
  call3_does (a := (bodyA b n c k c l al F gtn dep).frame gtn nq) rfl rfl rfl rfl (fun _ he => mem_elts he) (saved_frame h10) hal (fun ra => hs ra s _ S) h

theorem frame2 {b c : ℕ} {F : List ℕ → List ℕ} {E : St → Prop}
    (hs : ∀ ra, Pre g ((bodyA1 b n c k al F gtn dep).frame gtn nq) 1 (at3 z x x) S s →
      Fn (code g) ra j s fun t => Post g ((bodyA1 b n c k al F gtn dep).frame gtn nq) 0 (at3 z x x) S s t ∧ E t) (h10 : gtn ≤ 10)
    (hal : Al3 al z (b * n) x (c * k) x 0) (h : Call2 g s S (dep + (gtn - 4 + nq)) z (b * n) x (c * k)) :
    Does g j s S (dep + (gtn - 4 + nq)) [(z, b * n)] fun t => (∀ p ∈ (elts 0 n b).zip (F ((elts 1 k c).map fun e => vn e.n s.m (at3 z x x e.w + e.o))),
      num t.m (z + p.1.o) p.1.n = p.2) ∧ E t :=
  call2_doesE (a := (bodyA1 b n c k al F gtn dep).frame gtn nq) rfl rfl rfl rfl (fun _ he => mem_elts he) (saved_frame h10) (by
    intro e he
    have := hal e he
    rcases this with h | h
    · left
      have e' : ∀ w, ([b * n, c * k] : List ℕ).getD w 0 = [b * n, c * k, 0].getD w 0 := fun w => by
        match w with
        | 0 => rfl
        | 1 => rfl
        | 2 => rfl
        | w + 3 => rfl
      show Dis _ (List.getD [b * n, c * k] e.1 0) _ (List.getD [b * n, c * k] e.2.1 0)
      rw [e', e']
      exact h
    · exact .inr h) hs h

theorem R2.mk_eq {u v : ℕ} {X : R2} (h1 : u = X.a) (h2 : v = X.b) : (⟨u, v⟩ : R2) = X := by rw [h1, h2]
theorem R6.mk_eq {u v w : R2} {X : R6} (h1 : u = X.a) (h2 : v = X.b) (h3 : w = X.c) : (⟨u, v, w⟩ : R6) = X := by rw [h1, h2, h3]
theorem R12.mk_eq {u v : R6} {X : R12} (h1 : u = X.a) (h2 : v = X.b) : (⟨u, v⟩ : R12) = X := by rw [h1, h2]

section
variable {m : ℕ → ℕ} {P : ℕ → ℕ} {w : ℕ} {r : List ℕ}
/-- what the numbers read are -/
theorem in1 : List.map (fun e => vn e.n m (P e.w + e.o)) (elts w n 1) = [num m (P w) n] := by simp [elts, vn_num]
theorem in2 : List.map (fun e => vn e.n m (P e.w + e.o)) (elts w n 2) = l2 (rd2 n m (P w)) := by simp [elts, vn_num, l2, rd2]
theorem in6 : List.map (fun e => vn e.n m (P e.w + e.o)) (elts w n 6) = l6 (rd6 n m (P w)) := by
  simp [elts, vn_num, l6, rd6, rd2, Nat.add_assoc]
  refine ⟨?_, ?_, ?_, ?_⟩ <;> congr 1 <;> omega
theorem in12 : List.map (fun e => vn e.n m (P e.w + e.o)) (elts w n 12) = l12 (rd12 n m (P w)) := by
  simp [elts, vn_num, l12, l6, rd12, rd6, rd2, Nat.add_assoc]
  refine ⟨?_, ?_, ?_, ?_, ?_, ?_, ?_, ?_, ?_, ?_⟩ <;> congr 1 <;> omega
theorem on1_in (F : ℕ → ℕ → ℕ) (u v : ℕ) : on1 F ([u] ++ [v]) = [F u v] := rfl
theorem un1_in (F : ℕ → ℕ) (u : ℕ) : un1 F [u] = [F u] := rfl
theorem on2_in (F : R2 → R2 → R2) (u v : R2) : on2 F (l2 u ++ l2 v) = l2 (F u v) := rfl
theorem at2_in (F : R2 → R2) (u : R2) : at2 F (l2 u) = l2 (F u) := rfl
theorem on6_in (F : R6 → R6 → R6) (u v : R6) : on6 F (l6 u ++ l6 v) = l6 (F u v) := rfl
theorem r12_0 (u : R12) (v : List ℕ) : r12 (l12 u ++ v) 0 = u := rfl
theorem r12_0' (u : R12) : r12 (l12 u) 0 = u := rfl
theorem r12_12 (u v : R12) : r12 (l12 u ++ l12 v) 12 = v := rfl
theorem r6_12 (u : R12) (v : R6) : r6 (l12 u ++ l6 v) 12 = v := rfl
theorem r2_0 (u : R2) (v : List ℕ) : r2 (l2 u ++ v) 0 = u := rfl
theorem getD_2 (u : R2) (v : ℕ) : (l2 u ++ [v]).getD 2 0 = v := rfl
/-- what the numbers written are -/
theorem out1 {u : ℕ} (h : ∀ p ∈ (elts w n 1).zip [u], num m (z + p.1.o) p.1.n = p.2) : num m z n = u := by
  simpa [elts] using h
theorem out2 {X : R2} (h : ∀ p ∈ (elts w n 2).zip (l2 X), num m (z + p.1.o) p.1.n = p.2) : rd2 n m z = X := by
  simp [elts, l2] at h
  exact R2.mk_eq h.1 h.2
theorem out6 {X : R6} (h : ∀ p ∈ (elts w n 6).zip (l6 X), num m (z + p.1.o) p.1.n = p.2) : rd6 n m z = X := by
  simp [elts, l6] at h
  obtain ⟨h1, h2, h3, h4, h5, h6⟩ := h
  refine R6.mk_eq (R2.mk_eq h1 h2) (R2.mk_eq ?_ ?_) (R2.mk_eq ?_ ?_)
  · rw [← h3]; congr 1; omega
  · rw [← h4]; congr 1; omega
  · rw [← h5]; congr 1; omega
  · rw [← h6]; congr 1; omega
theorem out12 {X : R12} (h : ∀ p ∈ (elts w n 12).zip (l12 X), num m (z + p.1.o) p.1.n = p.2) : rd12 n m z = X := by
  simp [elts, l12, l6] at h
  obtain ⟨h1, h2, h3, h4, h5, h6, i1, i2, i3, i4, i5, i6⟩ := h
  refine R12.mk_eq (R6.mk_eq (R2.mk_eq h1 h2) (R2.mk_eq ?_ ?_) (R2.mk_eq ?_ ?_)) (R6.mk_eq (R2.mk_eq ?_ ?_) (R2.mk_eq ?_ ?_) (R2.mk_eq ?_ ?_))
  · rw [← h3]; congr 1; omega
  · rw [← h4]; congr 1; omega
  · rw [← h5]; congr 1; omega
  · rw [← h6]; congr 1; omega
  · rw [← i1]; congr 1; omega
  · rw [← i2]; congr 1; omega
  · rw [← i3]; congr 1; omega
  · rw [← i4]; congr 1; omega
  · rw [← i5]; congr 1; omega
  · rw [← i6]; congr 1; omega
end

/-! ### shapes of framed routines -/

theorem does_on1 {F : ℕ → ℕ → ℕ} (hs : ∀ ra, SatFn g ra j ((bodyA 1 n 1 k 1 l al (on1 F) gtn dep).frame gtn nq)) (h10 : gtn ≤ 10)
    (hal : Al3 al z n x k y l) (h : Call3 g s S (dep + (gtn - 4 + nq)) z n x k y l) :
    Does g j s S (dep + (gtn - 4 + nq)) [(z, n)] fun t => num t.m z n = F (num s.m x k) (num s.m y l) := by
  have := frame3 (z := z) (x := x) (y := y) (S := S) (s := s) hs h10 (by simpa only [Nat.one_mul] using hal) (by simpa only [Nat.one_mul] using h)
  rw [List.map_append, in1, in1, Nat.one_mul, on1_in] at this
  exact this.mono fun t ht => out1 ht

theorem does_un1 {F : ℕ → ℕ} {E : St → Prop}
    (hs : ∀ ra, Pre g ((bodyA1 1 n 1 k al (un1 F) gtn dep).frame gtn nq) 1 (at3 z x x) S s →
      Fn (code g) ra j s fun t => Post g ((bodyA1 1 n 1 k al (un1 F) gtn dep).frame gtn nq) 0 (at3 z x x) S s t ∧ E t) (h10 : gtn ≤ 10)
    (hal : Al3 al z n x k x 0) (h : Call2 g s S (dep + (gtn - 4 + nq)) z n x k) :
    Does g j s S (dep + (gtn - 4 + nq)) [(z, n)] fun t => num t.m z n = F (num s.m x k) ∧ E t := by
  have := frame2 (z := z) (x := x) (S := S) (s := s) hs h10 (by simpa only [Nat.one_mul] using hal) (by simpa only [Nat.one_mul] using h)
  rw [in1, Nat.one_mul, un1_in] at this
  exact this.mono fun t ht => ⟨out1 ht.1, ht.2⟩

theorem does_on2 {F : R2 → R2 → R2} (hs : ∀ ra, SatFn g ra j ((bodyA 2 n 2 k 2 l al (on2 F) gtn dep).frame gtn nq)) (h10 : gtn ≤ 10)
    (hal : Al3 al z (2 * n) x (2 * k) y (2 * l)) (h : Call3 g s S (dep + (gtn - 4 + nq)) z (2 * n) x (2 * k) y (2 * l)) :
    Does g j s S (dep + (gtn - 4 + nq)) [(z, 2 * n)] fun t => rd2 n t.m z = F (rd2 k s.m x) (rd2 l s.m y) := by
  have := frame3 (z := z) (x := x) (y := y) (S := S) (s := s) hs h10 hal h
  rw [List.map_append, in2, in2, on2_in] at this
  exact this.mono fun t ht => out2 ht

theorem does_at2 {F : R2 → R2} {E : St → Prop}
    (hs : ∀ ra, Pre g ((bodyA1 2 n 2 k al (at2 F) gtn dep).frame gtn nq) 1 (at3 z x x) S s →
      Fn (code g) ra j s fun t => Post g ((bodyA1 2 n 2 k al (at2 F) gtn dep).frame gtn nq) 0 (at3 z x x) S s t ∧ E t) (h10 : gtn ≤ 10)
    (hal : Al3 al z (2 * n) x (2 * k) x 0) (h : Call2 g s S (dep + (gtn - 4 + nq)) z (2 * n) x (2 * k)) :
    Does g j s S (dep + (gtn - 4 + nq)) [(z, 2 * n)] fun t => rd2 n t.m z = F (rd2 k s.m x) := by
  have := frame2 (z := z) (x := x) (S := S) (s := s) hs h10 hal h
  rw [in2, at2_in] at this
  exact this.mono fun t ht => out2 ht.1

theorem does_on6 {F : R6 → R6 → R6} (hs : ∀ ra, SatFn g ra j ((bodyA 6 n 6 k 6 l al (on6 F) gtn dep).frame gtn nq)) (h10 : gtn ≤ 10)
    (hal : Al3 al z (6 * n) x (6 * k) y (6 * l)) (h : Call3 g s S (dep + (gtn - 4 + nq)) z (6 * n) x (6 * k) y (6 * l)) :
    Does g j s S (dep + (gtn - 4 + nq)) [(z, 6 * n)] fun t => rd6 n t.m z = F (rd6 k s.m x) (rd6 l s.m y) := by
  have := frame3 (z := z) (x := x) (y := y) (S := S) (s := s) hs h10 hal h
  rw [List.map_append, in6, in6, on6_in] at this
  exact this.mono fun t ht => out6 ht

theorem does_on12 {F : R12 → R12 → R12} (hs : ∀ ra, SatFn g ra j ((bodyA 12 n 12 k 12 l al (fun v => l12 (F (r12 v 0) (r12 v 12))) gtn dep).frame gtn nq)) (h10 : gtn ≤ 10)
    (hal : Al3 al z (12 * n) x (12 * k) y (12 * l)) (h : Call3 g s S (dep + (gtn - 4 + nq)) z (12 * n) x (12 * k) y (12 * l)) :
    Does g j s S (dep + (gtn - 4 + nq)) [(z, 12 * n)] fun t => rd12 n t.m z = F (rd12 k s.m x) (rd12 l s.m y) := by
  have := frame3 (z := z) (x := x) (y := y) (S := S) (s := s) hs h10 hal h
  rw [List.map_append, in12, in12, r12_0, r12_12] at this
  exact this.mono fun t ht => out12 ht

theorem en_unit {a : Act} {P : ℕ → ℕ} (h : ∀ ra, SatFn g ra j a) (ra : Sub → ℕ → ℕ) (hp : Pre g a 1 P S s) :
    Fn (code g) ra j s fun t => Post g a 0 P S s t ∧ True := (h ra s P S hp).mono fun _ ht => ⟨ht, trivial⟩

/-! ### routines without a frame -/

theorem plain1 {F : ℕ → ℕ → ℕ} {cl : List Reg} (hs : ∀ ra, SatFn g ra j (plainA 1 (on1 F) al cl)) (hcl : ∀ q ∈ calleeSaved, q ∉ cl)
    (hal : Al3 al z 4 x 4 y 4) (h : Call3 g s S 0 z 4 x 4 y 4) :
    Does g j s S 0 [(z, 4)] fun t => num t.m z 4 = F (num s.m x 4) (num s.m y 4) := by
  have := call3_does (a := plainA 1 (on1 F) al cl) (z := z) (x := x) (y := y) (s := s) (S := S) (n := 4) (k := 4) (l := 4) rfl rfl rfl rfl
    (fun _ he => mem_elts he) hcl hal (fun ra => hs ra s _ S) h
  refine this.mono fun t ht => ?_
  have ht : ∀ p ∈ (elts 0 4 1).zip (on1 F ((elts 1 4 1 ++ elts 2 4 1).map fun e => vn e.n s.m (at3 z x y e.w + e.o))), num t.m (z + p.1.o) p.1.n = p.2 := ht
  rw [List.map_append, in1, in1, on1_in] at ht
  exact out1 ht

theorem plain2 {F : R2 → R2 → R2} {cl : List Reg} (hs : ∀ ra, SatFn g ra j (plainA 2 (on2 F) al cl)) (hcl : ∀ q ∈ calleeSaved, q ∉ cl)
    (hal : Al3 al z 8 x 8 y 8) (h : Call3 g s S 0 z 8 x 8 y 8) :
    Does g j s S 0 [(z, 8)] fun t => rd2 4 t.m z = F (rd2 4 s.m x) (rd2 4 s.m y) := by
  have := call3_does (a := plainA 2 (on2 F) al cl) (z := z) (x := x) (y := y) (s := s) (S := S) (n := 8) (k := 8) (l := 8) rfl rfl rfl rfl
    (fun _ he => mem_elts he) hcl hal (fun ra => hs ra s _ S) h
  refine this.mono fun t ht => ?_
  have ht : ∀ p ∈ (elts 0 4 2).zip (on2 F ((elts 1 4 2 ++ elts 2 4 2).map fun e => vn e.n s.m (at3 z x y e.w + e.o))), num t.m (z + p.1.o) p.1.n = p.2 := ht
  rw [List.map_append, in2, in2, on2_in] at ht
  exact out2 ht

theorem plainU {F : ℕ → ℕ} {cl : List Reg} (hs : ∀ ra, SatFn g ra j (plainA1 (un1 F) cl)) (hcl : ∀ q ∈ calleeSaved, q ∉ cl)
    (h : Call2 g s S 0 z 4 x 4) : Does g j s S 0 [(z, 4)] fun t => num t.m z 4 = F (num s.m x 4) := by
  have := call2_does (a := plainA1 (un1 F) cl) (z := z) (x := x) (s := s) (S := S) (n := 4) (k := 4) rfl rfl rfl rfl
    (fun _ he => mem_elts he) hcl (fun e he => by cases he) (fun ra => hs ra s _ S) h
  refine this.mono fun t ht => ?_
  have ht : ∀ p ∈ (elts 0 4 1).zip (un1 F ((elts 1 4 1).map fun e => vn e.n s.m (at3 z x x e.w + e.o))), num t.m (z + p.1.o) p.1.n = p.2 := ht
  rw [in1, un1_in] at ht
  exact out1 ht

/-! ### the rest -/

theorem does_fp0 {F : R2 → ℕ → R2} (hs : ∀ ra, SatFn g ra j ((bodyA 2 4 2 4 1 4 al (fun v => l2 (F (r2 v 0) (v.getD 2 0))) gtn dep).frame gtn nq)) (h10 : gtn ≤ 10)
    (hal : Al3 al z 8 x 8 y 4) (h : Call3 g s S (dep + (gtn - 4 + nq)) z 8 x 8 y 4) :
    Does g j s S (dep + (gtn - 4 + nq)) [(z, 8)] fun t => rd2 4 t.m z = F (rd2 4 s.m x) (num s.m y 4) := by
  have := call3_does (a := (bodyA 2 4 2 4 1 4 al (fun v => l2 (F (r2 v 0) (v.getD 2 0))) gtn dep).frame gtn nq) (z := z) (x := x) (y := y) (s := s) (S := S)
    (n := 8) (k := 8) (l := 4) rfl rfl rfl rfl (fun _ he => mem_elts he) (saved_frame h10) hal (fun ra => hs ra s _ S) h
  refine this.mono fun t ht => ?_
  have ht : ∀ p ∈ (elts 0 4 2).zip ((fun v => l2 (F (r2 v 0) (v.getD 2 0))) ((elts 1 4 2 ++ elts 2 4 1).map fun e => vn e.n s.m (at3 z x y e.w + e.o))), num t.m (z + p.1.o) p.1.n = p.2 := ht
  rw [List.map_append, in2, in1] at ht
  beta_reduce at ht
  rw [r2_0, getD_2] at ht
  exact out2 ht

/-- `f(z)` -/
structure Call1 (g : Cfg) (s : St) (S d z n : ℕ) : Prop extends Env g s S d where
  az : s.r rdi = 8 * z
  z : Dst g S d z n

theorem does_sq12 {F : R12 → R12} (hs : ∀ ra, SatFn g ra j (Act.frame { bodyA1 12 4 0 0 [] (fun v => l12 (F (r12 v 0))) gtn dep with
      args := [.ad gp1 0], len := [48], ins := elts 0 4 12 } gtn nq)) (h10 : gtn ≤ 10) (h : Call1 g s S (dep + (gtn - 4 + nq)) z 48) :
    Does g j s S (dep + (gtn - 4 + nq)) [(z, 48)] fun t => rd12 4 t.m z = F (rd12 4 s.m z) := by
  have hp := h.toEnv.pre (a := Act.frame { bodyA1 12 4 0 0 [] (fun v => l12 (F (r12 v 0))) gtn dep with
      args := [.ad gp1 0], len := [48], ins := elts 0 4 12 } gtn nq) (P := fun _ => z) (out := [0]) rfl rfl
    (by
      intro w e he
      match w with
      | 0 => cases he; exact h.az
      | w + 1 => cases he)
    (by
      intro w hw
      match w with
      | 0 => exact h.z.toSrc'
      | w + 1 => exact absurd hw (by simp [Act.frame]))
    (fun e he => by cases he) (fun e he => by rw [(mem_elts he).1]; exact List.mem_cons_self)
    (by
      intro w hw
      rw [List.mem_singleton] at hw
      subst hw
      exact h.z)
  refine (does_of (P := fun _ => z) (E := fun _ => True) (out := [(z, 48)]) rfl (saved_frame h10) ?_ fun ra => (hs ra s _ S hp).mono fun t ht => ⟨ht, trivial⟩).mono ?_
  · intro e he
    have := mem_elts he
    refine ⟨(z, 48), List.mem_cons_self, by simp, ?_⟩
    simp only
    omega
  · rintro t ⟨ht, -⟩
    have ht : ∀ p ∈ (elts 0 4 12).zip ((fun v => l12 (F (r12 v 0))) ((elts 0 4 12).map fun e => vn e.n s.m ((fun _ => z) e.w + e.o))), num t.m (z + p.1.o) p.1.n = p.2 := ht
    rw [in12 (P := fun _ => z)] at ht
    beta_reduce at ht
    rw [r12_0'] at ht
    exact out12 ht

theorem does_024 {F : R12 → R6 → R12} (hs : ∀ ra, SatFn g ra j (Act.frame { bodyA1 12 4 6 4 [(0, 1, false)] (fun v => l12 (F (r12 v 0) (r6 v 12))) gtn dep with
      ins := elts 0 4 12 ++ elts 1 4 6 } gtn nq)) (h10 : gtn ≤ 10) (hal : Apart z 48 x 24) (h : Call2 g s S (dep + (gtn - 4 + nq)) z 48 x 24) :
    Does g j s S (dep + (gtn - 4 + nq)) [(z, 48)] fun t => rd12 4 t.m z = F (rd12 4 s.m z) (rd6 4 s.m x) := by
  have := call2_does (a := Act.frame { bodyA1 12 4 6 4 [(0, 1, false)] (fun v => l12 (F (r12 v 0) (r6 v 12))) gtn dep with
      ins := elts 0 4 12 ++ elts 1 4 6 } gtn nq) (z := z) (x := x) (s := s) (S := S) (n := 48) (k := 24) rfl rfl rfl rfl
    (fun _ he => mem_elts he) (saved_frame h10) (fun e he => .inl (by rw [List.mem_singleton.1 he]; exact .of hal)) (fun ra => hs ra s _ S) h
  refine this.mono fun t ht => ?_
  have ht : ∀ p ∈ (elts 0 4 12).zip ((fun v => l12 (F (r12 v 0) (r6 v 12))) ((elts 0 4 12 ++ elts 1 4 6).map fun e => vn e.n s.m (at3 z x x e.w + e.o))), num t.m (z + p.1.o) p.1.n = p.2 := ht
  rw [List.map_append, in12, in6] at ht
  beta_reduce at ht
  rw [r12_0, r6_12] at ht
  exact out12 ht

/-! ### line functions -/

theorem mem_elts2 {e : Elt} (h : e ∈ elts 0 4 6 ++ elts 1 4 6) : (e.w = 0 ∨ e.w = 1) ∧ e.o + e.n ≤ 24 := by
  rcases List.mem_append.1 h with h | h
  · have := mem_elts h; exact ⟨.inl this.1, this.2⟩
  · have := mem_elts h; exact ⟨.inr this.1, this.2⟩

theorem out66 {m P : ℕ → ℕ} {X Y : R6} (h : ∀ p ∈ (elts 0 4 6 ++ elts 1 4 6).zip (l6 X ++ l6 Y), num m (P p.1.w + p.1.o) p.1.n = p.2) :
    rd6 4 m (P 0) = X ∧ rd6 4 m (P 1) = Y := by
  rw [List.zip_append (by rfl)] at h
  refine ⟨out6 (w := 0) fun p hp => ?_, out6 (w := 1) fun p hp => ?_⟩
  · rw [← h p (List.mem_append_left _ hp), (mem_elts (List.of_mem_zip hp).1).1]
  · rw [← h p (List.mem_append_right _ hp), (mem_elts (List.of_mem_zip hp).1).1]

theorem getD_6 (u : R6) (v : R2) : (l6 u ++ l2 v).getD 6 0 = v.a := rfl
theorem getD_7 (u : R6) (v : R2) : (l6 u ++ l2 v).getD 7 0 = v.b := rfl
theorem r2_60 (u : R6) (v : List ℕ) : r2 (l6 u ++ v) 0 = u.a := rfl
theorem r2_62 (u : R6) (v : List ℕ) : r2 (l6 u ++ v) 2 = u.b := rfl
theorem r2_64 (u : R6) (v : List ℕ) : r2 (l6 u ++ v) 4 = u.c := rfl

/-- `f(l, R)`: both written -/
structure CallL (g : Cfg) (s : St) (S d l T : ℕ) : Prop extends Env g s S d where
  al : s.r rdi = 8 * l
  aT : s.r rsi = 8 * T
  dl : Dst g S d l 24
  dT : Dst g S d T 24
  lT : Apart l 24 T 24

/-- `f(l, R, P)` -/
structure CallLP (g : Cfg) (s : St) (S d l T P : ℕ) : Prop extends CallL g s S d l T where
  aP : s.r rdx = 8 * P
  sP : Src' S d P 8
  lP : Apart l 24 P 8
  TP : Apart T 24 P 8

theorem does_line {T : ℕ} {F : R2 → R2 → R2 → LineR} (hs : ∀ ra, SatFn g ra j (Act.frame { bodyA1 6 4 0 0 [(0, 1, false)]
      (fun v => let e := F (r2 v 0) (r2 v 2) (r2 v 4); l6 e.l ++ l6 ⟨e.x, e.y, e.z⟩) gtn dep with
      len := [24, 24], ins := elts 1 4 6, outs := elts 0 4 6 ++ elts 1 4 6 } gtn nq)) (h10 : gtn ≤ 10) (h : CallL g s S (dep + (gtn - 4 + nq)) l T) :
    Does g j s S (dep + (gtn - 4 + nq)) [(l, 24), (T, 24)] fun t =>
      let e := F (rd2 4 s.m T) (rd2 4 s.m (T + 8)) (rd2 4 s.m (T + 16))
      rd6 4 t.m l = e.l ∧ rd6 4 t.m T = ⟨e.x, e.y, e.z⟩ := by
  have hp := h.toEnv.pre (a := Act.frame { bodyA1 6 4 0 0 [(0, 1, false)]
      (fun v => let e := F (r2 v 0) (r2 v 2) (r2 v 4); l6 e.l ++ l6 ⟨e.x, e.y, e.z⟩) gtn dep with
      len := [24, 24], ins := elts 1 4 6, outs := elts 0 4 6 ++ elts 1 4 6 } gtn nq) (P := at3 l T T) (out := [0, 1]) rfl rfl
    (by
      intro w e he
      match w with
      | 0 => cases he; exact h.al
      | 1 => cases he; exact h.aT
      | w + 2 => cases he)
    (by
      intro w hw
      match w with
      | 0 => exact h.dl.toSrc'
      | 1 => exact h.dT.toSrc'
      | w + 2 => exact absurd hw (by simp [Act.frame, bodyA1]))
    (fun e he => .inl (by rw [List.mem_singleton.1 he]; exact .of h.lT))
    (fun e he => by rcases (mem_elts2 he).1 with h | h <;> rw [h] <;> simp)
    (by
      intro w hw
      simp only [List.mem_cons, List.not_mem_nil, or_false] at hw
      rcases hw with rfl | rfl
      · exact h.dl
      · exact h.dT)
  refine (does_of (E := fun _ => True) (out := [(l, 24), (T, 24)]) rfl (saved_frame h10) ?_ fun ra => (hs ra s _ S hp).mono fun t ht => ⟨ht, trivial⟩).mono ?_
  · intro e he
    obtain ⟨h1 | h1, h2⟩ := mem_elts2 he
    · refine ⟨(l, 24), by simp, ?_, ?_⟩ <;> rw [h1] <;> simp only [at3] <;> omega
    · refine ⟨(T, 24), by simp, ?_, ?_⟩ <;> rw [h1] <;> simp only [at3] <;> omega
  · rintro t ⟨ht, -⟩
    have ht : ∀ p ∈ (elts 0 4 6 ++ elts 1 4 6).zip ((fun v => let e := F (r2 v 0) (r2 v 2) (r2 v 4); l6 e.l ++ l6 ⟨e.x, e.y, e.z⟩)
      ((elts 1 4 6).map fun e => vn e.n s.m (at3 l T T e.w + e.o))), num t.m (at3 l T T p.1.w + p.1.o) p.1.n = p.2 := ht
    rw [in6, ← List.append_nil (l6 _)] at ht
    beta_reduce at ht
    rw [r2_60, r2_62, r2_64] at ht
    exact out66 ht

theorem does_lineP {T Q : ℕ} {F : R2 → R2 → R2 → ℕ → ℕ → LineR} (hs : ∀ ra, SatFn g ra j (Act.frame { bodyA1 6 4 0 0 [(0, 1, false), (0, 2, false), (1, 2, false)]
      (fun v => let e := F (r2 v 0) (r2 v 2) (r2 v 4) (v.getD 6 0) (v.getD 7 0); l6 e.l ++ l6 ⟨e.x, e.y, e.z⟩) gtn dep with
      args := [.ad gp1 0, .ad gp2 0, .ad gp3 0], len := [24, 24, 8], ins := elts 1 4 6 ++ elts 2 4 2, outs := elts 0 4 6 ++ elts 1 4 6 } gtn nq))
    (h10 : gtn ≤ 10) (h : CallLP g s S (dep + (gtn - 4 + nq)) l T Q) :
    Does g j s S (dep + (gtn - 4 + nq)) [(l, 24), (T, 24)] fun t =>
      let e := F (rd2 4 s.m T) (rd2 4 s.m (T + 8)) (rd2 4 s.m (T + 16)) (num s.m Q 4) (num s.m (Q + 4) 4)
      rd6 4 t.m l = e.l ∧ rd6 4 t.m T = ⟨e.x, e.y, e.z⟩ := by
  have hp := h.toEnv.pre (a := Act.frame { bodyA1 6 4 0 0 [(0, 1, false), (0, 2, false), (1, 2, false)]
      (fun v => let e := F (r2 v 0) (r2 v 2) (r2 v 4) (v.getD 6 0) (v.getD 7 0); l6 e.l ++ l6 ⟨e.x, e.y, e.z⟩) gtn dep with
      args := [.ad gp1 0, .ad gp2 0, .ad gp3 0], len := [24, 24, 8], ins := elts 1 4 6 ++ elts 2 4 2, outs := elts 0 4 6 ++ elts 1 4 6 } gtn nq)
    (P := at3 l T Q) (out := [0, 1]) rfl rfl
    (by
      intro w e he
      match w with
      | 0 => cases he; exact h.al
      | 1 => cases he; exact h.aT
      | 2 => cases he; exact h.aP
      | w + 3 => cases he)
    (by
      intro w hw
      match w with
      | 0 => exact h.dl.toSrc'
      | 1 => exact h.dT.toSrc'
      | 2 => exact h.sP
      | w + 3 => exact absurd hw (by simp [Act.frame]))
    (by
      intro e he
      have he : e ∈ [(0, 1, false), (0, 2, false), (1, 2, false)] := he
      simp only [List.mem_cons, List.not_mem_nil, or_false] at he
      rcases he with rfl | rfl | rfl
      · exact .inl (.of h.lT)
      · exact .inl (.of h.lP)
      · exact .inl (.of h.TP))
    (fun e he => by rcases (mem_elts2 he).1 with h | h <;> rw [h] <;> simp)
    (by
      intro w hw
      simp only [List.mem_cons, List.not_mem_nil, or_false] at hw
      rcases hw with rfl | rfl
      · exact h.dl
      · exact h.dT)
  refine (does_of (E := fun _ => True) (out := [(l, 24), (T, 24)]) rfl (saved_frame h10) ?_ fun ra => (hs ra s _ S hp).mono fun t ht => ⟨ht, trivial⟩).mono ?_
  · intro e he
    obtain ⟨h1 | h1, h2⟩ := mem_elts2 he
    · refine ⟨(l, 24), by simp, ?_, ?_⟩ <;> rw [h1] <;> simp only [at3] <;> omega
    · refine ⟨(T, 24), by simp, ?_, ?_⟩ <;> rw [h1] <;> simp only [at3] <;> omega
  · rintro t ⟨ht, -⟩
    have ht : ∀ p ∈ (elts 0 4 6 ++ elts 1 4 6).zip ((fun v => let e := F (r2 v 0) (r2 v 2) (r2 v 4) (v.getD 6 0) (v.getD 7 0); l6 e.l ++ l6 ⟨e.x, e.y, e.z⟩)
      ((elts 1 4 6 ++ elts 2 4 2).map fun e => vn e.n s.m (at3 l T Q e.w + e.o))), num t.m (at3 l T Q p.1.w + p.1.o) p.1.n = p.2 := ht
    rw [List.map_append, in6, in2] at ht
    beta_reduce at ht
    rw [r2_60, r2_62, r2_64, getD_6, getD_7] at ht
    exact out66 ht

/-! ### compressed squaring -/

/-- `square_n(z, n)`: z is a `Compress` object at word C, whose first word is the address of the element of Fp12 at word Z -/
structure CallC (g : Cfg) (s : St) (S d C Z n : ℕ) : Prop extends Env g s S d where
  aC : s.r rdi = 8 * C
  an : s.r rsi = n % 2 ^ 64
  sC : Src' S d C 1
  ref : s.m C = 8 * Z
  dZ : Dst g S d Z 48

theorem inC' (h : ℕ → ℕ → ℕ) (P : ℕ → ℕ) : rC ((compElts 1).map fun e => h (P e.w + e.o) e.n) =
    ⟨⟨h (P 1 + 24) 4, h (P 1 + 24 + 4) 4⟩, ⟨h (P 1 + 16) 4, h (P 1 + 16 + 4) 4⟩, ⟨h (P 1 + 8) 4, h (P 1 + 8 + 4) 4⟩, ⟨h (P 1 + 40) 4, h (P 1 + 40 + 4) 4⟩⟩ := rfl
theorem inC {m P : ℕ → ℕ} : rC ((compElts 1).map fun e => vn e.n m (P e.w + e.o)) = rdC m (P 1) := by
  simp only [vn_num]
  exact inC' (num m) P

theorem outC {m P : ℕ → ℕ} {X : RC} (h : ∀ p ∈ (compElts 1).zip (lC X), num m (P p.1.w + p.1.o) p.1.n = p.2) : rdC m (P 1) = X := by
  simp [compElts, lC] at h
  obtain ⟨h1, h2, h3, h4, h5, h6, h7, h8⟩ := h
  have e : ∀ A n, num m (P 1 + A + n) 4 = num m (P 1 + (A + n)) 4 := fun A n => by rw [Nat.add_assoc]
  unfold rdC rd2
  rw [e, e, e, e, h1, h2, h3, h4, h5, h6, h7, h8]

theorem mem_comp {e : Elt} (h : e ∈ compElts 1) : e.w = 1 ∧ ∃ o ∈ [(8, 24), (40, 8)], o.1 ≤ e.o ∧ e.o + e.n ≤ o.1 + o.2 := by
  simp only [compElts, List.mem_cons, List.not_mem_nil, or_false] at h
  rcases h with rfl | rfl | rfl | rfl | rfl | rfl | rfl | rfl <;> refine ⟨rfl, by decide⟩

def pC (C Z : ℕ) : ℕ → ℕ
  | 0 => C
  | _ => Z

theorem does_comp {C Z n : ℕ} (h1 : 1 ≤ n) (h2 : n ≤ 2 ^ 64) (h : CallC g s S 105 C Z n) :
    Does g .CompressSquareN s S 105 [(Z + 8, 24), (Z + 40, 8)] fun t => rdC t.m Z = Verif.compSquare^[n] (rdC s.m Z) := by
  have hp := h.toEnv.pre (a := (B_Comp std n Z).frame 10 89) (P := pC C Z) (out := [1]) rfl rfl
    (by
      intro w e he
      match w with
      | 0 => cases he; exact h.aC
      | 1 => cases he; rfl
      | w + 2 => cases he)
    (by
      intro w hw
      match w with
      | 0 => exact h.sC
      | 1 => exact h.dZ.toSrc'
      | w + 2 => exact absurd hw (by simp [Act.frame, B_Comp]))
    (fun e he => by cases he) (fun e he => by rw [(mem_comp he).1]; exact List.mem_cons_self)
    (by
      intro w hw
      rw [List.mem_singleton] at hw
      subst hw
      exact h.dZ)
  refine (does_of (E := fun _ => True) (out := [(Z + 8, 24), (Z + 40, 8)]) rfl (show ∀ q ∈ calleeSaved, q ∉ r9 :: (gts 10).filter fun q => !hasR ((gtSaved 10).map Prod.snd) q
    from saved_frame (by norm_num)) ?_ fun ra => (en_Comp (ra := ra) h1 h2 hp h.ref h.an).mono fun t ht => ⟨ht, trivial⟩).mono ?_
  · intro e he
    obtain ⟨h1, o, h2, h3⟩ := mem_comp he
    refine ⟨(Z + o.1, o.2), ?_, ?_⟩
    · simp only [List.mem_cons, List.not_mem_nil, or_false] at h2
      rcases h2 with rfl | rfl <;> simp
    · rw [h1]; simp only [pC]; omega
  · rintro t ⟨ht, -⟩
    have ht : ∀ p ∈ (compElts 1).zip (lC ((tCompSquare std)^[n] (rC ((compElts 1).map fun e => vn e.n s.m (pC C Z e.w + e.o))))),
      num t.m (pC C Z p.1.w + p.1.o) p.1.n = p.2 := ht
    rw [inC, std_tCompSquare] at ht
    exact outC ht
end

end Jit
end Verif
