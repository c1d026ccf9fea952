import Verif.X64.ZmLemmas2
import Verif.Vuint.Lemmas
import Mathlib.Algebra.BigOperators.Intervals
import Mathlib.Algebra.BigOperators.Ring.Finset

/-!
Property theorems C13: the routines `src/zm.cpp` generates at start-up.

`Returns p s t` (Machine.lean): running the instruction list p from its first instruction in machine state s comes to `ret`
in state t, with no access that is not an aligned 8-byte one, no undefined flag read and no divide fault on the way.  A
pointer to word number a has the register value 8 * a; `s.mem a` is word a of the memory.  `Saved s t`: rbx, rbp, rsp,
r12-r15 are the same in s and t (what the System V calling convention asks of a callee).
-/

namespace Verif
open X64

/-- the number in the n words from a on, least significant first -/
def num (m : ℕ → ℕ) (a n : ℕ) : ℕ := ∑ i ∈ Finset.range n, m (a + i) * (2 ^ 64) ^ i

/-- every word of memory is below 2^64 -/
def Good (m : ℕ → ℕ) : Prop := ∀ a, m a < 2 ^ 64

/-- `m'` is m except for the n words from a on, and has words below 2^64 -/
def OnlyAt (m m' : ℕ → ℕ) (a n : ℕ) : Prop := Good m' ∧ ∀ i, (i < a ∨ a + n ≤ i) → m' i = m i

theorem val_rd (m : ℕ → ℕ) (a n : ℕ) : val (Mem.rd m a n) = num m a n := by
  induction n generalizing a with
  | zero => rfl
  | succ n ih =>
    unfold num
    rw [Finset.sum_range_succ', Mem.rd, val_cons, ih (a + 1), num, Finset.mul_sum, Nat.add_zero, pow_zero, Nat.mul_one, Nat.add_comm]
    congr 1
    refine Finset.sum_congr rfl fun i _ => ?_
    rw [pow_succ _ i, Nat.add_assoc, Nat.add_comm 1 i]
    ring

theorem onlyAt_wr {m : ℕ → ℕ} (hm : Good m) {l : List ℕ} (hl : Words l) (a : ℕ) : OnlyAt m (Mem.wr m a l) a l.length :=
  ⟨fun i => Mem.wr_lt hm hl a i, fun _ h => Mem.wr_outside h⟩

theorem num_wr (m : ℕ → ℕ) (l : List ℕ) (a : ℕ) : num (Mem.wr m a l) a l.length = val l := by
  rw [← val_rd, Mem.rd_wr]

section
variable {s : State} {n o x y : ℕ}

/-- **C13** the generated `addN`: stores the n-word sum and returns the carry, touches nothing else, leaves the memory and
the return value `in_addN` (zm.cpp:16-32) would. -/
theorem C13_addN (h1 : 1 ≤ n) (ho : s.r.rdi = 8 * o) (hx : s.r.rsi = 8 * x) (hy : s.r.rdx = 8 * y) (hn : s.r.rcx = n)
    (bo : 8 * (o + n) < 2 ^ 64) (bx : 8 * (x + n) < 2 ^ 64) (bY : 8 * (y + n) < 2 ^ 64) (hm : Good s.mem)
    (ax : o ≤ x ∨ x + n ≤ o) (ay : o ≤ y ∨ y + n ≤ o) :
    ∃ t, Returns (genAddSub true) s t ∧ Saved s t ∧ OnlyAt s.mem t.mem o n ∧ t.r.rax ≤ 1 ∧
      num t.mem o n + (2 ^ 64) ^ n * t.r.rax = num s.mem x n + num s.mem y n ∧
      (t.mem, t.r.rax) = Mem.addN n s.mem 0 o x y := by
  obtain ⟨t, ht, d1, d2, d3⟩ := (genAddSub_does (isAdd := true) ho hx hy hn h1 bo bx bY ax ay).returns
  obtain ⟨e1, e2⟩ := chain_addN (n := n) (m := s.mem) (c := false) (o := o) (x := x) (y := y) hm
  have e : (t.mem, t.r.rax) = Mem.addN n s.mem 0 o x y := Prod.ext (d1.trans e1) (d2.trans e2)
  obtain ⟨s1, s2, s3, s4⟩ := addNLoop_spec (Mem.rd s.mem x n) (Mem.rd s.mem y n) 0 (by rw [Mem.length_rd, Mem.length_rd])
    (Mem.words_rd hm _ _) (Mem.words_rd hm _ _) (Nat.zero_le 1)
  have f := e.trans (Mem.addN_spec ax ay)
  rw [Mem.length_rd] at s1 s4
  obtain ⟨f1, f2⟩ := Prod.ext_iff.mp f
  dsimp only at f1 f2
  have g1 := onlyAt_wr hm s2 o
  have g2 := num_wr s.mem (addNLoop (Mem.rd s.mem x n) (Mem.rd s.mem y n) 0).1 o
  rw [← f1, s1] at g1 g2
  refine ⟨t, ht, d3, g1, f2 ▸ s3, ?_, e⟩
  rw [g2, f2, ← val_rd, ← val_rd]
  exact s4

/-- **C13** the generated `subN`. -/
theorem C13_subN (h1 : 1 ≤ n) (ho : s.r.rdi = 8 * o) (hx : s.r.rsi = 8 * x) (hy : s.r.rdx = 8 * y) (hn : s.r.rcx = n)
    (bo : 8 * (o + n) < 2 ^ 64) (bx : 8 * (x + n) < 2 ^ 64) (bY : 8 * (y + n) < 2 ^ 64) (hm : Good s.mem)
    (ax : o ≤ x ∨ x + n ≤ o) (ay : o ≤ y ∨ y + n ≤ o) :
    ∃ t, Returns (genAddSub false) s t ∧ Saved s t ∧ OnlyAt s.mem t.mem o n ∧ t.r.rax ≤ 1 ∧
      num t.mem o n + num s.mem y n = num s.mem x n + (2 ^ 64) ^ n * t.r.rax ∧
      (t.mem, t.r.rax) = Mem.subN n s.mem 0 o x y := by
  obtain ⟨t, ht, d1, d2, d3⟩ := (genAddSub_does (isAdd := false) ho hx hy hn h1 bo bx bY ax ay).returns
  obtain ⟨e1, e2⟩ := chain_subN (n := n) (m := s.mem) (c := false) (o := o) (x := x) (y := y) hm
  have e : (t.mem, t.r.rax) = Mem.subN n s.mem 0 o x y := Prod.ext (d1.trans e1) (d2.trans e2)
  obtain ⟨s1, s2, s3, s4⟩ := subNLoop_spec (Mem.rd s.mem x n) (Mem.rd s.mem y n) 0 (by rw [Mem.length_rd, Mem.length_rd])
    (Mem.words_rd hm _ _) (Mem.words_rd hm _ _) (Nat.zero_le 1)
  have f := e.trans (Mem.subN_spec ax ay)
  rw [Mem.length_rd] at s1 s4
  obtain ⟨f1, f2⟩ := Prod.ext_iff.mp f
  dsimp only at f1 f2
  have g1 := onlyAt_wr hm s2 o
  have g2 := num_wr s.mem (subNLoop (Mem.rd s.mem x n) (Mem.rd s.mem y n) 0).1 o
  rw [← f1, s1] at g1 g2
  refine ⟨t, ht, d3, g1, f2 ▸ s3, ?_, e⟩
  rw [g2, f2, ← val_rd, ← val_rd]
  exact s4

/-- **C13** the generated `add1`: n words plus one word. -/
theorem C13_add1 (h1 : 1 ≤ n) (ho : s.r.rdi = 8 * o) (hx : s.r.rsi = 8 * x) (hn : s.r.rdx = n) (hy : s.r.rcx = y)
    (bo : 8 * (o + n) < 2 ^ 64) (bx : 8 * (x + n) < 2 ^ 64) (bY : y < 2 ^ 64) (hm : Good s.mem) (ax : o ≤ x ∨ x + n ≤ o) :
    ∃ t, Returns (genAddSub1 true) s t ∧ Saved s t ∧ OnlyAt s.mem t.mem o n ∧ t.r.rax ≤ 1 ∧
      num t.mem o n + (2 ^ 64) ^ n * t.r.rax = num s.mem x n + y ∧
      (t.mem, t.r.rax) = Mem.add1 (n - 1) s.mem o x y := by
  obtain ⟨k, rfl⟩ : ∃ k, n = k + 1 := ⟨n - 1, by omega⟩
  obtain ⟨t, ht, d1, d2, d3⟩ := (genAdd1_does ho hx hy hn bo bx bY hm).returns
  have e : (t.mem, t.r.rax) = Mem.add1 k s.mem o x y := Prod.ext d1 d2
  obtain ⟨s1, s2, s3, s4⟩ := add1_spec (Mem.rd s.mem x (k + 1)) y (by rw [Mem.length_rd]; exact h1) (Mem.words_rd hm _ _) bY
  have f := e.trans (Mem.add1_spec ax)
  rw [Mem.length_rd] at s1 s4
  obtain ⟨f1, f2⟩ := Prod.ext_iff.mp f
  dsimp only at f1 f2
  have g1 := onlyAt_wr hm s2 o
  have g2 := num_wr s.mem (add1 (Mem.rd s.mem x (k + 1)) y).1 o
  rw [← f1, s1] at g1 g2
  refine ⟨t, ht, d3, g1, f2 ▸ s3, ?_, e⟩
  rw [g2, f2, ← val_rd]
  exact s4

/-- **C13** the generated `mul1`: n words times one word, n + 1 words stored. -/
theorem C13_mul1 (h1 : 1 ≤ n) (ho : s.r.rdi = 8 * o) (hx : s.r.rsi = 8 * x) (hn : s.r.rdx = n) (hy : s.r.rcx = y)
    (bo : 8 * (o + n) < 2 ^ 64) (bx : 8 * (x + n) < 2 ^ 64) (bY : y < 2 ^ 64) (hm : Good s.mem) (ax : o ≤ x ∨ x + n ≤ o) :
    ∃ t, Returns genMul s t ∧ Saved s t ∧ OnlyAt s.mem t.mem o (n + 1) ∧
      num t.mem o (n + 1) = num s.mem x n * y ∧ t.mem = Mem.mul1 n s.mem 0 o x y := by
  obtain ⟨t, ht, d1, d3⟩ := (genMul_does ho hx hn hy h1 bo bx bY hm).returns
  obtain ⟨s1, s2, s3⟩ := mul1Loop_spec (Mem.rd s.mem x n) y 0 (Mem.words_rd hm _ _) bY (by norm_num)
  have f1 := d1.trans (Mem.mul1_spec ax)
  rw [Mem.length_rd] at s1
  have g1 := onlyAt_wr hm s2 o
  have g2 := num_wr s.mem (mul1Loop (Mem.rd s.mem x n) y 0) o
  rw [← f1, s1] at g1 g2
  refine ⟨t, ht, d3, g1, ?_, d1⟩
  rw [g2, s3, val_rd]
  rfl

/-- **C13** the generated `div1`: quotient of n words by one word, remainder returned; the quotient may overwrite the
dividend, or lie at higher addresses overlapping it. -/
theorem C13_div1 (h1 : 1 ≤ n) (ho : s.r.rdi = 8 * o) (hx : s.r.rsi = 8 * x) (hn : s.r.rdx = n) (hy : s.r.rcx = y)
    (bo : 8 * (o + n) ≤ 2 ^ 64) (bx : 8 * (x + n) ≤ 2 ^ 64) (y0 : 0 < y) (hm : Good s.mem) (ax : x ≤ o ∨ o + n ≤ x) :
    ∃ t, Returns genDiv s t ∧ Saved s t ∧ OnlyAt s.mem t.mem o n ∧
      num t.mem o n = num s.mem x n / y ∧ t.r.rax = num s.mem x n % y ∧
      (t.mem, t.r.rax) = Mem.div1 n s.mem 0 o x y := by
  obtain ⟨t, ht, d1, d2, d3⟩ := (genDiv_does ho hx hn hy h1 y0 bo bx hm).returns
  have e : (t.mem, t.r.rax) = Mem.div1 n s.mem 0 o x y := Prod.ext d1 d2
  obtain ⟨s1, s2, s3, s4⟩ := div1_spec (Mem.rd s.mem x n) y (Mem.words_rd hm _ _) y0
  have f := e.trans (Mem.div1_spec ax)
  rw [Mem.length_rd] at s1
  obtain ⟨f1, f2⟩ := Prod.ext_iff.mp f
  dsimp only at f1 f2
  have g1 := onlyAt_wr hm s2 o
  have g2 := num_wr s.mem (div1 (Mem.rd s.mem x n) y).1 o
  rw [← f1, s1] at g1 g2
  rw [← g2, ← f2, val_rd] at s4
  rw [← f2] at s3
  refine ⟨t, ht, d3, g1, ?_, ?_, e⟩
  · rw [s4, Nat.mul_comm, Nat.mul_add_div y0, Nat.div_eq_of_lt s3, Nat.add_zero]
  · rw [s4, Nat.mul_comm, Nat.mul_add_mod, Nat.mod_eq_of_lt s3]

/-- **C13** the generated `mod1`: remainder of n words by one word, nothing stored. -/
theorem C13_mod1 (h1 : 1 ≤ n) (hx : s.r.rdi = 8 * x) (hn : s.r.rsi = n) (hy : s.r.rdx = y)
    (bx : 8 * (x + n) ≤ 2 ^ 64) (y0 : 0 < y) (hm : Good s.mem) :
    ∃ t, Returns genMod s t ∧ Saved s t ∧ t.mem = s.mem ∧ t.r.rax = num s.mem x n % y ∧ t.r.rax = Mem.mod1 n s.mem x y := by
  obtain ⟨t, ht, d1, d2, d3⟩ := (genMod_does hx hn hy h1 y0 bx hm).returns
  obtain ⟨s1, s2, s3, s4⟩ := div1_spec (Mem.rd s.mem x n) y (Mem.words_rd hm _ _) y0
  rw [Mem.mod1_spec, mod1_eq] at d2
  refine ⟨t, ht, d3, d1, ?_, by rw [Mem.mod1_spec, mod1_eq, d2]⟩
  rw [← d2] at s3
  rw [← val_rd, s4, Nat.mul_comm, Nat.mul_add_mod, Nat.mod_eq_of_lt (d2 ▸ s3), d2]

end

/-- **C13** the final state is determined: a terminating run has one result. -/
theorem C13_unique {p : List Ins} {s t u : State} (h : Returns p s t) (h' : Returns p s u) : t = u := h.unique h'

/-- a machine state for the examples: the five words 2^64-1 from word 16 on, 1, 2, 3, 4, 5 from word 32 on -/
def demo (rdi rsi rdx rcx : ℕ) : State where
  r := { rax := 77, rcx := rcx, rdx := rdx, rbx := 1, rsp := 2, rbp := 3, rsi := rsi, rdi := rdi, r8 := 4, r9 := 5, r10 := 6,
         r11 := 7, r12 := 8, r13 := 9, r14 := 10, r15 := 11 }
  cf := none
  zf := none
  lt := none
  mem := fun a => if 16 ≤ a ∧ a < 21 then 2 ^ 64 - 1 else if 32 ≤ a ∧ a < 37 then a - 31 else 0

theorem demo_good (a b c d : ℕ) : Good (demo a b c d).mem := by
  intro i
  show (if 16 ≤ i ∧ i < 21 then 2 ^ 64 - 1 else if 32 ≤ i ∧ i < 37 then i - 31 else 0) < 2 ^ 64
  split_ifs <;> omega

-- five words in place: out = y
example : ∃ t, Returns (genAddSub true) (demo (8 * 32) (8 * 16) (8 * 32) 5) t ∧
    (t.mem, t.r.rax) = Mem.addN 5 (demo (8 * 32) (8 * 16) (8 * 32) 5).mem 0 32 16 32 := by
  obtain ⟨t, h, _, _, _, _, h'⟩ := C13_addN (s := demo (8 * 32) (8 * 16) (8 * 32) 5) (n := 5) (o := 32) (x := 16) (y := 32)
    (by norm_num) rfl rfl rfl rfl (by norm_num) (by norm_num) (by norm_num) (demo_good _ _ _ _) (Or.inr (by norm_num)) (Or.inl le_rfl)
  exact ⟨t, h, h'⟩

-- the same run evaluated: carries through all words
example : (match exec (genAddSub true) 100 (genAddSub true) (demo (8 * 32) (8 * 16) (8 * 32) 5) with
    | .ok t => ((List.range 7).map fun i => t.mem (31 + i), t.r.rax, t.r.rbx)
    | _ => ([], 0, 0)) = ([0, 0, 2, 3, 4, 5, 0], 1, 1) := by decide +kernel

example : (match exec (genAddSub false) 100 (genAddSub false) (demo (8 * 40) (8 * 32) (8 * 16) 5) with
    | .ok t => ((List.range 7).map fun i => t.mem (39 + i), t.r.rax, t.r.r15)
    | _ => ([], 0, 0)) = ([0, 2, 2, 3, 4, 5, 0], 1, 11) := by decide +kernel

example : (match exec (genAddSub1 true) 100 (genAddSub1 true) (demo (8 * 16) (8 * 16) 5 1) with
    | .ok t => ((List.range 7).map fun i => t.mem (15 + i), t.r.rax)
    | _ => ([], 0)) = ([0, 0, 0, 0, 0, 0, 0], 1) := by decide +kernel

example : (match exec genMul 100 genMul (demo (8 * 16) (8 * 16) 5 (2 ^ 64 - 1)) with
    | .ok t => (List.range 7).map fun i => t.mem (15 + i)
    | _ => []) = [0, 1, 2 ^ 64 - 1, 2 ^ 64 - 1, 2 ^ 64 - 1, 2 ^ 64 - 1, 2 ^ 64 - 2] := by decide +kernel

example : (match exec genDiv 100 genDiv (demo (8 * 32) (8 * 32) 5 7) with
    | .ok t => (num t.mem 32 5 * 7 + t.r.rax, Nat.blt t.r.rax 7)
    | _ => (0, false)) = (1 + 2 * 2 ^ 64 + 3 * 2 ^ 128 + 4 * 2 ^ 192 + 5 * 2 ^ 256, true) := by decide +kernel

example : (match exec genMod 100 genMod (demo (8 * 32) 5 7 0) with
    | .ok t => t.r.rax
    | _ => 0) = (1 + 2 * 2 ^ 64 + 3 * 2 ^ 128 + 4 * 2 ^ 192 + 5 * 2 ^ 256) % 7 := by decide +kernel

end Verif
