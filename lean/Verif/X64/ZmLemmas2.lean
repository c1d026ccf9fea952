import Verif.X64.ZmLemmas
import Verif.Mem.Prim

namespace Verif
namespace X64

/-! ### the carry chains are those of the C code -/

theorem update_lt {m : ℕ → ℕ} (hm : ∀ i, m i < W) {a v : ℕ} (hv : v < W) (i : ℕ) : Function.update m a v i < W := by
  by_cases h : i = a
  · rw [h, Function.update_self]; exact hv
  · rw [Function.update_of_ne h]; exact hm i

theorem ble_eq_decide (a b : ℕ) : Nat.ble a b = decide (a ≤ b) := by
  rw [Bool.eq_iff_iff, Nat.ble_eq, decide_eq_true_eq]

theorem blt_eq_decide (a b : ℕ) : Nat.blt a b = decide (a < b) := by
  rw [Bool.eq_iff_iff, Nat.blt_eq, decide_eq_true_eq]

theorem wordOp_lt (isAdd : Bool) (x y : ℕ) (c : Bool) : (wordOp isAdd x y c).1 < W := by
  unfold wordOp
  split <;> exact Nat.mod_lt _ (by norm_num)

theorem chain_addN {n : ℕ} : ∀ {m : ℕ → ℕ} {c : Bool} {o x y : ℕ}, (∀ i, m i < W) →
    (chain true n m c o x y).1 = (Mem.addN n m c.toNat o x y).1 ∧
    (chain true n m c o x y).2.toNat = (Mem.addN n m c.toNat o x y).2 := by
  induction n with
  | zero => intros; exact ⟨rfl, rfl⟩
  | succ n ih =>
    intro m c o x y hm
    have e : Mem.addN (n + 1) m c.toNat o x y = Mem.addN n (Function.update m o (wordOp true (m x) (m y) c).1)
        (wordOp true (m x) (m y) c).2.toNat (o + 1) (x + 1) (y + 1) := by
      have hx := hm x
      have hy := hm y
      have hc : c.toNat ≤ 1 := Bool.toNat_le c
      rw [Mem.addN]
      unfold wordOp
      dsimp only
      rw [if_pos rfl, ble_eq_decide]
      generalize m x = a at *
      generalize m y = b at *
      generalize c.toNat = c at *
      split_ifs with h h1
      · have h2 : a + b + c = W + b := by omega
        have h3 : decide (W ≤ a + b + c) = true := decide_eq_true (by omega)
        have h4 : c = 1 := by omega
        rw [h3, h2, Nat.add_mod_left, Nat.mod_eq_of_lt hy, h4]; rfl
      · rw [show decide (W ≤ a + b + c) = true from decide_eq_true (by omega),
          show ((a + c) % W + b) % W = (a + b + c) % W by omega]; rfl
      · rw [show decide (W ≤ a + b + c) = false from decide_eq_false (by omega),
          show ((a + c) % W + b) % W = (a + b + c) % W by omega]; rfl
    rw [e, chain_succ]
    exact ih (update_lt hm (wordOp_lt ..))

theorem chain_subN {n : ℕ} : ∀ {m : ℕ → ℕ} {c : Bool} {o x y : ℕ}, (∀ i, m i < W) →
    (chain false n m c o x y).1 = (Mem.subN n m c.toNat o x y).1 ∧
    (chain false n m c o x y).2.toNat = (Mem.subN n m c.toNat o x y).2 := by
  induction n with
  | zero => intros; exact ⟨rfl, rfl⟩
  | succ n ih =>
    intro m c o x y hm
    have e : Mem.subN (n + 1) m c.toNat o x y = Mem.subN n (Function.update m o (wordOp false (m x) (m y) c).1)
        (wordOp false (m x) (m y) c).2.toNat (o + 1) (x + 1) (y + 1) := by
      have hx := hm x
      have hy := hm y
      have hc : c.toNat ≤ 1 := Bool.toNat_le c
      rw [Mem.subN]
      unfold wordOp
      dsimp only
      rw [if_neg Bool.false_ne_true, blt_eq_decide]
      generalize m x = a at *
      generalize m y = b at *
      generalize c.toNat = c at *
      split_ifs with h h1
      · have h4 : c = 1 := by omega
        have h3 : decide (a < b + c) = true := decide_eq_true (by omega)
        rw [h3, show (a + W - (b + c)) % W = a by omega, h4]; rfl
      · rw [show decide (a < b + c) = true from decide_eq_true (by omega),
          show (b + c) % W = b + c by omega]; rfl
      · rw [show decide (a < b + c) = false from decide_eq_false (by omega),
          show (b + c) % W = b + c by omega]; rfl
    rw [e, chain_succ]
    exact ih (update_lt hm (wordOp_lt ..))

/-! ### `genAddSub1` -/

theorem ea_neg {x n k : ℕ} (h : 8 * (x + n) < W) (hk : k ≤ n) : (8 * (x + n) + 8 * (W - k) + 0) % W = 8 * (x + n - k) := by omega

theorem ea_end {x n : ℕ} (h : 8 * (x + n) < W) : (8 * x + 8 * n + 0) % W = 8 * (x + n) := by omega

def lp1Code : List Ins := (loop1 true).map .op ++ (.jcc .nz 1 :: .lab 0 :: (([.setc] : List Op).map .op ++ [.ret]))
def exit1Code : List Ins := ([.setc] : List Op).map .op ++ [.ret]

theorem exit1_does {s : State} {c : Bool} (hc : s.cf = some c) (ha : s.r.rax = 0) :
    Tot (genAddSub1 true) exit1Code s fun t => t.mem = s.mem ∧ t.r.rax = c.toNat ∧ Saved s t := by
  have h : block s [.setc] = .ok { s with r := { s.r with rax := c.toNat } } := by
    simp only [block, doOp, hc, flag, ha, Res.bind_ok, Nat.zero_div, Nat.zero_mul, Nat.zero_add]
  exact Tot.block h (Tot.ret ⟨rfl, rfl, ⟨rfl, rfl, rfl, rfl, rfl, rfl, rfl⟩⟩)

theorem loop1_does {s : State} {n k o x : ℕ} {c : Bool} (ho : s.r.rdi = 8 * (o + n)) (hx : s.r.rsi = 8 * (x + n))
    (hc : s.cf = some c) (ha : s.r.rax = 0) (hk : s.r.rcx = W - (k + 1)) (kn : k + 1 ≤ n) (bo : 8 * (o + n) < W)
    (bx : 8 * (x + n) < W) :
    ∃ t, block s (loop1 true) = .ok t ∧
      t.mem = Function.update s.mem (o + n - (k + 1)) ((s.mem (x + n - (k + 1)) + 0 + c.toNat) % W) ∧
      t.cf = some (Nat.ble W (s.mem (x + n - (k + 1)) + 0 + c.toNat)) ∧ t.r.rdi = s.r.rdi ∧ t.r.rsi = s.r.rsi ∧
      t.r.rax = 0 ∧ t.r.rcx = (W - k) % W ∧ t.zf = some (Nat.beq k 0) ∧ Saved s t := by
  obtain ⟨⟨rax, rcx, rdx, rbx, rsp, rbp, rsi, rdi, r8, r9, r10, r11, r12, r13, r14, r15⟩, cf, zf, lt, m⟩ := s
  dsimp only at ho hx hc ha hk
  subst ho hx hc ha hk
  have e : (W - (k + 1) + 1) % W = (W - k) % W := by omega
  have e2 : Nat.beq ((W - k) % W) 0 = Nat.beq k 0 := by
    by_cases h : k = 0
    · subst h; rfl
    · rw [beq_ne h, beq_ne (by omega)]
  simp (disch := omega) only [loop1, block, doOp, src, ea, Regs.get, Regs.set, ea_neg, load_word, store_word, Res.bind_ok, cas,
    doAlu, flag, if_true, e, e2]
  exact ⟨_, rfl, rfl, rfl, rfl, rfl, rfl, rfl, rfl, ⟨rfl, rfl, rfl, rfl, rfl, rfl, rfl⟩⟩

theorem add1Loop_succ {n : ℕ} {m : ℕ → ℕ} {c : Bool} {o x : ℕ} (hm : m x < W) :
    Mem.add1Loop (n + 1) m c.toNat o x = Mem.add1Loop n (Function.update m o ((m x + 0 + c.toNat) % W))
      (Nat.ble W (m x + 0 + c.toNat)).toNat (o + 1) (x + 1) := by
  have hc : c.toNat ≤ 1 := Bool.toNat_le c
  rw [Mem.add1Loop, ble_eq_decide]
  generalize m x = a at *
  generalize c.toNat = c at *
  split_ifs with h
  · rw [show decide (W ≤ a + 0 + c) = true from decide_eq_true (by omega), show (a + 0 + c) % W = 0 by omega,
      show c = 1 by omega]; rfl
  · rw [show decide (W ≤ a + 0 + c) = false from decide_eq_false (by omega), Nat.add_zero]; rfl

theorem lp1_does {n : ℕ} (k : ℕ) : ∀ {s : State} {o x : ℕ} {c : Bool}, s.r.rdi = 8 * (o + n) → s.r.rsi = 8 * (x + n) →
    s.cf = some c → s.r.rax = 0 → s.r.rcx = W - (k + 1) → k + 1 ≤ n → 8 * (o + n) < W → 8 * (x + n) < W → (∀ i, s.mem i < W) →
    Tot (genAddSub1 true) lp1Code s fun t =>
      t.mem = (Mem.add1Loop (k + 1) s.mem c.toNat (o + n - (k + 1)) (x + n - (k + 1))).1 ∧
      t.r.rax = (Mem.add1Loop (k + 1) s.mem c.toNat (o + n - (k + 1)) (x + n - (k + 1))).2 ∧ Saved s t := by
  induction k with
  | zero =>
    intro s o x c ho hx hc ha hk kn bo bx hm
    obtain ⟨t, h1, d1, d2, d3, d4, d5, d6, d7, d8⟩ := loop1_does ho hx hc ha hk kn bo bx
    rw [add1Loop_succ (hm _), ← d1]
    exact Tot.block h1 (Tot.not_taken (by show (flag t.zf >>= _) = _; rw [d7]; rfl) (Tot.lab ((exit1_does d2 d5).mono
      fun u hu => ⟨hu.1, hu.2.1, d8.trans hu.2.2⟩)))
  | succ k ih =>
    intro s o x c ho hx hc ha hk kn bo bx hm
    obtain ⟨t, h1, d1, d2, d3, d4, d5, d6, d7, d8⟩ := loop1_does ho hx hc ha hk kn bo bx
    have h2 := ih (d3.trans ho) (d4.trans hx) d2 d5 (d6.trans (by omega)) (by omega) bo bx (fun i => by
      rw [d1]; exact update_lt hm (Nat.mod_lt _ (by norm_num)) i)
    rw [add1Loop_succ (hm _), ← d1, show o + n - (k + 1 + 1) + 1 = o + n - (k + 1) by omega,
      show x + n - (k + 1 + 1) + 1 = x + n - (k + 1) by omega]
    exact Tot.block h1 (Tot.taken (by show (flag t.zf >>= _) = _; rw [d7]; rfl) (l' := lp1Code) rfl (h2.mono
      fun u hu => ⟨hu.1, hu.2.1, d8.trans hu.2.2⟩))

theorem head1_does {s : State} {n o x y : ℕ} (ho : s.r.rdi = 8 * o) (hx : s.r.rsi = 8 * x)
    (hy : s.r.rcx = y) (hn : s.r.rdx = n + 1) (bo : 8 * (o + (n + 1)) < W) (bx : 8 * (x + (n + 1)) < W) :
    ∃ t, block s (head1 true) = .ok t ∧ t.mem = Function.update s.mem o ((s.mem x + y) % W) ∧
      t.cf = some (Nat.ble W (s.mem x + y)) ∧ t.r.rdi = 8 * (o + (n + 1)) ∧ t.r.rsi = 8 * (x + (n + 1)) ∧
      t.r.rax = 0 ∧ t.r.rcx = (W - n) % W ∧ t.zf = some (Nat.beq n 0) ∧ Saved s t := by
  obtain ⟨⟨rax, rcx, rdx, rbx, rsp, rbp, rsi, rdi, r8, r9, r10, r11, r12, r13, r14, r15⟩, cf, zf, lt, m⟩ := s
  dsimp only at ho hx hy hn
  subst ho hx hy hn
  have e0 : (W - (n + 1)) % W = W - (n + 1) := by omega
  have e : (W - (n + 1) + 1) % W = (W - n) % W := by omega
  have e2 : Nat.beq ((W - n) % W) 0 = Nat.beq n 0 := by
    by_cases h : n = 0
    · subst h; rfl
    · rw [beq_ne h, beq_ne (by omega)]
  have a1 : ∀ w, 8 * (w + (n + 1)) < W → (8 * (w + (n + 1)) + 8 * (W - (n + 1)) + 0) % W = 8 * w := by intros; omega
  simp (disch := omega) only [head1, block, doOp, src, ea, Regs.get, Regs.set, ea_end, e0, a1, load_word, store_word,
    Res.bind_ok, as, doAlu, if_true, e, e2, Nat.xor_self]
  exact ⟨_, rfl, rfl, rfl, rfl, rfl, rfl, rfl, rfl, ⟨rfl, rfl, rfl, rfl, rfl, rfl, rfl⟩⟩

/-- the routine made by `genAddSub1(true)` -/
theorem genAdd1_does {s : State} {n o x y : ℕ} (ho : s.r.rdi = 8 * o) (hx : s.r.rsi = 8 * x)
    (hy : s.r.rcx = y) (hn : s.r.rdx = n + 1) (bo : 8 * (o + (n + 1)) < W) (bx : 8 * (x + (n + 1)) < W) (by' : y < W)
    (hm : ∀ i, s.mem i < W) :
    Tot (genAddSub1 true) (genAddSub1 true) s fun t => t.mem = (Mem.add1 n s.mem o x y).1 ∧
      t.r.rax = (Mem.add1 n s.mem o x y).2 ∧ Saved s t := by
  obtain ⟨t, h1, d1, d2, d3, d4, d5, d6, d7, d8⟩ := head1_does ho hx hy hn bo bx
  have e : Mem.add1 n s.mem o x y = Mem.add1Loop n t.mem (Nat.ble W (s.mem x + y)).toNat (o + 1) (x + 1) := by
    unfold Mem.add1
    dsimp only
    rw [← d1, ble_eq_decide]
    congr 1
    have hx := hm x
    split_ifs with h
    · rw [show decide (W ≤ s.mem x + y) = true from decide_eq_true (by omega)]; rfl
    · rw [show decide (W ≤ s.mem x + y) = false from decide_eq_false (by omega)]; rfl
  rw [e]
  refine Tot.block h1 ?_
  rcases n with _ | n
  · exact Tot.taken (by show flag t.zf = _; rw [d7]; rfl) (l' := exit1Code) rfl ((exit1_does d2 d5).mono
      fun u hu => ⟨hu.1, hu.2.1, d8.trans hu.2.2⟩)
  · refine Tot.not_taken (by show flag t.zf = _; rw [d7]; rfl) (Tot.lab ?_)
    have h2 := lp1_does n d3 d4 d2 d5 (d6.trans (by omega)) (by omega) bo bx (fun i => by
      rw [d1]; exact update_lt hm (Nat.mod_lt _ (by norm_num)) i)
    rw [show o + (n + 1 + 1) - (n + 1) = o + 1 by omega, show x + (n + 1 + 1) - (n + 1) = x + 1 by omega] at h2
    exact h2.mono fun u hu => ⟨hu.1, hu.2.1, d8.trans hu.2.2⟩

/-! ### `genMul` -/

def mulCode : List Ins := mulBody.map .op ++ (.jcc .nz 0 :: (([sto Reg.rdi 0 Reg.rdx] : List Op).map .op ++ [.ret]))

theorem mulBody_does {s : State} {k o x y H : ℕ} (ho : s.r.rdi = 8 * o) (hx : s.r.rsi = 8 * x) (hy : s.r.rcx = y)
    (hH : s.r.rdx = H) (hk : s.r.r10 = k + 1) (bo : 8 * (o + 1) < W) (bx : 8 * (x + 1) < W) (bk : k + 1 < W) :
    ∃ t, block s mulBody = .ok t ∧ t.mem = Function.update s.mem o ((H + s.mem x * y % W) % W) ∧
      t.r.rdx = (s.mem x * y / W + 0 + (Nat.ble W (H + s.mem x * y % W)).toNat) % W ∧
      t.r.rdi = 8 * (o + 1) ∧ t.r.rsi = 8 * (x + 1) ∧ t.r.rcx = y ∧ t.r.r10 = k ∧ t.zf = some (Nat.beq k 0) ∧ Saved s t := by
  obtain ⟨⟨rax, rcx, rdx, rbx, rsp, rbp, rsi, rdi, r8, r9, r10, r11, r12, r13, r14, r15⟩, cf, zf, lt, m⟩ := s
  dsimp only at ho hx hy hH hk
  subst ho hx hy hH hk
  have e1 : ∀ w, 8 * (w + 1) < W → (8 * w + 8) % W = 8 * (w + 1) := by intros; omega
  have e2 : (k + 1 + W - 1) % W = k := by omega
  have e3 : Nat.beq (k + 1) 1 = Nat.beq k 0 := by cases k <;> rfl
  simp (disch := omega) only [mulBody, block, doOp, src, ea, ld, sto, Regs.get, Regs.set, ea_word, e1, e2, e3, load_word, store_word,
    Res.bind_ok, doAlu, flag]
  exact ⟨_, rfl, rfl, rfl, rfl, rfl, rfl, rfl, rfl, ⟨rfl, rfl, rfl, rfl, rfl, rfl, rfl⟩⟩

theorem mul1_succ {n : ℕ} {m : ℕ → ℕ} {H o x y : ℕ} (hH : H < W) (hx : m x < W) (hy : y < W) :
    Mem.mul1 (n + 1) m H o x y = Mem.mul1 n (Function.update m o ((H + m x * y % W) % W))
      ((m x * y / W + 0 + (Nat.ble W (H + m x * y % W)).toNat) % W) (o + 1) (x + 1) y := by
  rw [Mem.mul1, ble_eq_decide, Function.update_self]
  have h1 : m x * y / W < W := Nat.div_lt_of_lt_mul (Nat.mul_lt_mul'' hx hy)
  have h2 := Nat.mod_lt (m x * y) (show 0 < W by norm_num)
  generalize m x * y / W = A at *
  generalize m x * y % W = B at *
  congr 1
  split_ifs with h
  · rw [show decide (W ≤ H + B) = true from decide_eq_true (by omega)]; rfl
  · rw [show decide (W ≤ H + B) = false from decide_eq_false (by omega)]
    show A = (A + 0 + 0) % W
    omega

theorem mulLoop_does (k : ℕ) : ∀ {s : State} {o x y H : ℕ}, s.r.rdi = 8 * o → s.r.rsi = 8 * x → s.r.rcx = y → s.r.rdx = H →
    s.r.r10 = k + 1 → 8 * (o + (k + 1)) < W → 8 * (x + (k + 1)) < W → H < W → y < W → (∀ i, s.mem i < W) →
    Tot genMul mulCode s fun t => t.mem = Mem.mul1 (k + 1) s.mem H o x y ∧ Saved s t := by
  induction k with
  | zero =>
    intro s o x y H ho hx hy hH hk bo bx bH bY hm
    obtain ⟨t, h1, d1, d2, d3, d4, d5, d6, d7, d8⟩ := mulBody_does ho hx hy hH hk bo bx (by norm_num)
    rw [mul1_succ bH (hm _) bY, ← d1, ← d2]
    refine Tot.block h1 (Tot.not_taken (by show (flag t.zf >>= _) = _; rw [d7]; rfl) ?_)
    have h2 : block t [sto Reg.rdi 0 Reg.rdx] = .ok { t with mem := Function.update t.mem (o + 1) t.r.rdx } := by
      have e1 : (8 * (o + 1) + 0 + 8 * 0) % W = 8 * (o + 1) := by omega
      simp only [block, doOp, sto, ea, Regs.get, d3, e1, store_word, Res.bind_ok]
    exact Tot.block h2 (Tot.ret ⟨rfl, d8⟩)
  | succ k ih =>
    intro s o x y H ho hx hy hH hk bo bx bH bY hm
    obtain ⟨t, h1, d1, d2, d3, d4, d5, d6, d7, d8⟩ := mulBody_does ho hx hy hH hk (by omega) (by omega) (by omega)
    rw [mul1_succ bH (hm _) bY, ← d1, ← d2]
    have h2 := ih d3 d4 d5 rfl d6 (by omega) (by omega) (by rw [d2]; exact Nat.mod_lt _ (by norm_num)) bY (fun i => by
      rw [d1]; exact update_lt hm (Nat.mod_lt _ (by norm_num)) i)
    exact Tot.block h1 (Tot.taken (by show (flag t.zf >>= _) = _; rw [d7]; rfl) (l' := mulCode) rfl (h2.mono
      fun u hu => ⟨hu.1, d8.trans hu.2⟩))

/-- the routine made by `genMul` -/
theorem genMul_does {s : State} {n o x y : ℕ} (ho : s.r.rdi = 8 * o) (hx : s.r.rsi = 8 * x) (hn : s.r.rdx = n) (hy : s.r.rcx = y)
    (n1 : 1 ≤ n) (bo : 8 * (o + n) < W) (bx : 8 * (x + n) < W) (by' : y < W) (hm : ∀ i, s.mem i < W) :
    Tot genMul genMul s fun t => t.mem = Mem.mul1 n s.mem 0 o x y ∧ Saved s t := by
  obtain ⟨k, rfl⟩ : ∃ k, n = k + 1 := ⟨n - 1, by omega⟩
  have h1 : block s [.mov .r10 (.r .rdx), .alu .xor .rdx (.r .rdx)] =
      .ok { s with r := { s.r with r10 := k + 1, rdx := 0 }, cf := some false, zf := some (Nat.beq 0 0), lt := none } := by
    simp only [block, doOp, src, doAlu, Regs.get, Regs.set, hn, Nat.xor_self, Res.bind_ok]
  exact Tot.block h1 (Tot.lab (mulLoop_does k ho hx hy rfl rfl bo bx (by norm_num) by' hm))

/-! ### `genDiv`, `genMod` -/

def divCode : List Ins := divBody.map .op ++ (.jcc .nz 0 :: (([.mov .rax (.r .rdx)] : List Op).map .op ++ [.ret]))

theorem div_word {w a r y : ℕ} (h : r < y) (ha : a < w) : (r * w + a) / y < w := by
  rw [Nat.div_lt_iff_lt_mul (by omega)]
  calc r * w + a < r * w + w := by omega
    _ = (r + 1) * w := by ring
    _ ≤ y * w := Nat.mul_le_mul_right _ h
    _ = w * y := Nat.mul_comm ..

theorem block_cons {s t : State} {o : Op} {l : List Op} {r : Res State} (h : doOp s o = .ok t) (h' : block t l = r) :
    block s (o :: l) = r := by
  show (doOp s o >>= fun s => block s l) = r
  rw [h]; exact h'

theorem doOp_div (s : State) (x : Reg) : doOp s (.div x) =
    if s.r.get x = 0 ∨ W ≤ (s.r.rdx * W + s.r.rax) / s.r.get x then .ub
    else .ok { s with r := { s.r with rax := (s.r.rdx * W + s.r.rax) / s.r.get x,
                                      rdx := (s.r.rdx * W + s.r.rax) % s.r.get x }, cf := none, zf := none, lt := none } := rfl

theorem div_op {s : State} {x : Reg} {r a y q' r' : ℕ} (hr : s.r.rdx = r) (ha : s.r.rax = a) (hy : s.r.get x = y) (h : r < y)
    (ha' : a < W) (hq' : Mem.quo r a y = q') (hr' : Mem.rem r a y = r') :
    doOp s (.div x) = .ok { s with r := { s.r with rax := q', rdx := r' }, cf := none, zf := none, lt := none } := by
  have hd := div_word h ha'
  unfold Mem.quo at hq'
  unfold Mem.rem at hr'
  rw [Nat.mod_eq_of_lt hd] at hq'
  rw [doOp_div, hr, ha, hy, if_neg (not_or.mpr ⟨show ¬ y = 0 by omega, Nat.not_le.mpr hd⟩), hq', hr']

theorem doOp_sub (s : State) (d : Reg) (v : ℕ) : doOp s (.alu .sub d (.i v)) =
    .ok { s with r := s.r.set d ((s.r.get d + W - v) % W), cf := some (Nat.blt (s.r.get d) v),
                 zf := some (Nat.beq (s.r.get d) v), lt := some (sLt (s.r.get d) v) } := rfl

theorem sub_op {s : State} {d : Reg} {a v b : ℕ} (ha : s.r.get d = a) (hb : (a + W - v) % W = b) :
    doOp s (.alu .sub d (.i v)) = .ok { s with r := s.r.set d b, cf := some (Nat.blt a v),
                                               zf := some (Nat.beq a v), lt := some (sLt a v) } := by
  rw [doOp_sub, ha, hb]

theorem ld_op {s : State} {d b : Reg} {w : ℕ} (hb : s.r.get b = 8 * w) (h : 8 * w < W) :
    doOp s (ld d b 0) = .ok { s with r := s.r.set d (s.mem w) } := by
  have e : (8 * w + 0 + 8 * 0) % W = 8 * w := by omega
  unfold ld
  simp only [doOp, src, ea, hb, e, load_word, Res.bind_ok]

theorem sto_op {s : State} {d b : Reg} {w v : ℕ} (hb : s.r.get b = 8 * w) (hd : s.r.get d = v) (h : 8 * w < W) :
    doOp s (sto b 0 d) = .ok { s with mem := Function.update s.mem w v } := by
  subst hd
  have e : (8 * w + 0 + 8 * 0) % W = 8 * w := by omega
  unfold sto
  simp only [doOp, ea, hb, e, store_word, Res.bind_ok]

theorem divSto (qq rcx rr rbx rsp rbp px pq r8 r9 k1 r11 r12 r13 r14 r15 w : ℕ) (m : ℕ → ℕ) (h : pq = 8 * w) (hb : 8 * w < W) :
    doOp (⟨⟨qq, rcx, rr, rbx, rsp, rbp, px, pq, r8, r9, k1, r11, r12, r13, r14, r15⟩, none, none, none, m⟩ : State)
      (sto Reg.rdi 0 Reg.rax) = .ok
      (⟨⟨qq, rcx, rr, rbx, rsp, rbp, px, pq, r8, r9, k1, r11, r12, r13, r14, r15⟩, none, none, none, Function.update m w qq⟩ : State) :=
  sto_op h rfl hb

theorem divBody_does {s : State} {k q x y r : ℕ} (hq : s.r.rdi = 8 * (q + k)) (hx : s.r.rsi = 8 * (x + k)) (hy : s.r.rcx = y)
    (hr : s.r.rdx = r) (hk : s.r.r10 = k + 1) (bq : 8 * (q + k) < W) (bx : 8 * (x + k) < W) (y0 : r < y) (hm : s.mem (x + k) < W)
    (bk : k + 1 < W) :
    ∃ t, block s divBody = .ok t ∧ t.mem = Function.update s.mem (q + k) (Mem.quo r (s.mem (x + k)) y) ∧
      t.r.rdx = Mem.rem r (s.mem (x + k)) y ∧ t.r.rdi = (8 * (q + k) + W - 8) % W ∧ t.r.rsi = (8 * (x + k) + W - 8) % W ∧
      t.r.rcx = y ∧ t.r.r10 = k ∧ t.zf = some (Nat.beq k 0) ∧ Saved s t := by
  obtain ⟨⟨rax, rcx, rdx, rbx, rsp, rbp, rsi, rdi, r8, r9, r10, r11, r12, r13, r14, r15⟩, cf, zf, lt, m⟩ := s
  dsimp only at hq hx hy hr hk hm
  subst hq hx hy hr hk
  have e3 : Nat.beq (k + 1) 1 = Nat.beq k 0 := by cases k <;> rfl
  have e2 : (k + 1 + W - 1) % W = k := by omega
  rw [← e3]
  generalize hqq : Mem.quo rdx (m (x + k)) rcx = qq
  generalize hrr : Mem.rem rdx (m (x + k)) rcx = rr
  generalize hp1 : (8 * (q + k) + W - 8) % W = p1
  generalize hp2 : (8 * (x + k) + W - 8) % W = p2
  generalize hpq : 8 * (q + k) = pq at *
  generalize hpx : 8 * (x + k) = px at *
  generalize k + 1 = k1 at *
  obtain ⟨m2, hm2⟩ : ∃ m2, m2 = Function.update m (q + k) qq := ⟨_, rfl⟩
  obtain ⟨f1, hf1⟩ : ∃ f, f = Nat.blt px 8 := ⟨_, rfl⟩
  obtain ⟨f2, hf2⟩ : ∃ f, f = Nat.beq px 8 := ⟨_, rfl⟩
  obtain ⟨f3, hf3⟩ : ∃ f, f = sLt px 8 := ⟨_, rfl⟩
  obtain ⟨g1, hg1⟩ : ∃ f, f = Nat.blt pq 8 := ⟨_, rfl⟩
  obtain ⟨g2, hg2⟩ : ∃ f, f = Nat.beq pq 8 := ⟨_, rfl⟩
  obtain ⟨g3, hg3⟩ : ∃ f, f = sLt pq 8 := ⟨_, rfl⟩
  obtain ⟨l1, hl1⟩ : ∃ f, f = sLt k1 1 := ⟨_, rfl⟩
  have h1 : doOp
      (⟨⟨rax, rcx, rdx, rbx, rsp, rbp, px, pq, r8, r9, k1, r11, r12, r13, r14, r15⟩, cf, zf, lt, m⟩ : State)
      (ld Reg.rax Reg.rsi 0) = .ok
      (⟨⟨m (x + k), rcx, rdx, rbx, rsp, rbp, px, pq, r8, r9, k1, r11, r12, r13, r14, r15⟩, cf, zf, lt, m⟩ : State) := by
    exact ld_op hpx.symm (hpx ▸ bx)
  have h2 : doOp
      (⟨⟨m (x + k), rcx, rdx, rbx, rsp, rbp, px, pq, r8, r9, k1, r11, r12, r13, r14, r15⟩, cf, zf, lt, m⟩ : State)
      (.div .rcx) = .ok
      (⟨⟨qq, rcx, rr, rbx, rsp, rbp, px, pq, r8, r9, k1, r11, r12, r13, r14, r15⟩, none, none, none, m⟩ : State) := by
    exact div_op rfl rfl rfl y0 hm hqq hrr
  have h3 : doOp
      (⟨⟨qq, rcx, rr, rbx, rsp, rbp, px, pq, r8, r9, k1, r11, r12, r13, r14, r15⟩, none, none, none, m⟩ : State)
      (sto Reg.rdi 0 Reg.rax) = .ok
      (⟨⟨qq, rcx, rr, rbx, rsp, rbp, px, pq, r8, r9, k1, r11, r12, r13, r14, r15⟩, none, none, none, m2⟩ : State) := by
    rw [hm2]
    exact divSto _ _ _ _ _ _ _ _ _ _ _ _ _ _ _ _ _ _ hpq.symm (hpq ▸ bq)
  have h4 : doOp
      (⟨⟨qq, rcx, rr, rbx, rsp, rbp, px, pq, r8, r9, k1, r11, r12, r13, r14, r15⟩, none, none, none, m2⟩ : State)
      (.alu .sub .rsi (.i 8)) = .ok
      (⟨⟨qq, rcx, rr, rbx, rsp, rbp, p2, pq, r8, r9, k1, r11, r12, r13, r14, r15⟩, some f1, some f2, some f3, m2⟩ : State) := by
    rw [hf1, hf2, hf3]
    exact sub_op rfl hp2
  have h5 : doOp
      (⟨⟨qq, rcx, rr, rbx, rsp, rbp, p2, pq, r8, r9, k1, r11, r12, r13, r14, r15⟩, some f1, some f2, some f3, m2⟩ : State)
      (.alu .sub .rdi (.i 8)) = .ok
      (⟨⟨qq, rcx, rr, rbx, rsp, rbp, p2, p1, r8, r9, k1, r11, r12, r13, r14, r15⟩, some g1, some g2, some g3, m2⟩ : State) := by
    rw [hg1, hg2, hg3]
    exact sub_op rfl hp1
  have h6 : doOp
      (⟨⟨qq, rcx, rr, rbx, rsp, rbp, p2, p1, r8, r9, k1, r11, r12, r13, r14, r15⟩, some g1, some g2, some g3, m2⟩ : State)
      (.alu .sub .r10 (.i 1)) = .ok
      (⟨⟨qq, rcx, rr, rbx, rsp, rbp, p2, p1, r8, r9, k, r11, r12, r13, r14, r15⟩, some (Nat.blt k1 1), some (Nat.beq k1 1), some l1, m2⟩ : State) := by
    rw [hl1]
    exact sub_op rfl e2
  rw [← hm2]
  exact ⟨_, block_cons h1 (block_cons h2 (block_cons h3 (block_cons h4 (block_cons h5 (block_cons h6 rfl))))), rfl, rfl, rfl, rfl,
    rfl, rfl, rfl, ⟨rfl, rfl, rfl, rfl, rfl, rfl, rfl⟩⟩

theorem quo_lt {r a y : ℕ} : Mem.quo r a y < W := Nat.mod_lt _ (by norm_num)

theorem rem_lt {r a y : ℕ} (h : 0 < y) : Mem.rem r a y < y := Nat.mod_lt _ h

theorem divLoop_does (k : ℕ) : ∀ {s : State} {q x y r : ℕ}, s.r.rdi = 8 * (q + k) → s.r.rsi = 8 * (x + k) → s.r.rcx = y →
    s.r.rdx = r → s.r.r10 = k + 1 → 8 * (q + k) < W → 8 * (x + k) < W → r < y → (∀ i, s.mem i < W) →
    Tot genDiv divCode s fun t => t.mem = (Mem.div1 (k + 1) s.mem r q x y).1 ∧ t.r.rax = (Mem.div1 (k + 1) s.mem r q x y).2 ∧
      Saved s t := by
  induction k with
  | zero =>
    intro s q x y r hq hx hy hr hk bq bx y0 hm
    obtain ⟨t, h1, d1, d2, d3, d4, d5, d6, d7, d8⟩ := divBody_does hq hx hy hr hk bq bx y0 (hm _) (by norm_num)
    rw [Mem.div1_succ, ← d1, ← d2]
    exact Tot.block h1 (Tot.not_taken (by show (flag t.zf >>= _) = _; rw [d7]; rfl) (Tot.block rfl (Tot.ret ⟨rfl, rfl, d8⟩)))
  | succ k ih =>
    intro s q x y r hq hx hy hr hk bq bx y0 hm
    obtain ⟨t, h1, d1, d2, d3, d4, d5, d6, d7, d8⟩ := divBody_does hq hx hy hr hk bq bx y0 (hm _) (by omega)
    rw [Mem.div1_succ, ← d1, ← d2]
    have h2 := ih (q := q) (x := x) (d3.trans (by omega)) (d4.trans (by omega)) d5 rfl d6 (by omega) (by omega)
      (by rw [d2]; exact rem_lt (by omega)) (fun i => by rw [d1]; exact update_lt hm quo_lt i)
    exact Tot.block h1 (Tot.taken (by show (flag t.zf >>= _) = _; rw [d7]; rfl) (l' := divCode) rfl (h2.mono
      fun u hu => ⟨hu.1, hu.2.1, d8.trans hu.2.2⟩))

theorem doOp_lea (s : State) (d b i : Reg) (v : ℕ) : doOp s (.lea d { base := b, idx := some i, disp := v }) =
    .ok { s with r := s.r.set d ((s.r.get b + 8 * s.r.get i + v) % W) } := rfl

theorem lea_op {s : State} {d b i : Reg} {x k : ℕ} (hb : s.r.get b = 8 * x) (hi : s.r.get i = k + 1) (h : 8 * (x + k) < W) :
    doOp s (.lea d { base := b, idx := some i, disp := 18446744073709551608 }) = .ok { s with r := s.r.set d (8 * (x + k)) } := by
  have e : (8 * x + 8 * (k + 1) + 18446744073709551608) % W = 8 * (x + k) := by omega
  rw [doOp_lea, hb, hi, e]

theorem xor_op {s : State} {d : Reg} : doOp s (.alu .xor d (.r d)) =
    .ok { s with r := s.r.set d 0, cf := some false, zf := some (Nat.beq 0 0), lt := none } := by
  simp only [doOp, src, doAlu, Nat.xor_self, Res.bind_ok]

/-- the routine made by `genDiv` -/
theorem genDiv_does {s : State} {n q x y : ℕ} (hq : s.r.rdi = 8 * q) (hx : s.r.rsi = 8 * x) (hn : s.r.rdx = n) (hy : s.r.rcx = y)
    (n1 : 1 ≤ n) (y0 : 0 < y) (bq : 8 * (q + n) ≤ W) (bx : 8 * (x + n) ≤ W) (hm : ∀ i, s.mem i < W) :
    Tot genDiv genDiv s fun t => t.mem = (Mem.div1 n s.mem 0 q x y).1 ∧ t.r.rax = (Mem.div1 n s.mem 0 q x y).2 ∧ Saved s t := by
  obtain ⟨k, rfl⟩ : ∃ k, n = k + 1 := ⟨n - 1, by omega⟩
  obtain ⟨⟨rax, rcx, rdx, rbx, rsp, rbp, rsi, rdi, r8, r9, r10, r11, r12, r13, r14, r15⟩, cf, zf, lt, m⟩ := s
  dsimp only at hq hx hn hy hm ⊢
  subst hq hx hn hy
  exact Tot.block (block_cons rfl (block_cons (lea_op rfl rfl (by omega)) (block_cons (lea_op rfl rfl (by omega)) (block_cons xor_op rfl))))
    (Tot.lab (divLoop_does k rfl rfl rfl rfl rfl (by omega) (by omega) y0 hm))

def modCode : List Ins := modBody.map .op ++ (.jcc .nz 0 :: (([.mov .rax (.r .rdx)] : List Op).map .op ++ [.ret]))

theorem modBody_does {s : State} {k x y r : ℕ} (hx : s.r.rdi = 8 * (x + k)) (hy : s.r.r10 = y)
    (hr : s.r.rdx = r) (hk : s.r.rsi = k + 1) (bx : 8 * (x + k) < W) (y0 : r < y) (hm : s.mem (x + k) < W)
    (bk : k + 1 < W) :
    ∃ t, block s modBody = .ok t ∧ t.mem = s.mem ∧
      t.r.rdx = Mem.rem r (s.mem (x + k)) y ∧ t.r.rdi = (8 * (x + k) + W - 8) % W ∧
      t.r.r10 = y ∧ t.r.rsi = k ∧ t.zf = some (Nat.beq k 0) ∧ Saved s t := by
  obtain ⟨⟨rax, rcx, rdx, rbx, rsp, rbp, rsi, rdi, r8, r9, r10, r11, r12, r13, r14, r15⟩, cf, zf, lt, m⟩ := s
  dsimp only at hx hy hr hk hm
  subst hx hy hr hk
  have e3 : Nat.beq (k + 1) 1 = Nat.beq k 0 := by cases k <;> rfl
  have e2 : (k + 1 + W - 1) % W = k := by omega
  rw [← e3]
  generalize hqq : Mem.quo rdx (m (x + k)) r10 = qq
  generalize hrr : Mem.rem rdx (m (x + k)) r10 = rr
  generalize hp1 : (8 * (x + k) + W - 8) % W = p1
  refine ⟨_, block_cons (ld_op rfl bx) (block_cons (div_op rfl rfl rfl y0 hm hqq hrr)
    (block_cons (sub_op rfl hp1) (block_cons (sub_op rfl e2) rfl))), rfl, rfl, rfl, rfl, rfl, rfl, ⟨rfl, rfl, rfl, rfl, rfl, rfl, rfl⟩⟩

/-- the loop of `in_mod` from remainder r -/
def modFrom (n : ℕ) (m : ℕ → ℕ) (r x y : ℕ) : ℕ := (List.range n).reverse.foldl (fun r i => Mem.rem r (m (x + i)) y) r

theorem modFrom_succ (n : ℕ) (m : ℕ → ℕ) (r x y : ℕ) : modFrom (n + 1) m r x y = modFrom n m (Mem.rem r (m (x + n)) y) x y := by
  unfold modFrom
  rw [List.range_succ, List.reverse_append, List.reverse_singleton, List.singleton_append, List.foldl_cons]

theorem modLoop_does (k : ℕ) : ∀ {s : State} {x y r : ℕ}, s.r.rdi = 8 * (x + k) → s.r.r10 = y →
    s.r.rdx = r → s.r.rsi = k + 1 → 8 * (x + k) < W → r < y → (∀ i, s.mem i < W) →
    Tot genMod modCode s fun t => t.mem = s.mem ∧ t.r.rax = modFrom (k + 1) s.mem r x y ∧ Saved s t := by
  induction k with
  | zero =>
    intro s x y r hx hy hr hk bx y0 hm
    obtain ⟨t, h1, d1, d2, d3, d4, d5, d6, d7⟩ := modBody_does hx hy hr hk bx y0 (hm _) (by norm_num)
    rw [modFrom_succ, ← d2]
    exact Tot.block h1 (Tot.not_taken (by show (flag t.zf >>= _) = _; rw [d6]; rfl) (Tot.block rfl (Tot.ret ⟨d1, rfl, d7⟩)))
  | succ k ih =>
    intro s x y r hx hy hr hk bx y0 hm
    obtain ⟨t, h1, d1, d2, d3, d4, d5, d6, d7⟩ := modBody_does hx hy hr hk bx y0 (hm _) (by omega)
    rw [modFrom_succ, ← d2]
    have h2 := ih (x := x) (d3.trans (by omega)) d4 rfl d5 (by omega)
      (by rw [d2]; exact rem_lt (by omega)) (fun i => by rw [d1]; exact hm i)
    rw [d1] at h2
    exact Tot.block h1 (Tot.taken (by show (flag t.zf >>= _) = _; rw [d6]; rfl) (l' := modCode) rfl (h2.mono
      fun u hu => ⟨hu.1, hu.2.1, d7.trans hu.2.2⟩))

/-- the routine made by `genMod` -/
theorem genMod_does {s : State} {n x y : ℕ} (hx : s.r.rdi = 8 * x) (hn : s.r.rsi = n) (hy : s.r.rdx = y)
    (n1 : 1 ≤ n) (y0 : 0 < y) (bx : 8 * (x + n) ≤ W) (hm : ∀ i, s.mem i < W) :
    Tot genMod genMod s fun t => t.mem = s.mem ∧ t.r.rax = Mem.mod1 n s.mem x y ∧ Saved s t := by
  obtain ⟨k, rfl⟩ : ∃ k, n = k + 1 := ⟨n - 1, by omega⟩
  obtain ⟨⟨rax, rcx, rdx, rbx, rsp, rbp, rsi, rdi, r8, r9, r10, r11, r12, r13, r14, r15⟩, cf, zf, lt, m⟩ := s
  dsimp only at hx hn hy hm ⊢
  subst hx hn hy
  exact Tot.block (block_cons rfl (block_cons (lea_op rfl rfl (by omega)) (block_cons xor_op rfl)))
    (Tot.lab (modLoop_does k rfl rfl rfl rfl (by omega) y0 hm))

end X64
end Verif
