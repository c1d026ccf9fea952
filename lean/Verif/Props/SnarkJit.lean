import Verif.Snark.JitDbl

/-! C80: the machine code of the SNARK build for the multiplication by xi = 9 + u. -/

namespace Verif
namespace Jit

open Reg Snk

section
variable {g : Cfg} {s : St} {S z x : ℕ}

/-- the two numbers at X, canonical -/
def XiOperand (m : ℕ → ℕ) (X : ℕ) : Prop := num m X 4 < Snark.p ∧ num m (X + 4) 4 < Snark.p

theorem tbl_wr {m : ℕ → ℕ} {T Z : ℕ} {w : Fp.W4} (hd : Apart Z 8 T 44) (ht : ∀ i, i < 10 → rd4 m (T + 4 * i) = Snark.pTbl i) :
    ∀ i, i < 10 → rd4 (wr4 m Z w) (T + 4 * i) = Snark.pTbl i := by
  intro i hi
  unfold Apart at hd
  rw [rd4_wr4_of (by omega), ht i hi]

theorem num_rd4_of {m m' : ℕ → ℕ} {A : ℕ} (h : ∀ i, A ≤ i → i < A + 4 → m' i = m i) : num m' A 4 = (rd4 m A).val := by
  rw [num_rd4, rd4_congr h]

/-- the numbers in z after the routine, as blocks on words -/
theorem xi2_first {T Z X : ℕ} {m : ℕ → ℕ} : rd4 (xi2Mem T Z X false m) Z = xiOut T m (rd4 m X) (rd4 m (X + 4)) false := by
  unfold xi2Mem
  rw [rd4_wr4_of (by omega), rd4_wr4_self]

theorem xi2_second {T Z X : ℕ} {m : ℕ → ℕ} (w : Fp.W4) (hw : w = xiOut T m (rd4 m X) (rd4 m (X + 4)) false) :
    rd4 (xi2Mem T Z X false m) (Z + 4) = xiOut T (wr4 m Z w) (rd4 (wr4 m Z w) (X + 4)) (rd4 (wr4 m Z w) X) true := by
  rw [hw]
  unfold xi2Mem
  rw [rd4_wr4_self]
  rfl

/-- zm2.cpp:1467-1541 with `BN_SUPPORT_SNARK`: with z and x apart and canonical x = (a, b), the instructions of `Fp2::mul_xi` end
with (9 a - b, 9 b + a) mod p in z, the product by xi = 9 + u and the words the value-level model gives; the callee-saved
registers and all memory outside z and the three words below the stack pointer are as before. -/
theorem C80_mul_xi (h : CallXi g s S z x) (ha : Apart z 8 x 8) (hx : XiOperand s.m x) :
    DoesXi g s S z fun t =>
      num t.m z 4 = (9 * num s.m x 4 + Snark.p - num s.m (x + 4) 4) % Snark.p ∧
      num t.m (z + 4) 4 = (9 * num s.m (x + 4) 4 + num s.m x 4) % Snark.p ∧
      Snark.S2.mulXi (rd2 4 s.m x) = .ok (rd2 4 t.m z) := by
  intro ra
  obtain ⟨t, h1, h2, h3, h4⟩ := does_xi h ra
  refine ⟨t, h1, h2, h3, ?_⟩
  have hw := h.words.m
  have ht : ∀ i, i < 10 → rd4 s.m (g.pT + 4 * i) = Snark.pTbl i := fun i hi => pTbl_of h hi
  obtain ⟨hxa, hxb⟩ := hx
  rw [num_rd4] at hxa hxb
  unfold Apart at ha
  obtain ⟨o1, v1, e1⟩ := xiOut_val ht (rd4_ok hw x) (rd4_ok hw (x + 4)) false hxa hxb
  obtain ⟨w, ew⟩ : ∃ w, w = xiOut g.pT s.m (rd4 s.m x) (rd4 s.m (x + 4)) false := ⟨_, rfl⟩
  have r1 : rd4 (wr4 s.m z w) x = rd4 s.m x := rd4_wr4_of (by omega)
  have r2 : rd4 (wr4 s.m z w) (x + 4) = rd4 s.m (x + 4) := rd4_wr4_of (by omega)
  obtain ⟨o2, v2, e2⟩ := xiOut_val (tbl_wr (w := w) h.zt ht) (rd4_ok hw (x + 4)) (rd4_ok hw x) true hxb hxa
  have n1 : num t.m z 4 = (xiOut g.pT s.m (rd4 s.m x) (rd4 s.m (x + 4)) false).val := by
    rw [num_rd4_of fun i a b => h4 i a (by omega), xi2_first]
  have n2 : num t.m (z + 4) 4 = (xiOut g.pT (wr4 s.m z w) (rd4 s.m (x + 4)) (rd4 s.m x) true).val := by
    rw [num_rd4_of fun i a b => h4 i (by omega) (by omega), xi2_second w ew, r1, r2]
  refine ⟨?_, ?_, ?_⟩
  · rw [n1, v1, num_rd4, num_rd4]; rfl
  · rw [n2, v2, num_rd4, num_rd4]; rfl
  · unfold Snark.S2.mulXi rd2
    dsimp only
    rw [← rd4_of hw, ← rd4_of hw, e1, Res.bind_ok, e2, Res.bind_ok, n1, n2]
    rfl

/-- In place (z = x) the second block reads the first component after it was overwritten: the second component becomes
9 b + (9 a - b). -/
theorem C80_in_place (h : CallXi g s S x x) (hx : XiOperand s.m x) :
    DoesXi g s S x fun t =>
      num t.m x 4 = (9 * num s.m x 4 + Snark.p - num s.m (x + 4) 4) % Snark.p ∧
      num t.m (x + 4) 4 = (9 * num s.m x 4 + 8 * num s.m (x + 4) 4) % Snark.p ∧
      (num t.m (x + 4) 4 = (9 * num s.m (x + 4) 4 + num s.m x 4) % Snark.p ↔ num s.m (x + 4) 4 = 8 * num s.m x 4 % Snark.p) := by
  intro ra
  obtain ⟨t, h1, h2, h3, h4⟩ := does_xi h ra
  refine ⟨t, h1, h2, h3, ?_⟩
  have hw := h.words.m
  have ht : ∀ i, i < 10 → rd4 s.m (g.pT + 4 * i) = Snark.pTbl i := fun i hi => pTbl_of h hi
  obtain ⟨hxa, hxb⟩ := hx
  rw [num_rd4] at hxa hxb
  obtain ⟨o1, v1, e1⟩ := xiOut_val ht (rd4_ok hw x) (rd4_ok hw (x + 4)) false hxa hxb
  obtain ⟨w, ew⟩ : ∃ w, w = xiOut g.pT s.m (rd4 s.m x) (rd4 s.m (x + 4)) false := ⟨_, rfl⟩
  rw [← ew] at o1 v1
  have r1 : rd4 (wr4 s.m x w) x = w := rd4_wr4_self _ _ _
  have r2 : rd4 (wr4 s.m x w) (x + 4) = rd4 s.m (x + 4) := rd4_wr4_of (by omega)
  have hp : 0 < Snark.p := by decide
  have hwp : w.val < Snark.p := by rw [v1]; exact Nat.mod_lt _ hp
  obtain ⟨o2, v2, e2⟩ := xiOut_val (tbl_wr (w := w) h.zt ht) (rd4_ok hw (x + 4)) o1 true hxb hwp
  have n1 : num t.m x 4 = w.val := by
    rw [num_rd4_of fun i a b => h4 i a (by omega), xi2_first, ← ew]
  have n2 : num t.m (x + 4) 4 = (9 * num s.m (x + 4) 4 + w.val) % Snark.p := by
    rw [num_rd4_of fun i a b => h4 i (by omega) (by omega), xi2_second w ew, r1, r2, v2, num_rd4]; rfl
  show num t.m x 4 = _ ∧ num t.m (x + 4) 4 = _ ∧ (num t.m (x + 4) 4 = _ ↔ _)
  rw [n1, n2, num_rd4 s.m, num_rd4 s.m, v1]
  clear n1 n2
  have e : Snark.xiNum (rd4 s.m x).val (rd4 s.m (x + 4)).val false = 9 * (rd4 s.m x).val + Snark.p - (rd4 s.m (x + 4)).val := rfl
  rw [e]
  generalize (rd4 s.m x).val = a at *
  generalize (rd4 s.m (x + 4)).val = b at *
  generalize Snark.p = p at *
  have k : (9 * b + (9 * a + p - b) % p) % p = (9 * a + 8 * b) % p := by
    rw [Nat.add_mod_mod, show 9 * b + (9 * a + p - b) = 9 * a + 8 * b + p by omega, Nat.add_mod_right]
  refine ⟨rfl, k, ?_⟩
  rw [k]
  constructor
  · intro hh
    have h5 : 8 * a ≡ b [MOD p] := by
      have h6 : (a + 8 * b) + 8 * a ≡ (a + 8 * b) + b [MOD p] := by
        have e1 : a + 8 * b + 8 * a = 9 * a + 8 * b := by omega
        have e2 : a + 8 * b + b = 9 * b + a := by omega
        rw [e1, e2]; exact hh
      exact Nat.ModEq.add_left_cancel' _ h6
    rw [h5, Nat.mod_eq_of_lt hxb]
  · intro hh
    have h5 : 8 * a ≡ b [MOD p] := by show _ % _ = _ % _; rw [← hh, Nat.mod_eq_of_lt hxb]
    have h6 := Nat.ModEq.add_left (a + 8 * b) h5
    have e1 : a + 8 * b + 8 * a = 9 * a + 8 * b := by omega
    have e2 : a + 8 * b + b = 9 * b + a := by omega
    rw [e1, e2] at h6; exact h6

/-- For any contents of x, canonical or not and overlapping z or not, the routine comes to its `ret`, restores the callee-saved
registers and writes nothing but z and the three words below the stack pointer. -/
theorem C80_any (h : CallXi g s S z x) : DoesXi g s S z fun _ => True := fun ra => by
  obtain ⟨t, h1, h2, h3, -⟩ := does_xi h ra
  exact ⟨t, h1, h2, h3, trivial⟩

/-- zm2.cpp:3072-3077, b = 82: the two blocks in `make_pointDblLineEval` multiply by 9 - u, for operands anywhere on the stack. -/
theorem C80_nine_minus_u {dz dx : ℕ} (hw : ∀ i, s.m i < 2 ^ 64) (ht : ∀ i, i < 10 → num s.m (g.pT + 4 * i) 4 = i * Snark.p % 2 ^ 256)
    (htb : 8 * (g.pT + 44) ≤ 2 ^ 64) (hz : s.r rsp + dz = 8 * z) (hx : s.r rsp + dx = 8 * x) (bz : 8 * (z + 8) ≤ 2 ^ 64) (bx : 8 * (x + 8) ≤ 2 ^ 64)
    (hzt : Apart z 8 g.pT 44) (ha : Apart z 8 x 8) (hc : XiOperand s.m x) :
    ∃ t, exec (in_Fp2_mul_conj g (pt rsp dz) (pt rsp dx)) s = .ok t ∧
      num t.m z 4 = (9 * num s.m x 4 + num s.m (x + 4) 4) % Snark.p ∧
      num t.m (z + 4) 4 = (9 * num s.m (x + 4) 4 + Snark.p - num s.m x 4) % Snark.p ∧
      (∀ i, (i < z ∨ z + 8 ≤ i) → t.m i = s.m i) ∧ ∀ q, q ∉ xiRegs → t.r q = s.r q := by
  have ht' : ∀ i, i < 10 → rd4 s.m (g.pT + 4 * i) = Snark.pTbl i := by
    intro i hi
    rw [rd4_of hw, ht i hi, W4.of_mod]; rfl
  have hd := hzt
  unfold Apart at hd
  obtain ⟨t, e, hm, K⟩ := xi2_ex g (mz := pt rsp dz) (mx := pt rsp dx) (Z := z) (X := x) (s := s) true (by simp [Addr.avoid, pt]) (by simp [Addr.avoid, pt]) (.pt hz bz) (.pt hx bx) htb
    (ht' 1 (by omega)) (by unfold Apart; omega)
  obtain ⟨hxa, hxb⟩ := hc
  rw [num_rd4] at hxa hxb
  unfold Apart at ha
  obtain ⟨o1, v1, -⟩ := xiOut_val ht' (rd4_ok hw x) (rd4_ok hw (x + 4)) true hxa hxb
  obtain ⟨w, ew⟩ : ∃ w, w = xiOut g.pT s.m (rd4 s.m x) (rd4 s.m (x + 4)) true := ⟨_, rfl⟩
  have r1 : rd4 (wr4 s.m z w) x = rd4 s.m x := rd4_wr4_of (by omega)
  have r2 : rd4 (wr4 s.m z w) (x + 4) = rd4 s.m (x + 4) := rd4_wr4_of (by omega)
  obtain ⟨o2, v2, -⟩ := xiOut_val (tbl_wr (w := w) hzt ht') (rd4_ok hw (x + 4)) (rd4_ok hw x) false hxb hxa
  refine ⟨t, e, ?_, ?_, fun i hi => by rw [hm, xi2Mem_of _ _ _ _ _ hi], K.r⟩
  · rw [num_rd4, hm]
    unfold xi2Mem
    rw [rd4_wr4_of (by omega), rd4_wr4_self, v1, num_rd4, num_rd4]; rfl
  · rw [num_rd4, hm]
    unfold xi2Mem
    rw [rd4_wr4_self, ← ew, r1, r2]
    refine Eq.trans v2 ?_
    rw [num_rd4, num_rd4]; rfl

end

theorem num_rd8 (m : ℕ → ℕ) (A : ℕ) : num m A 8 = (rd8 m A).val := by
  unfold rd8 Fp.W8.val
  rw [← num_rd4, ← num_rd4]
  simp only [num]
  ring

theorem w9_num {x : Fp.W8} (hx : x.Ok) : (w9 x).Ok ∧ (w9 x).val = Snark.S2.dMul9 x.val := by
  have k : ∀ a b : Fp.W8, a.Ok → b.Ok → (Snark.dAdd a b).val = Snark.dblAdd a.val b.val := fun a b ha hb => by
    unfold Snark.dblAdd; rw [Jit.W8.of_val ha, Jit.W8.of_val hb]
  have o := Snark.dAdd_ok
  refine ⟨o _ _, ?_⟩
  unfold w9 Snark.S2.dMul9
  dsimp only
  rw [k _ _ (o _ _) hx, k _ _ (o _ _) (o _ _), k _ _ (o _ _) (o _ _), k _ _ hx hx]

/-- p * 2^256 -/
def pR : ℕ := Snark.p * 2 ^ 256

theorem dblAdd_mod {x y : ℕ} (hx : x < pR) (hy : y < pR) : Snark.dblAdd x y = (x + y) % pR := by
  have h4 := Snark.pN_lt
  change 4 * pR < _ at h4
  have hv := Snark.dblAdd_val (x := x) (y := y) (by omega)
  change _ = if x + y < pR then x + y else x + y - pR at hv
  rw [hv]
  split_ifs with c
  · rw [Nat.mod_eq_of_lt c]
  · rw [Nat.mod_eq_sub_mod (by omega), Nat.mod_eq_of_lt (by omega)]

theorem dblSub_mod {x y : ℕ} (hx : x < pR) (hy : y < pR) : Snark.dblSub x y = (x + pR - y) % pR := by
  have h4 := Snark.pN_lt
  change 4 * pR < _ at h4
  have hv := Snark.dblSub_val (x := x) (y := y) (by omega) (by omega) (show y ≤ x + pR by omega)
  change _ = if y ≤ x then x - y else x + pR - y at hv
  rw [hv]
  split_ifs with c
  · rw [show x + pR - y = (x - y) + pR by omega, Nat.add_mod_right, Nat.mod_eq_of_lt (by omega)]
  · rw [Nat.mod_eq_of_lt (by omega)]

theorem dMul9_mod {x : ℕ} (hx : x < pR) : Snark.S2.dMul9 x = 9 * x % pR := by
  have hp : 0 < pR := by omega
  have l : ∀ n, n % pR < pR := fun n => Nat.mod_lt _ hp
  unfold Snark.S2.dMul9
  dsimp only
  rw [dblAdd_mod hx hx, dblAdd_mod (l _) (l _), dblAdd_mod (l _) (l _), dblAdd_mod (l _) hx]
  simp only [Nat.add_mod_mod, Nat.mod_add_mod]
  congr 1
  omega

/-- zm2.cpp:2063-2085 with `BN_SUPPORT_SNARK`: for any double-width x = (a, b) apart from z, the entry `Fp2Dbl::mul_xi` calls the
internal routine, which stores what the value-level model gives; for a, b < p 2^256 that is (9 a - b, 9 b + a) mod p 2^256. -/
theorem C80_dbl {g : Cfg} {s : St} {S z x : ℕ} (h : CallDXi g s S z x) (ha : Apart z 16 x 16) :
    DoesDXi g s S z fun t =>
      Snark.S2.dMulXi ⟨num s.m x 8, num s.m (x + 8) 8⟩ = ⟨num t.m z 8, num t.m (z + 8) 8⟩ ∧
      (num s.m x 8 < Snark.p * 2 ^ 256 → num s.m (x + 8) 8 < Snark.p * 2 ^ 256 →
        num t.m z 8 = (9 * num s.m x 8 + Snark.p * 2 ^ 256 - num s.m (x + 8) 8) % (Snark.p * 2 ^ 256) ∧
        num t.m (z + 8) 8 = (9 * num s.m (x + 8) 8 + num s.m x 8) % (Snark.p * 2 ^ 256)) := by
  intro ra
  obtain ⟨t, h1, h2, h3, h4, h5⟩ := does_dxi h ha ra
  refine ⟨t, h1, h2, h3, ?_⟩
  have hw := h.words.m
  have k : ∀ A, (rd8 s.m A).Ok := fun A => ⟨rd4_ok hw _, rd4_ok hw _⟩
  have e : Snark.S2.dMulXi ⟨num s.m x 8, num s.m (x + 8) 8⟩ = ⟨num t.m z 8, num t.m (z + 8) 8⟩ := by
    rw [num_rd8 t.m, num_rd8 t.m, h4, h5, num_rd8, num_rd8]
    unfold Snark.S2.dMulXi
    dsimp only
    rw [← (w9_num (k x)).2, ← (w9_num (k (x + 8))).2]
    unfold Snark.dblSub Snark.dblAdd
    rw [Jit.W8.of_val (w9_num (k x)).1, Jit.W8.of_val (w9_num (k (x + 8))).1, Jit.W8.of_val (k x), Jit.W8.of_val (k (x + 8))]
  refine ⟨e, ?_⟩
  unfold Snark.S2.dMulXi at e
  dsimp only at e
  injection e with ea eb
  rw [← ea, ← eb]
  generalize num s.m x 8 = a
  generalize num s.m (x + 8) 8 = b
  show a < pR → b < pR → _ = (9 * a + pR - b) % pR ∧ _ = (9 * b + a) % pR
  intro la lb
  have hp : 0 < pR := by omega
  rw [dMul9_mod la, dMul9_mod lb, dblSub_mod (Nat.mod_lt _ hp) lb, dblAdd_mod (Nat.mod_lt _ hp) la, Nat.mod_add_mod,
    Nat.add_sub_assoc lb.le, Nat.mod_add_mod, ← Nat.add_sub_assoc lb.le]
  exact ⟨rfl, rfl⟩

/-! ### concrete calls -/

def exG : Cfg := ⟨true, true, 100, 140, 400⟩
/-- the table of multiples at word 100, the operand (p - 1, p - 2) at word 300 -/
def exM (i : ℕ) : ℕ :=
  if 100 ≤ i ∧ i < 140 then (i - 100) / 4 * Snark.p % 2 ^ 256 / 2 ^ (64 * ((i - 100) % 4)) % 2 ^ 64
  else if 300 ≤ i ∧ i < 304 then (Snark.p - 1) / 2 ^ (64 * (i - 300)) % 2 ^ 64
  else if 304 ≤ i ∧ i < 308 then (Snark.p - 2) / 2 ^ (64 * (i - 304)) % 2 ^ 64
  else 0
/-- rsp at word 50, z at word `z`, x at word 300 -/
def exS (z : ℕ) : St := ⟨fun q => if q = rsp then 400 else if q = rdi then 8 * z % 2 ^ 64 else if q = rsi then 2400 else 0, fun _ => 0, none, none, exM⟩

theorem exS_call {z : ℕ} (h : z = 200 ∨ z = 300) : CallXi exG (exS z) 50 z 300 where
  words := by
    refine ⟨fun q => ?_, fun _ => by norm_num [exS], fun i => ?_, fun c hc => by cases hc⟩
    · simp only [exS]; split_ifs <;> omega
    · simp only [exS, exM]; split_ifs <;> omega
  tbl := by intro i hi; show num exM (100 + 4 * i) 4 = _; interval_cases i <;> decide +kernel
  tb := by decide
  sp := rfl
  room := by decide
  top := by decide
  az := by rcases h with rfl | rfl <;> decide +kernel
  ax := by rfl
  bz := by omega
  bx := by decide
  st := by unfold Apart exG; dsimp only; omega
  sz := by unfold Apart; omega
  sx := by unfold Apart; omega
  zt := by unfold Apart exG; dsimp only; omega

theorem exS_num : num exM 300 4 = Snark.p - 1 ∧ num exM 304 4 = Snark.p - 2 := by decide +kernel

example : XiOperand exM 300 := by rw [XiOperand, exS_num.1, exS_num.2]; decide +kernel

/-- the call of the example stores p - 7 and p - 19 -/
example : DoesXi exG (exS 200) 50 200 fun t => num t.m 200 4 = Snark.p - 7 ∧ num t.m 204 4 = Snark.p - 19 := fun ra => by
  obtain ⟨t, h1, h2, h3, h4, h5, -⟩ := C80_mul_xi (exS_call (.inl rfl)) (.inl (by decide))
    (by show XiOperand exM 300; rw [XiOperand, exS_num.1, exS_num.2]; decide +kernel) ra
  refine ⟨t, h1, h2, h3, ?_, ?_⟩
  · rw [h4]
    show (9 * num exM 300 4 + Snark.p - num exM 304 4) % Snark.p = _
    rw [exS_num.1, exS_num.2]; decide +kernel
  · rw [h5]
    show (9 * num exM 304 4 + num exM 300 4) % Snark.p = _
    rw [exS_num.1, exS_num.2]; decide +kernel

/-- in place it stores p - 25 instead of p - 19 -/
example : DoesXi exG (exS 300) 50 300 fun t => num t.m 300 4 = Snark.p - 7 ∧ num t.m 304 4 = Snark.p - 25 := fun ra => by
  obtain ⟨t, h1, h2, h3, h4, h5, -⟩ := C80_in_place (exS_call (.inr rfl))
    (by show XiOperand exM 300; rw [XiOperand, exS_num.1, exS_num.2]; decide +kernel) ra
  refine ⟨t, h1, h2, h3, ?_, ?_⟩
  · rw [h4]
    show (9 * num exM 300 4 + Snark.p - num exM 304 4) % Snark.p = _
    rw [exS_num.1, exS_num.2]; decide +kernel
  · rw [h5]
    show (9 * num exM 300 4 + 8 * num exM 304 4) % Snark.p = _
    rw [exS_num.1, exS_num.2]; decide +kernel

/-- times 9 - u: (p - 1, p - 2) becomes (p - 11, p - 17) -/
example : ∃ t, exec (in_Fp2_mul_conj exG (pt rsp 1200) (pt rsp 2000)) (exS 200) = .ok t ∧ num t.m 200 4 = Snark.p - 11 ∧ num t.m 204 4 = Snark.p - 17 := by
  have hc := exS_call (z := 200) (.inl rfl)
  obtain ⟨t, e, h1, h2, -⟩ := C80_nine_minus_u (s := exS 200) (g := exG) (z := 200) (x := 300) (dz := 1200) (dx := 2000) hc.words.m hc.tbl hc.tb rfl rfl
    hc.bz hc.bx hc.zt (.inl (by decide)) (by show XiOperand exM 300; rw [XiOperand, exS_num.1, exS_num.2]; decide +kernel)
  refine ⟨t, e, ?_, ?_⟩
  · rw [h1]
    show (9 * num exM 300 4 + num exM 304 4) % Snark.p = _
    rw [exS_num.1, exS_num.2]; decide +kernel
  · rw [h2]
    show (9 * num exM 304 4 + Snark.p - num exM 300 4) % Snark.p = _
    rw [exS_num.1, exS_num.2]; decide +kernel

/-- p at word 104, the double-width operand (5, p 2^256 - 1) at words 300 and 308 -/
def exD (i : ℕ) : ℕ :=
  if 104 ≤ i ∧ i < 108 then Snark.p / 2 ^ (64 * (i - 104)) % 2 ^ 64
  else if i = 300 then 5
  else if 308 ≤ i ∧ i < 316 then (Snark.p * 2 ^ 256 - 1) / 2 ^ (64 * (i - 308)) % 2 ^ 64
  else 0
def exDS : St := ⟨fun q => if q = rsp then 400 else if q = rdi then 1600 else if q = rsi then 2400 else 0, fun _ => 0, none, none, exD⟩

theorem exDS_call : CallDXi exG exDS 50 200 300 where
  words := by
    refine ⟨fun q => ?_, fun _ => by norm_num [exDS], fun i => ?_, fun c hc => by cases hc⟩
    · simp only [exDS]; split_ifs <;> omega
    · simp only [exDS, exD]; split_ifs <;> omega
  tbl := by show num exD 104 4 = _; decide +kernel
  tb := by decide
  sp := rfl
  room := by decide
  top := by decide
  az := rfl
  ax := rfl
  bz := by decide
  bx := by decide
  st := by unfold Apart exG; dsimp only; omega
  sz := by unfold Apart; omega
  sx := by unfold Apart; omega
  zt := by unfold Apart exG; dsimp only; omega

/-- it stores 46 and p 2^256 - 4 -/
example : DoesDXi exG exDS 50 200 fun t => num t.m 200 8 = 46 ∧ num t.m 208 8 = Snark.p * 2 ^ 256 - 4 := fun ra => by
  obtain ⟨t, h1, h2, h3, -, h4⟩ := C80_dbl exDS_call (.inl (by decide)) ra
  have e1 : num exDS.m 300 8 = 5 := by show num exD 300 8 = _; decide +kernel
  have e2 : num exDS.m (300 + 8) 8 = Snark.p * 2 ^ 256 - 1 := by show num exD 308 8 = _; decide +kernel
  rw [e1, e2] at h4
  obtain ⟨ha, hb⟩ := h4 (by decide +kernel) (by decide +kernel)
  refine ⟨t, h1, h2, h3, ?_, ?_⟩
  · rw [ha]; decide +kernel
  · rw [hb]; decide +kernel

end Jit
end Verif
