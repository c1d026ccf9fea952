import Verif.Jit.Demo
import Verif.Props.Fp

/-!
Property theorems C57-C64: the 44 routines that `PairingCode` (src/zm2.cpp:428-3573) generates at start-up and that the C++
code reaches through function pointers.

`Does g j s S d out Q` (Jit/Api.lean): a call of routine j in machine state s comes to its final `ret` in a state with Q;
rbx, rbp, rsp, r12-r15 are as before and memory is as before except in the ranges `out` and in the d words below the stack
pointer.  A misaligned access, a read of an undefined flag, a jump to a missing label or a return to another place than the
caller's makes that false.  `g` says where the tables are and how the two CPU switches are set; it is arbitrary everywhere.
`Call3 g s S d z n x k y l` is a call f(z, x, y) with pointers to word z (n words, written), x (k words) and y (l words);
`Call2` and `Call1` have fewer operands.  Overlap is allowed unless `Apart` or `SameOr` excludes it.

`AtFp m A x`, `AtF2`, `AtF6`, `AtF12` (Jit/Spec.lean): memory holds, from word A on, the canonical Montgomery form of an
element of the tower ℤ/p, u² = -1, v³ = 1 + u, w² = v, written out in coordinates; `AtD`, `AtD2`, `AtD6`: a double-width value
below p * 2^256.
-/

namespace Verif
namespace Jit

open Fp Reg

section
variable {g : Cfg} {s : St} {S z x y : ℕ}

theorem num_lt {m : ℕ → ℕ} (h : ∀ i, m i < 2 ^ 64) (A n : ℕ) : num m A n < 2 ^ (64 * n) := by
  induction n generalizing A with
  | zero => simp [num]
  | succ n ih =>
    have h1 := ih (A + 1)
    have h2 := h A
    rw [num, Nat.mul_succ, Nat.pow_add]
    generalize 2 ^ (64 * n) = b at h1 ⊢
    have : 2 ^ 64 * (num m (A + 1) n + 1) ≤ 2 ^ 64 * b := Nat.mul_le_mul_left _ h1
    rw [Nat.mul_comm b]
    omega

theorem num_lt8 {m : ℕ → ℕ} (h : ∀ i, m i < 2 ^ 64) (A : ℕ) : num m A 8 < 2 ^ 512 :=
  (num_lt h A 8).trans_eq (congrArg (2 ^ ·) (by norm_num : 64 * 8 = 512))

theorem put2 {m : ℕ → ℕ} {A : ℕ} {r : R2} {X : K2} (e : rd2 4 m A = r) (c : r.Canon ∧ r.den.k = X) : AtF2 m A X := by
  rw [atF2, e]; exact c
theorem putD2 {m : ℕ → ℕ} {A : ℕ} {r : R2} {X : K2} (e : rd2 8 m A = r) (c : r.RedD ∧ r.denD.k = X) : AtD2 m A X := by
  rw [atD2, e]; exact c
theorem put6 {m : ℕ → ℕ} {A : ℕ} {r : R6} {X : K6} (e : rd6 4 m A = r) (c : r.Canon ∧ r.den.k = X) : AtF6 m A X := by
  rw [atF6, e]; exact c
theorem putD6 {m : ℕ → ℕ} {A : ℕ} {r : R6} {X : K6} (e : rd6 8 m A = r) (c : r.RedD ∧ r.denD.k = X) : AtD6 m A X := by
  rw [atD6, e]; exact c
theorem put12 {m : ℕ → ℕ} {A : ℕ} {r : R12} {X : K12} (e : rd12 4 m A = r) (c : r.Canon ∧ r.den.k = X) : AtF12 m A X := by
  rw [atF12, e]; exact c

/-! ### C57 -/

/-- **C57** `Fp::add` -/
theorem C57_add {X Y : ZMod p} (h : Call3 g s S 3 z 4 x 4 y 4) (hx : AtFp s.m x X) (hy : AtFp s.m y Y) :
    Does g .FpAdd s S 3 [(z, 4)] fun t => AtFp t.m z (X + Y) :=
  (raw_FpAdd h).mono fun t e => by
    have c := C20_add hx.1 hy.1
    rw [hx.2, hy.2] at c
    unfold AtFp; rw [e]; exact c
example (a b : Bool) := C57_add (demo_call3 a b (z := 48)) (demo_fp (A := 48)) (demo_fp (A := 96))

/-- **C57** `Fp::sub` -/
theorem C57_sub {X Y : ZMod p} (h : Call3 g s S 3 z 4 x 4 y 4) (hx : AtFp s.m x X) (hy : AtFp s.m y Y) :
    Does g .FpSub s S 3 [(z, 4)] fun t => AtFp t.m z (X - Y) :=
  (raw_FpSub h).mono fun t e => by
    have c := C20_sub hx.1 hy.1
    rw [hx.2, hy.2] at c
    unfold AtFp; rw [e]; exact c
example (a b : Bool) := C57_sub (demo_call3 a b (z := 48)) (demo_fp (A := 48)) (demo_fp (A := 96))

/-- **C57** `Fp::neg` -/
theorem C57_neg {X : ZMod p} (h : Call2 g s S 0 z 4 x 4) (hx : AtFp s.m x X) :
    Does g .FpNeg s S 0 [(z, 4)] fun t => AtFp t.m z (-X) :=
  (raw_FpNeg h).mono fun t e => by
    have c := C20_neg hx.1
    rw [hx.2] at c
    unfold AtFp; rw [e]; exact c
example (a b : Bool) := C57_neg (demo_call2 a b (z := 48) 0) (demo_fp (A := 96))

/-- **C57** `Fp::mul` -/
theorem C57_mul {X Y : ZMod p} (h : Call3 g s S 7 z 4 x 4 y 4) (hx : AtFp s.m x X) (hy : AtFp s.m y Y) :
    Does g .FpMul s S 7 [(z, 4)] fun t => AtFp t.m z (X * Y) :=
  (raw_FpMul h).mono fun t e => by
    have c := C21_mul hx.1 hy.1
    rw [hx.2, hy.2] at c
    unfold AtFp; rw [e]; exact c
example (a b : Bool) := C57_mul (demo_call3 a b (z := 0)) (demo_fp (A := 48)) (demo_fp (A := 96))

/-- **C57** `Fp::addNC`: the exact sum if it fits. -/
theorem C57_addNC (h : Call3 g s S 0 z 4 x 4 y 4) (hs : num s.m x 4 + num s.m y 4 < 2 ^ 256) :
    Does g .FpAddNC s S 0 [(z, 4)] fun t => num t.m z 4 = num s.m x 4 + num s.m y 4 :=
  (raw_FpAddNC h).mono fun _ e => by rw [e]; exact C27_NC.2.2.1 hs
example (a b : Bool) := C57_addNC (demo_call3 a b (z := 0) (x := 48) (y := 96)) (by decide +kernel)

/-- **C57** `Fp::subNC`: the exact difference if it is not negative. -/
theorem C57_subNC (h : Call3 g s S 0 z 4 x 4 y 4) (hs : num s.m y 4 ≤ num s.m x 4) :
    Does g .FpSubNC s S 0 [(z, 4)] fun t => num t.m z 4 = num s.m x 4 - num s.m y 4 :=
  (raw_FpSubNC h).mono fun _ e => by rw [e]; exact C27_NC.2.2.2 (num_lt h.words.m _ _) hs
example (a b : Bool) := C57_subNC (demo_call3 a b (z := 0) (x := 48) (y := 96)) (by decide +kernel)

/-- **C57** `Fp::shr1`, `Fp::shr2`: any 256-bit number shifted right by one and by two bits. -/
theorem C57_shr (h : Call2 g s S 0 z 4 x 4) :
    (Does g .FpShr1 s S 0 [(z, 4)] fun t => num t.m z 4 = num s.m x 4 / 2) ∧
    (Does g .FpShr2 s S 0 [(z, 4)] fun t => num t.m z 4 = num s.m x 4 / 4) :=
  ⟨raw_FpShr1 h, raw_FpShr2 h⟩
example (a b : Bool) := C57_shr (demo_call2 a b (z := 0) (x := 48) 0)

/-- **C57** `Fp::preInv`, the first phase of the inversion: for 0 < x < p it stores a number r ≤ 2p and returns k ≤ 508 with
x * r = 2^k modulo p; for x = 0 it stores 2p and returns 0.  In particular its loop comes to an end. -/
theorem C57_preInv (h : Call2 g s S 10 z 4 x 4) (hx : num s.m x 4 < p) :
    (num s.m x 4 ≠ 0 → Does g .FpPreInv s S 10 [(z, 4)] fun t => num t.m z 4 ≤ 2 * p ∧ t.r rax ≤ 508 ∧
      (num s.m x 4 : ZMod p) * num t.m z 4 = 2 ^ t.r rax) ∧
    (num s.m x 4 = 0 → Does g .FpPreInv s S 10 [(z, 4)] fun t => num t.m z 4 = 2 * p ∧ t.r rax = 0) := by
  have hb : num s.m x 4 < W256 := num_lt h.words.m x 4
  constructor
  · intro h0
    have e := W4.val_of_lt hb
    obtain ⟨r, k, h1, -, h3, h4, h5⟩ := wPreInv_spec (x := W4.of (num s.m x 4)) (W4.of_ok _) (by rw [e]; exact h0) (by rw [e]; exact hx)
    refine (raw_FpPreInv h1 h).mono fun t ht => ?_
    rw [ht.1, ht.2]
    rw [e] at h5
    exact ⟨h3, h4, h5⟩
  · intro h0
    refine (raw_FpPreInv (r := W4.of (2 * p)) (k := 0) (by rw [h0]; exact wPreInv_zero) h).mono fun t ht => ⟨?_, ht.2⟩
    rw [ht.1, W4.val_of_lt (by have := p_lt_W; omega)]
example (a b : Bool) := (C57_preInv (demo_call2 a b (z := 0) (x := 48) 0) (demo_fp (A := 48)).1).1 (by decide +kernel)

/-! ### C58 -/

/-- **C58** `FpDbl::add`, `FpDbl::sub` on values below p * 2^256 -/
theorem C58_add (h1 : SameOr z x 8) (h2 : SameOr z y 8) (h : Call3 g s S 3 z 8 x 8 y 8)
    (hx : num s.m x 8 < p * 2 ^ 256) (hy : num s.m y 8 < p * 2 ^ 256) :
    Does g .DblAdd s S 3 [(z, 8)] fun t => num t.m z 8 = (num s.m x 8 + num s.m y 8) % (p * 2 ^ 256) :=
  (raw_DblAdd h1 h2 h).mono fun _ e => by rw [e]; exact (C27_addsub hx hy).1
example (a b : Bool) := C58_add (.inl rfl) (.inr (.inl (by norm_num))) (demo_call3 a b (z := 48)) (demo_d (A := 48)).1 (demo_d (A := 96)).1
theorem C58_sub (h1 : SameOr z x 8) (h2 : SameOr z y 8) (h : Call3 g s S 3 z 8 x 8 y 8)
    (hx : num s.m x 8 < p * 2 ^ 256) (hy : num s.m y 8 < p * 2 ^ 256) :
    Does g .DblSub s S 3 [(z, 8)] fun t => (num t.m z 8 : ℤ) = ((num s.m x 8 : ℤ) - num s.m y 8) % (p * 2 ^ 256 : ℕ) :=
  (raw_DblSub h1 h2 h).mono fun _ e => by rw [e]; exact (C27_addsub hx hy).2
example (a b : Bool) := C58_sub (.inl rfl) (.inr (.inl (by norm_num))) (demo_call3 a b (z := 48)) (demo_d (A := 48)).1 (demo_d (A := 96)).1

/-- **C58** `FpDbl::addNC`, `FpDbl::subNC`: exact where the result fits -/
theorem C58_addNC (h1 : SameOr z x 8) (h2 : SameOr z y 8) (h : Call3 g s S 4 z 8 x 8 y 8)
    (hs : num s.m x 8 + num s.m y 8 < 2 ^ 512) :
    Does g .DblAddNC s S 4 [(z, 8)] fun t => num t.m z 8 = num s.m x 8 + num s.m y 8 :=
  (raw_DblAddNC h1 h2 h).mono fun _ e => by rw [e]; exact C27_NC.1 hs
example (a b : Bool) := C58_addNC (.inl rfl) (.inr (.inl (by norm_num))) (demo_call3 a b (z := 48) (x := 48) (y := 96)) (by decide +kernel)
theorem C58_subNC (h1 : SameOr z x 8) (h2 : SameOr z y 8) (h : Call3 g s S 3 z 8 x 8 y 8) (hs : num s.m y 8 ≤ num s.m x 8) :
    Does g .DblSubNC s S 3 [(z, 8)] fun t => num t.m z 8 = num s.m x 8 - num s.m y 8 :=
  (raw_DblSubNC h1 h2 h).mono fun _ e => by rw [e]; exact C27_NC.2.1 (num_lt8 h.words.m _) hs
example (a b : Bool) := C58_subNC (.inl rfl) (.inr (.inl (by norm_num))) (demo_call3 a b (z := 48) (x := 48) (y := 64)) (by decide +kernel)

/-- **C58** `FpDbl::neg`: the branch for zero is never taken (the code tests a pointer instead of the words, so z must not be
the null pointer here); the result is p * 2^256 - x, for x = 0 too. -/
theorem C58_neg (h0 : 0 < z) (h1 : SameOr z x 8) (h : Call2 g s S 0 z 8 x 8) (hx : num s.m x 8 < p * 2 ^ 256) :
    Does g .DblNeg s S 0 [(z, 8)] fun t => num t.m z 8 = p * 2 ^ 256 - num s.m x 8 :=
  (raw_DblNeg h0 h1 h).mono fun _ e => by rw [e]; exact (C27_neg hx).1
example (a b : Bool) := C58_neg (by norm_num) (.inl rfl) (demo_call2 a b (z := 48) 0) (demo_d (A := 48)).1

/-- **C58** so the negative of 0 is stored as p * 2^256, which is not below p * 2^256. -/
theorem C58_neg_zero (h0 : 0 < z) (h1 : SameOr z x 8) (h : Call2 g s S 0 z 8 x 8) (hx : num s.m x 8 = 0) :
    Does g .DblNeg s S 0 [(z, 8)] fun t => num t.m z 8 = p * 2 ^ 256 :=
  (C58_neg h0 h1 h (by rw [hx]; exact Nat.mul_pos p_pos (Nat.two_pow_pos _))).mono fun _ e => by rw [e, hx, Nat.sub_zero]
example (a b : Bool) := C58_neg_zero (by norm_num) (.inr (.inl (by norm_num))) (demo_callZ a b) demo_zero

/-- **C58** `FpDbl::mul`: the exact product of any two 256-bit numbers -/
theorem C58_mul (h1 : Apart z 8 x 4) (h2 : Apart z 8 y 4) (h : Call3 g s S 6 z 8 x 4 y 4) :
    Does g .DblMul s S 6 [(z, 8)] fun t => num t.m z 8 = num s.m x 4 * num s.m y 4 :=
  (raw_DblMul h1 h2 h).mono fun _ e => by rw [e]; exact C27_mul (num_lt h.words.m _ _) (num_lt h.words.m _ _)
example (a b : Bool) := C58_mul (.inl (by norm_num)) (.inl (by norm_num)) (demo_call3 a b (z := 0) (x := 48) (y := 96))

/-- **C58** `FpDbl::mod`: Montgomery reduction -/
theorem C58_mod {X : ZMod p} (h : Call2 g s S 7 z 4 x 8) (hx : AtD s.m x X) :
    Does g .DblMod s S 7 [(z, 4)] fun t => AtFp t.m z X :=
  (raw_DblMod h).mono fun _ e => by
    have c := C27_mod hx.1
    rw [hx.2] at c
    unfold AtFp; rw [e]; exact c
example (a b : Bool) := C58_mod (demo_call2 a b (z := 48) 0) (demo_d (A := 48))

/-! ### C59 -/

/-- **C59** `Fp2::add`, `Fp2::sub`, in place or apart -/
theorem C59_add {X Y : K2} (h1 : SameOr z x 8) (h2 : SameOr z y 8) (h : Call3 g s S 3 z 8 x 8 y 8)
    (hx : AtF2 s.m x X) (hy : AtF2 s.m y Y) : Does g .Fp2Add s S 3 [(z, 8)] fun t => AtF2 t.m z (X + Y) :=
  (raw_Fp2Add h1 h2 h).mono fun _ e => by
    obtain ⟨cx, rfl⟩ := atF2.1 hx
    obtain ⟨cy, rfl⟩ := atF2.1 hy
    obtain ⟨c, d⟩ := Fp2.add_den cx cy
    exact put2 e ⟨c, by rw [d, F2.k_add]⟩
example (a b : Bool) := C59_add (.inl rfl) (.inr (.inl (by norm_num))) (demo_call3 a b (z := 48)) (demo_f2 (A := 48)) (demo_f2 (A := 96))
theorem C59_sub {X Y : K2} (h1 : SameOr z x 8) (h2 : SameOr z y 8) (h : Call3 g s S 3 z 8 x 8 y 8)
    (hx : AtF2 s.m x X) (hy : AtF2 s.m y Y) : Does g .Fp2Sub s S 3 [(z, 8)] fun t => AtF2 t.m z (X - Y) :=
  (raw_Fp2Sub h1 h2 h).mono fun _ e => by
    obtain ⟨cx, rfl⟩ := atF2.1 hx
    obtain ⟨cy, rfl⟩ := atF2.1 hy
    obtain ⟨c, d⟩ := Fp2.sub_den cx cy
    exact put2 e ⟨c, by rw [d, F2.k_sub]⟩
example (a b : Bool) := C59_sub (.inl rfl) (.inr (.inl (by norm_num))) (demo_call3 a b (z := 48)) (demo_f2 (A := 48)) (demo_f2 (A := 96))

/-- **C59** `Fp2::addNC`: exact sums where they fit -/
theorem C59_addNC (h1 : SameOr z x 8) (h2 : SameOr z y 8) (h : Call3 g s S 0 z 8 x 8 y 8)
    (ha : num s.m x 4 + num s.m y 4 < 2 ^ 256) (hb : num s.m (x + 4) 4 + num s.m (y + 4) 4 < 2 ^ 256) :
    Does g .Fp2AddNC s S 0 [(z, 8)] fun t => num t.m z 4 = num s.m x 4 + num s.m y 4 ∧
      num t.m (z + 4) 4 = num s.m (x + 4) 4 + num s.m (y + 4) 4 :=
  (raw_Fp2AddNC h1 h2 h).mono fun _ e => by
    unfold rd2 Fp2.addNC at e
    rw [R2.mk.injEq, C27_NC.2.2.1 ha, C27_NC.2.2.1 hb] at e
    exact e
example (a b : Bool) :=
  C59_addNC (.inl rfl) (.inr (.inl (by norm_num))) (demo_call3 a b (z := 48) (x := 48) (y := 96)) (by decide +kernel) (by decide +kernel)

/-- **C59** `Fp2::mul`, any overlap of the operands -/
theorem C59_mul {X Y : K2} (h : Call3 g s S 40 z 8 x 8 y 8) (hx : AtF2 s.m x X) (hy : AtF2 s.m y Y) :
    Does g .Fp2Mul s S 40 [(z, 8)] fun t => AtF2 t.m z (X * Y) :=
  (raw_Fp2Mul h).mono fun _ e => by
    obtain ⟨cx, rfl⟩ := atF2.1 hx
    obtain ⟨cy, rfl⟩ := atF2.1 hy
    obtain ⟨c, d⟩ := Fp2.mul_den cx cy
    exact put2 e ⟨c, by rw [d, F2.k_mul]⟩
example (a b : Bool) := C59_mul (demo_call3 a b (z := 50)) (demo_f2 (A := 48)) (demo_f2 (A := 52))

/-- **C59** `Fp2::square` -/
theorem C59_square {X : K2} (h1 : SameOr z x 8) (h : Call2 g s S 28 z 8 x 8) (hx : AtF2 s.m x X) :
    Does g .Fp2Square s S 28 [(z, 8)] fun t => AtF2 t.m z (X * X) :=
  (raw_Fp2Square h1 h).mono fun _ e => by
    obtain ⟨cx, rfl⟩ := atF2.1 hx
    obtain ⟨c, d⟩ := Fp2.square_den cx
    exact put2 e ⟨c, by rw [d, F2.k_mul]⟩
example (a b : Bool) := C59_square (.inl rfl) (demo_call2 a b (z := 48) 0) (demo_f2 (A := 48))

/-- **C59** `Fp2::mul_xi`: multiplication by 1 + u; z and x must be different objects (see C64) -/
theorem C59_mul_xi {X : K2} (h1 : Apart z 8 x 8) (h : Call2 g s S 3 z 8 x 8) (hx : AtF2 s.m x X) :
    Does g .Fp2MulXi s S 3 [(z, 8)] fun t => AtF2 t.m z (K2.xi * X) :=
  (raw_Fp2MulXi h1 h).mono fun _ e => by
    obtain ⟨cx, rfl⟩ := atF2.1 hx
    obtain ⟨c, d⟩ := Fp2.mulXi_den cx
    exact put2 e ⟨c, by rw [d, F2.k_mul, F2.k_xi]⟩
example (a b : Bool) := C59_mul_xi (.inl (by norm_num)) (demo_call2 a b (z := 0) 0) (demo_f2 (A := 48))

/-- **C59** `Fp2::divBy2` -/
theorem C59_divBy2 {X : K2} (h1 : SameOr z x 8) (h : Call2 g s S 4 z 8 x 8) (hx : AtF2 s.m x X) :
    Does g .Fp2DivBy2 s S 4 [(z, 8)] fun t => AtF2 t.m z ⟨X.a / 2, X.b / 2⟩ :=
  (raw_Fp2DivBy2 h1 h).mono fun _ e => by
    obtain ⟨cx, rfl⟩ := atF2.1 hx
    refine put2 e ⟨⟨(divBy2_spec cx.1).1, (divBy2_spec cx.2).1⟩, k_den.2 ⟨?_, ?_⟩⟩
    · rw [((k_den (x := rd2 4 s.m x)).1 rfl).1.symm]; exact residue_divBy2 cx.1
    · rw [((k_den (x := rd2 4 s.m x)).1 rfl).2.symm]; exact residue_divBy2 cx.2
example (a b : Bool) := C59_divBy2 (.inl rfl) (demo_call2 a b (z := 48) 0) (demo_f2 (A := 48))

/-- **C59** `Fp2::mul_Fp_0`: both coordinates times an element of Fp; the latter must be apart from z (see C64) -/
theorem C59_mul_Fp_0 {X : K2} {Y : ZMod p} (h1 : SameOr z x 8) (h2 : Apart z 8 y 4) (h : Call3 g s S 7 z 8 x 8 y 4)
    (hx : AtF2 s.m x X) (hy : AtFp s.m y Y) :
    Does g .Fp2MulFp0 s S 7 [(z, 8)] fun t => AtF2 t.m z ⟨X.a * Y, X.b * Y⟩ :=
  (raw_Fp2MulFp0 h1 h2 h).mono fun _ e => by
    obtain ⟨cx, rfl⟩ := atF2.1 hx
    refine put2 e ⟨⟨mul_lt cx.1 hy.1, mul_lt cx.2 hy.1⟩, k_den.2 ⟨?_, ?_⟩⟩
    · rw [((k_den (x := rd2 4 s.m x)).1 rfl).1.symm, ← hy.2]; exact residue_mul cx.1 hy.1
    · rw [((k_den (x := rd2 4 s.m x)).1 rfl).2.symm, ← hy.2]; exact residue_mul cx.2 hy.1
example (a b : Bool) := C59_mul_Fp_0 (.inl rfl) (.inl (by norm_num)) (demo_call3 a b (z := 48)) (demo_f2 (A := 48)) (demo_fp (A := 96))

/-! ### C60 -/

/-- **C60** `Fp2Dbl::add`, `Fp2Dbl::sub` -/
theorem C60_add {X Y : K2} (h1 : SameOr z x 16) (h2 : SameOr z y 16) (h : Call3 g s S 3 z 16 x 16 y 16)
    (hx : AtD2 s.m x X) (hy : AtD2 s.m y Y) : Does g .Fp2DblAdd s S 3 [(z, 16)] fun t => AtD2 t.m z (X + Y) :=
  (raw_Fp2DblAdd h1 h2 h).mono fun _ e => by
    obtain ⟨cx, rfl⟩ := atD2.1 hx
    obtain ⟨cy, rfl⟩ := atD2.1 hy
    obtain ⟨c, d⟩ := Fp2.dAdd_den cx cy
    exact putD2 e ⟨c, by rw [d, F2.k_add]⟩
example (a b : Bool) := C60_add (.inl rfl) (.inr (.inl (by norm_num))) (demo_call3 a b (z := 48)) (demo_d2 (A := 48)) (demo_d2 (A := 96))
theorem C60_sub {X Y : K2} (h1 : SameOr z x 16) (h2 : SameOr z y 16) (h : Call3 g s S 3 z 16 x 16 y 16)
    (hx : AtD2 s.m x X) (hy : AtD2 s.m y Y) : Does g .Fp2DblSub s S 3 [(z, 16)] fun t => AtD2 t.m z (X - Y) :=
  (raw_Fp2DblSub h1 h2 h).mono fun _ e => by
    obtain ⟨cx, rfl⟩ := atD2.1 hx
    obtain ⟨cy, rfl⟩ := atD2.1 hy
    obtain ⟨c, d⟩ := Fp2.dSub_den cx ⟨cy.1.le, cy.2.le⟩
    exact putD2 e ⟨c, by rw [d, F2.k_sub]⟩
example (a b : Bool) := C60_sub (.inl rfl) (.inr (.inl (by norm_num))) (demo_call3 a b (z := 48)) (demo_d2 (A := 48)) (demo_d2 (A := 96))

/-- **C60** `Fp2Dbl::addNC`, `Fp2Dbl::subNC`: exact where the results fit -/
theorem C60_addNC (h1 : SameOr z x 16) (h2 : SameOr z y 16) (h : Call3 g s S 4 z 16 x 16 y 16)
    (ha : num s.m x 8 + num s.m y 8 < 2 ^ 512) (hb : num s.m (x + 8) 8 + num s.m (y + 8) 8 < 2 ^ 512) :
    Does g .Fp2DblAddNC s S 4 [(z, 16)] fun t => num t.m z 8 = num s.m x 8 + num s.m y 8 ∧
      num t.m (z + 8) 8 = num s.m (x + 8) 8 + num s.m (y + 8) 8 :=
  (raw_Fp2DblAddNC h1 h2 h).mono fun _ e => by
    unfold rd2 Fp2.dAddNC at e
    rw [R2.mk.injEq, C27_NC.1 ha, C27_NC.1 hb] at e
    exact e
example (a b : Bool) :=
  C60_addNC (.inl rfl) (.inr (.inl (by norm_num))) (demo_call3 a b (z := 48) (x := 48) (y := 96)) (by decide +kernel) (by decide +kernel)
theorem C60_subNC (h1 : SameOr z x 16) (h2 : SameOr z y 16) (h : Call3 g s S 3 z 16 x 16 y 16)
    (ha : num s.m y 8 ≤ num s.m x 8) (hb : num s.m (y + 8) 8 ≤ num s.m (x + 8) 8) :
    Does g .Fp2DblSubNC s S 3 [(z, 16)] fun t => num t.m z 8 = num s.m x 8 - num s.m y 8 ∧
      num t.m (z + 8) 8 = num s.m (x + 8) 8 - num s.m (y + 8) 8 :=
  (raw_Fp2DblSubNC h1 h2 h).mono fun _ e => by
    unfold rd2 at e
    dsimp only at e
    rw [R2.mk.injEq, C27_NC.2.1 (num_lt8 h.words.m _) ha, C27_NC.2.1 (num_lt8 h.words.m _) hb] at e
    exact e
example (a b : Bool) :=
  C60_subNC (.inl rfl) (.inr (.inl (by norm_num))) (demo_call3 a b (z := 0) (x := 0) (y := 48)) (by decide +kernel) (by decide +kernel)

/-- **C60** `Fp2Dbl::neg`: p * 2^256 - x in both halves (not below p * 2^256 for 0) -/
theorem C60_neg (h0 : 0 < z) (h1 : SameOr z x 16) (h : Call2 g s S 0 z 16 x 16)
    (ha : num s.m x 8 < p * 2 ^ 256) (hb : num s.m (x + 8) 8 < p * 2 ^ 256) :
    Does g .Fp2DblNeg s S 0 [(z, 16)] fun t => num t.m z 8 = p * 2 ^ 256 - num s.m x 8 ∧
      num t.m (z + 8) 8 = p * 2 ^ 256 - num s.m (x + 8) 8 :=
  (raw_Fp2DblNeg h0 h1 h).mono fun _ e => by
    unfold rd2 at e
    dsimp only at e
    rw [R2.mk.injEq, (C27_neg ha).1, (C27_neg hb).1] at e
    exact e
example (a b : Bool) := C60_neg (by norm_num) (.inl rfl) (demo_call2 a b (z := 48) 0) (demo_d (A := 48)).1 (demo_d (A := 48 + 8)).1

/-- **C60** `Fp2Dbl::mulOpt1`, `Fp2Dbl::mulOpt2`: the product without reduction -/
theorem C60_mul {X Y : K2} (h1 : Apart z 16 x 8) (h2 : Apart z 16 y 8) (h : Call3 g s S 23 z 16 x 8 y 8)
    (hx : AtF2 s.m x X) (hy : AtF2 s.m y Y) :
    (Does g .Fp2DblMulOpt1 s S 23 [(z, 16)] fun t => AtD2 t.m z (X * Y)) ∧
    (Does g .Fp2DblMulOpt2 s S 23 [(z, 16)] fun t => AtD2 t.m z (X * Y)) := by
  obtain ⟨cx, rfl⟩ := atF2.1 hx
  obtain ⟨cy, rfl⟩ := atF2.1 hy
  obtain ⟨c, d⟩ := Fp2.mulOpt1_den cx cy
  obtain ⟨c', d'⟩ := Fp2.mulOpt2_den cx cy
  exact ⟨(raw_Fp2DblMulOpt1 h1 h2 h).mono fun _ e => putD2 e ⟨c, by rw [d, F2.k_mul]⟩,
    (raw_Fp2DblMulOpt2 h1 h2 h).mono fun _ e => putD2 e ⟨c', by rw [d', F2.k_mul]⟩⟩
example (a b : Bool) := C60_mul (.inl (by norm_num)) (.inl (by norm_num)) (demo_call3 a b (z := 0)) (demo_f2 (A := 48)) (demo_f2 (A := 96))

/-- **C60** `Fp2Dbl::mulOpt2` on operands that are not reduced (each part below 2p), as `Fp6Dbl::mul` uses it: the imaginary
part is exact, the real part exact modulo p * 2^256. -/
theorem C60_mulOpt2_wide (h1 : Apart z 16 x 8) (h2 : Apart z 16 y 8) (h : Call3 g s S 23 z 16 x 8 y 8)
    (ha : num s.m x 4 < 2 * p) (hb : num s.m (x + 4) 4 < 2 * p) (hc : num s.m y 4 < 2 * p) (hd : num s.m (y + 4) 4 < 2 * p) :
    Does g .Fp2DblMulOpt2 s S 23 [(z, 16)] fun t =>
      (num t.m z 8 : ℤ) = ((num s.m x 4 * num s.m y 4 : ℕ) - (num s.m (x + 4) 4 * num s.m (y + 4) 4 : ℕ) : ℤ) % (p * 2 ^ 256 : ℕ) ∧
      num t.m (z + 8) 8 = num s.m x 4 * num s.m (y + 4) 4 + num s.m (x + 4) 4 * num s.m y 4 :=
  (raw_Fp2DblMulOpt2 h1 h2 h).mono fun _ e => by
    rw [Fp2.mulOpt2_val (x := rd2 4 s.m x) (y := rd2 4 s.m y) ⟨ha, hb⟩ ⟨hc, hd⟩] at e
    unfold rd2 at e
    rw [R2.mk.injEq] at e
    refine ⟨?_, e.2⟩
    rw [e.1]
    have hp : ∀ {a b : ℕ}, a < 2 * p → b < 2 * p → a * b < p * 2 ^ 256 := fun h1 h2 => by
      rw [← pN_pow]; exact prod_lt2 (by omega) (by omega)
    exact (C27_addsub (hp ha hc) (hp hb hd)).2
example (a b : Bool) :=
  C60_mulOpt2_wide (.inl (by norm_num)) (.inl (by norm_num)) (demo_call3 a b (z := 0) (x := 48) (y := 96)) (by decide +kernel) (by decide +kernel) (by decide +kernel) (by decide +kernel)

/-- **C60** `Fp2Dbl::square` -/
theorem C60_square {X : K2} (h1 : Apart z 16 x 8) (h : Call2 g s S 14 z 16 x 8) (hx : AtF2 s.m x X) :
    Does g .Fp2DblSquare s S 14 [(z, 16)] fun t => AtD2 t.m z (X * X) :=
  (raw_Fp2DblSquare h1 h).mono fun _ e => by
    obtain ⟨cx, rfl⟩ := atF2.1 hx
    obtain ⟨c, d⟩ := Fp2.dSquare_den cx
    exact putD2 e ⟨c, by rw [d, F2.k_mul]⟩
example (a b : Bool) := C60_square (.inl (by norm_num)) (demo_call2 a b (z := 0) 0) (demo_f2 (A := 48))

/-- **C60** `Fp2Dbl::mod` -/
theorem C60_mod {X : K2} (h1 : Apart z 8 x 16) (h : Call2 g s S 7 z 8 x 16) (hx : AtD2 s.m x X) :
    Does g .Fp2DblMod s S 7 [(z, 8)] fun t => AtF2 t.m z X :=
  (raw_Fp2DblMod h1 h).mono fun _ e => by
    obtain ⟨cx, rfl⟩ := atD2.1 hx
    obtain ⟨c, d⟩ := Fp2.dMod_den cx
    exact put2 e ⟨c, by rw [d]⟩
example (a b : Bool) := C60_mod (.inl (by norm_num)) (demo_call2 a b (z := 0) 0) (demo_d2 (A := 48))

/-- **C60** `Fp2Dbl::mul_xi` -/
theorem C60_mul_xi {X : K2} (h1 : Apart z 16 x 16) (h : Call2 g s S 4 z 16 x 16) (hx : AtD2 s.m x X) :
    Does g .Fp2DblMulXi s S 4 [(z, 16)] fun t => AtD2 t.m z (K2.xi * X) :=
  (raw_Fp2DblMulXi h1 h).mono fun _ e => by
    obtain ⟨cx, rfl⟩ := atD2.1 hx
    obtain ⟨c, d⟩ := Fp2.dMulXi_den cx
    exact putD2 e ⟨c, by rw [d, F2.k_mul, F2.k_xi]⟩
example (a b : Bool) := C60_mul_xi (.inl (by norm_num)) (demo_call2 a b (z := 0) 0) (demo_d2 (A := 48))

/-! ### C61 -/

/-- **C61** `Fp6::add`, `Fp6::sub` -/
theorem C61_add6 {X Y : K6} (h1 : SameOr z x 24) (h2 : SameOr z y 24) (h : Call3 g s S 4 z 24 x 24 y 24)
    (hx : AtF6 s.m x X) (hy : AtF6 s.m y Y) : Does g .Fp6Add s S 4 [(z, 24)] fun t => AtF6 t.m z (X + Y) :=
  (raw_Fp6Add h1 h2 h).mono fun _ e => by
    obtain ⟨cx, rfl⟩ := atF6.1 hx
    obtain ⟨cy, rfl⟩ := atF6.1 hy
    obtain ⟨c, d⟩ := Fp6.add_den cx cy
    exact put6 e ⟨c, by rw [d, F6.k_add]⟩
example (a b : Bool) := C61_add6 (.inl rfl) (.inr (.inl (by norm_num))) (demo_call3 a b (z := 48)) (demo_f6 (A := 48)) (demo_f6 (A := 96))
theorem C61_sub6 {X Y : K6} (h1 : SameOr z x 24) (h2 : SameOr z y 24) (h : Call3 g s S 4 z 24 x 24 y 24)
    (hx : AtF6 s.m x X) (hy : AtF6 s.m y Y) : Does g .Fp6Sub s S 4 [(z, 24)] fun t => AtF6 t.m z (X - Y) :=
  (raw_Fp6Sub h1 h2 h).mono fun _ e => by
    obtain ⟨cx, rfl⟩ := atF6.1 hx
    obtain ⟨cy, rfl⟩ := atF6.1 hy
    obtain ⟨c, d⟩ := Fp6.sub_den cx cy
    exact put6 e ⟨c, by rw [d, F6.k_sub]⟩
example (a b : Bool) := C61_sub6 (.inl rfl) (.inr (.inl (by norm_num))) (demo_call3 a b (z := 48)) (demo_f6 (A := 48)) (demo_f6 (A := 96))

/-- **C61** `Fp6Dbl::mul` -/
theorem C61_dmul6 {X Y : K6} (h1 : Apart z 48 x 24) (h2 : Apart z 48 y 24) (h : Call3 g s S 88 z 48 x 24 y 24)
    (hx : AtF6 s.m x X) (hy : AtF6 s.m y Y) : Does g .Fp6DblMul s S 88 [(z, 48)] fun t => AtD6 t.m z (X * Y) :=
  (raw_Fp6DblMul h1 h2 h).mono fun _ e => by
    obtain ⟨cx, rfl⟩ := atF6.1 hx
    obtain ⟨cy, rfl⟩ := atF6.1 hy
    obtain ⟨c, d⟩ := Fp6.dMul_den' cx cy
    exact putD6 e ⟨c, by rw [d, F6.k_mul]⟩
example (a b : Bool) :=
  C61_dmul6 (.inl (by norm_num)) (.inl (by norm_num)) (demo_call3 a b (z := 0)) (demo_f6 (A := 48)) (demo_f6 (A := 96))

/-- **C61** `Fp6::mul`, any overlap -/
theorem C61_mul6 {X Y : K6} (h : Call3 g s S 137 z 24 x 24 y 24) (hx : AtF6 s.m x X) (hy : AtF6 s.m y Y) :
    Does g .Fp6Mul s S 137 [(z, 24)] fun t => AtF6 t.m z (X * Y) :=
  (raw_Fp6Mul h).mono fun _ e => by
    obtain ⟨cx, rfl⟩ := atF6.1 hx
    obtain ⟨cy, rfl⟩ := atF6.1 hy
    obtain ⟨c, d⟩ := Fp6.mul_den cx cy
    exact put6 e ⟨c, by rw [d, F6.k_mul]⟩
example (a b : Bool) := C61_mul6 (demo_call3 a b (z := 52)) (demo_f6 (A := 48)) (demo_f6 (A := 56))

/-- **C61** `Fp12::mul`, any overlap -/
theorem C61_mul12 {X Y : K12} (h : Call3 g s S 379 z 48 x 48 y 48) (hx : AtF12 s.m x X) (hy : AtF12 s.m y Y) :
    Does g .Fp12Mul s S 379 [(z, 48)] fun t => AtF12 t.m z (X * Y) :=
  (raw_Fp12Mul h).mono fun _ e => by
    obtain ⟨cx, rfl⟩ := atF12.1 hx
    obtain ⟨cy, rfl⟩ := atF12.1 hy
    refine put12 e ⟨(Fp12.mul_den cx cy).1, ?_⟩
    rw [← F12.k_mul, ← F12.ofRaw_eq cx, ← F12.ofRaw_eq cy, ← F12.ofRaw_eq (Fp12.mul_den cx cy).1]
    rfl
example (a b : Bool) := C61_mul12 (demo_call3 a b (z := 50)) (demo_f12 (A := 48)) (demo_f12 (A := 96))

/-- **C61** `Fp12::square`, in place -/
theorem C61_square12 {X : K12} (h : Call1 g s S 186 z 48) (hx : AtF12 s.m z X) :
    Does g .Fp12Square s S 186 [(z, 48)] fun t => AtF12 t.m z (X * X) :=
  (raw_Fp12Square h).mono fun _ e => by
    obtain ⟨cx, rfl⟩ := atF12.1 hx
    refine put12 e ⟨(Fp12.square_den cx).1, ?_⟩
    rw [← F12.k_mul, ← F12.ofRaw_eq cx, ← F12.square_eq, ← F12.ofRaw_eq (Fp12.square_den cx).1]
    rfl
example (a b : Bool) := C61_square12 (demo_call1 a b (z := 48) 0 0) (demo_f12 (A := 48))

/-- **C61** `Fp12Dbl::mul_Fp2_024`: z times the line value a + cv² + bvw -/
theorem C61_mul024 {X : K12} {L : K6} (h1 : Apart z 48 x 24) (h : Call2 g s S 151 z 48 x 24) (hz : AtF12 s.m z X) (hx : AtF6 s.m x L) :
    Does g .Fp12DblMulFp2_024 s S 151 [(z, 48)] fun t => AtF12 t.m z (X * K12.line L) :=
  (raw_Fp12DblMulFp2_024 h1 h).mono fun _ e => by
    obtain ⟨cz, rfl⟩ := atF12.1 hz
    obtain ⟨cx, rfl⟩ := atF6.1 hx
    obtain ⟨c, d⟩ := Fp12.mul024_den cz cx
    exact put12 e ⟨c, by rw [d, F12.k_mul, F6.k_line]⟩
example (a b : Bool) := C61_mul024 (.inl (by norm_num)) (demo_call2 a b (z := 48) 0) (demo_f12 (A := 48)) (demo_f6 (A := 96))

/-! ### C62 -/

/-- **C62** `Fp6::pointDblLineEvalWithoutP(l, R)`: R = (X : Y : Z) is replaced by its double on the twist y²z = x³ + bz³ with
b = 1 - u, and l gets the coefficients of the tangent.  The third coefficient is stored without reduction, as a number below
3p. -/
theorem C62_dblLine {l T : ℕ} {X Y Z : F2} (h : CallL g s S 136 l T) (hX : AtF2 s.m T X.k) (hY : AtF2 s.m (T + 8) Y.k)
    (hZ : AtF2 s.m (T + 16) Z.k) :
    Does g .PointDblLineEvalWithoutP s S 136 [(l, 24), (T, 24)] fun t => ∃ X' Y' Z' : F2,
      AtF2 t.m T X'.k ∧ AtF2 t.m (T + 8) Y'.k ∧ AtF2 t.m (T + 16) Z'.k ∧
      2 * X' = (Y ^ 2 - 9 * (⟨1, -1⟩ : F2) * Z ^ 2) * X * Y ∧
      4 * Y' = (Y ^ 2 + 9 * (⟨1, -1⟩ : F2) * Z ^ 2) ^ 2 - 108 * (⟨1, -1⟩ : F2) ^ 2 * Z ^ 4 ∧
      Z' = 2 * Y ^ 3 * Z ∧
      AtF2 t.m l ((⟨1, 1⟩ : F2) * (3 * (⟨1, -1⟩ : F2) * Z ^ 2 - Y ^ 2)).k ∧ AtF2 t.m (l + 8) (-(2 * Y * Z)).k ∧
      num t.m (l + 16) 4 < 3 * p ∧ num t.m (l + 20) 4 < 3 * p ∧
      residue (num t.m (l + 16) 4) = (3 * X ^ 2).k.a ∧ residue (num t.m (l + 20) 4) = (3 * X ^ 2).k.b :=
  (raw_PointDblLineEvalWithoutP h).mono fun t e => by
    obtain ⟨cX, dX⟩ := atF2.1 hX
    obtain ⟨cY, dY⟩ := atF2.1 hY
    obtain ⟨cZ, dZ⟩ := atF2.1 hZ
    obtain rfl := F2.k_inj dX
    obtain rfl := F2.k_inj dY
    obtain rfl := F2.k_inj dZ
    obtain ⟨⟨l1, l2, l3⟩, ⟨c1, c2, c3⟩, ⟨m1, m2, m3⟩, d1, d2, d3⟩ := dblLine_den cX cY cZ
    generalize pointDblLineEvalWithoutP _ _ _ = E at *
    obtain ⟨⟨la, lb, lc⟩, x', y', z'⟩ := E
    obtain ⟨el, eT⟩ := e
    unfold rd6 at el eT
    rw [R6.mk.injEq] at el eT
    dsimp only at el eT l1 l2 l3 c1 c2 c3 m1 m2 m3 d1 d2 d3
    have hc : residue lc.a = _ ∧ residue lc.b = _ := k_den.1 (congrArg F2.k m3)
    rw [← el.2.2] at l3 hc
    exact ⟨x'.den, y'.den, z'.den, put2 eT.1 ⟨c1, rfl⟩, put2 eT.2.1 ⟨c2, rfl⟩, put2 eT.2.2 ⟨c3, rfl⟩, d1, d2, d3,
      put2 el.1 ⟨l1, congrArg F2.k m1⟩, put2 el.2.1 ⟨l2, congrArg F2.k m2⟩, l3.1, l3.2, hc.1, hc.2⟩
example (a b : Bool) := C62_dblLine (demo_callL a b (l := 0) 0) (demo_obj (A := 48)) (demo_obj (A := 48 + 8)) (demo_obj (A := 48 + 16))

/-- **C62** `Fp6::pointDblLineEval(l, R, P)`: the same with the tangent evaluated at P = (Px, Py). -/
theorem C62_dblLineEval {l T P : ℕ} {X Y Z : F2} {Px Py : Fe} (h : CallLP g s S 136 l T P) (hX : AtF2 s.m T X.k)
    (hY : AtF2 s.m (T + 8) Y.k) (hZ : AtF2 s.m (T + 16) Z.k) (hPx : AtFp s.m P Px.toZ) (hPy : AtFp s.m (P + 4) Py.toZ) :
    Does g .PointDblLineEval s S 136 [(l, 24), (T, 24)] fun t => ∃ X' Y' Z' : F2,
      AtF2 t.m T X'.k ∧ AtF2 t.m (T + 8) Y'.k ∧ AtF2 t.m (T + 16) Z'.k ∧
      2 * X' = (Y ^ 2 - 9 * (⟨1, -1⟩ : F2) * Z ^ 2) * X * Y ∧
      4 * Y' = (Y ^ 2 + 9 * (⟨1, -1⟩ : F2) * Z ^ 2) ^ 2 - 108 * (⟨1, -1⟩ : F2) ^ 2 * Z ^ 4 ∧
      Z' = 2 * Y ^ 3 * Z ∧
      AtF6 t.m l ⟨((⟨1, 1⟩ : F2) * (3 * (⟨1, -1⟩ : F2) * Z ^ 2 - Y ^ 2)).k, (-(2 * Y * Z) * (⟨Py, 0⟩ : F2)).k, (3 * X ^ 2 * (⟨Px, 0⟩ : F2)).k⟩ :=
  (raw_PointDblLineEval h).mono fun t e => by
    obtain ⟨cX, dX⟩ := atF2.1 hX
    obtain ⟨cY, dY⟩ := atF2.1 hY
    obtain ⟨cZ, dZ⟩ := atF2.1 hZ
    obtain rfl := F2.k_inj dX
    obtain rfl := F2.k_inj dY
    obtain rfl := F2.k_inj dZ
    have ePx : num s.m P 4 = Px.n := residue_inj hPx.1 Px.lt hPx.2
    have ePy : num s.m (P + 4) 4 = Py.n := residue_inj hPy.1 Py.lt hPy.2
    rw [ePx, ePy] at e
    obtain ⟨⟨l1, l2, l3⟩, ⟨c1, c2, c3⟩, ⟨m1, m2, m3⟩, d1, d2, d3⟩ := dblLine_den cX cY cZ
    unfold pointDblLineEval at e
    generalize pointDblLineEvalWithoutP _ _ _ = E at *
    obtain ⟨⟨la, lb, lc⟩, x', y', z'⟩ := E
    obtain ⟨el, eT⟩ := e
    unfold rd6 at eT
    rw [R6.mk.injEq] at eT
    unfold mulFp6_24_Fp_01 at el
    dsimp only at el eT l1 l2 l3 c1 c2 c3 m1 m2 m3 d1 d2 d3
    obtain ⟨u1, u2⟩ := Fp2.mulFp0_den l2.lt3 Py
    obtain ⟨v1, v2⟩ := Fp2.mulFp0_den l3 Px
    refine ⟨x'.den, y'.den, z'.den, put2 eT.1 ⟨c1, rfl⟩, put2 eT.2.1 ⟨c2, rfl⟩, put2 eT.2.2 ⟨c3, rfl⟩, d1, d2, d3,
      put6 el ⟨⟨l1, u1, v1⟩, K6.ext (congrArg F2.k m1) (congrArg F2.k ?_) (congrArg F2.k ?_)⟩⟩
    · refine u2.trans ?_
      rw [m2]; rfl
    · refine v2.trans ?_
      rw [m3]; rfl
example (a b : Bool) :=
  C62_dblLineEval (demo_callLP a b (l := 0)) (demo_obj (A := 48)) (demo_obj (A := 48 + 8)) (demo_obj (A := 48 + 16)) (demo_fe (A := 96)) (demo_fe (A := 96 + 4))

/-! ### C63 -/

/-- the coordinates of one compressed squaring (2g2 + 6ξ g4 g5, 3(g4² + ξ g5²) - 2g3, 3(g2² + ξ g3²) - 2g4, 2g5 + 6 g2 g3) -/
noncomputable def sqC (c : F2 × F2 × F2 × F2) : F2 × F2 × F2 × F2 :=
  (2 * c.1 + 6 * ((⟨1, 1⟩ : F2) * (c.2.2.1 * c.2.2.2)), 3 * (c.2.2.1 ^ 2 + (⟨1, 1⟩ : F2) * c.2.2.2 ^ 2) - 2 * c.2.1,
    3 * (c.1 ^ 2 + (⟨1, 1⟩ : F2) * c.2.1 ^ 2) - 2 * c.2.2.1, 2 * c.2.2.2 + 6 * (c.1 * c.2.1))

/-- `Compress`: g2 = b.a, g3 = a.c, g4 = a.b, g5 = b.c of the element of Fp12 at Z -/
def AtC (m : ℕ → ℕ) (Z : ℕ) (c : F2 × F2 × F2 × F2) : Prop :=
  AtF2 m (Z + 24) c.1.k ∧ AtF2 m (Z + 16) c.2.1.k ∧ AtF2 m (Z + 8) c.2.2.1.k ∧ AtF2 m (Z + 40) c.2.2.2.k

theorem sqC_raw {r : RC} (hr : r.Canon) : (compSquare r).Canon ∧ ((compSquare r).g2.den, (compSquare r).g3.den, (compSquare r).g4.den, (compSquare r).g5.den) =
    sqC (r.g2.den, r.g3.den, r.g4.den, r.g5.den) := by
  obtain ⟨c, d⟩ := compSquare_den hr
  refine ⟨c, ?_⟩
  generalize compSquare r = q at *
  rw [show q.g2.den = q.den.g2 from rfl, show q.g3.den = q.den.g3 from rfl, show q.g4.den = q.den.g4 from rfl, show q.g5.den = q.den.g5 from rfl, d]
  unfold Cp.sq RC.den sqC F2.xi
  dsimp only
  refine Prod.ext ?_ (Prod.ext ?_ (Prod.ext ?_ ?_)) <;> dsimp only <;> ring

theorem sqC_iter {r : RC} (hr : r.Canon) (n : ℕ) : (compSquare^[n] r).Canon ∧
    ((compSquare^[n] r).g2.den, (compSquare^[n] r).g3.den, (compSquare^[n] r).g4.den, (compSquare^[n] r).g5.den) =
    sqC^[n] (r.g2.den, r.g3.den, r.g4.den, r.g5.den) := by
  induction n with
  | zero => exact ⟨hr, rfl⟩
  | succ n ih =>
    rw [Function.iterate_succ_apply', Function.iterate_succ_apply', ← ih.2]
    exact sqC_raw ih.1

/-- **C63** `Compress::square_n`: exactly n compressed squarings of the coordinates g2-g5 for any 64-bit loop count n from 1 to
2^64 - and 2^64 of them if the register with the count is 0; g0 and g1 (and `Compress` itself) are not written. -/
theorem C63_square_n {C Z n : ℕ} {c : F2 × F2 × F2 × F2} (h1 : 1 ≤ n) (h2 : n ≤ 2 ^ 64) (h : CallC g s S 105 C Z n) (hc : AtC s.m Z c) :
    Does g .CompressSquareN s S 105 [(Z + 8, 24), (Z + 40, 8)] fun t => AtC t.m Z (sqC^[n] c) :=
  (does_comp h1 h2 h).mono fun t e => by
    obtain ⟨a2, a3, a4, a5⟩ := hc
    obtain ⟨c2, d2⟩ := atF2.1 a2
    obtain ⟨c3, d3⟩ := atF2.1 a3
    obtain ⟨c4, d4⟩ := atF2.1 a4
    obtain ⟨c5, d5⟩ := atF2.1 a5
    obtain ⟨g2, g3, g4, g5⟩ := c
    obtain rfl := F2.k_inj d2
    obtain rfl := F2.k_inj d3
    obtain rfl := F2.k_inj d4
    obtain rfl := F2.k_inj d5
    obtain ⟨k1, k2⟩ := sqC_iter (r := rdC s.m Z) ⟨c2, c3, c4, c5⟩ n
    unfold rdC at e k1 k2
    dsimp only at k2
    rw [← k2]
    generalize compSquare^[n] _ = q at *
    obtain ⟨q2, q3, q4, q5⟩ := q
    rw [RC.mk.injEq] at e
    exact ⟨put2 e.1 ⟨k1.1, rfl⟩, put2 e.2.1 ⟨k1.2.1, rfl⟩, put2 e.2.2.1 ⟨k1.2.2.1, rfl⟩, put2 e.2.2.2 ⟨k1.2.2.2, rfl⟩⟩
-- 4000 squarings
example (a b : Bool) :=
  C63_square_n (by norm_num) (by norm_num) (demo_callC a b (k := 500) (by norm_num)) (c := (demoF2 (96 + 24), demoF2 (96 + 16), demoF2 (96 + 8), demoF2 (96 + 40)))
    ⟨demo_obj (A := 96 + 24), demo_obj (A := 96 + 16), demo_obj (A := 96 + 8), demo_obj (A := 96 + 40)⟩

/-- **C63** for an element x of the cyclotomic subgroup the routine leaves the coordinates of x^(2^n). -/
theorem C63_power {C Z n : ℕ} {x : F12} (h1 : 1 ≤ n) (h2 : n ≤ 2 ^ 64) (h : CallC g s S 105 C Z n) (hx : AtF12 s.m Z x.k)
    (hc : x ^ (p ^ 4 - p ^ 2 + 1) = 1) :
    Does g .CompressSquareN s S 105 [(Z + 8, 24), (Z + 40, 8)] fun t =>
      AtC t.m Z ((x ^ 2 ^ n).b.a, (x ^ 2 ^ n).a.c, (x ^ 2 ^ n).a.b, (x ^ 2 ^ n).b.c) := by
  have he : ∀ n, sqC^[n] (x.b.a, x.a.c, x.a.b, x.b.c) = ((x ^ 2 ^ n).b.a, (x ^ 2 ^ n).a.c, (x ^ 2 ^ n).a.b, (x ^ 2 ^ n).b.c) := by
    intro n
    have hs := F12.Cyclo.squareN hc n
    have hi : ∀ n, (((Cp.ofF12 x).squareN n).g2, ((Cp.ofF12 x).squareN n).g3, ((Cp.ofF12 x).squareN n).g4, ((Cp.ofF12 x).squareN n).g5) =
        sqC^[n] (x.b.a, x.a.c, x.a.b, x.b.c) := by
      intro n
      induction n with
      | zero => rfl
      | succ n ih =>
        rw [Function.iterate_succ_apply', ← ih, Cp.squareN]
        generalize (Cp.ofF12 x).squareN n = c
        obtain ⟨k1, k2⟩ := sqC_raw c.raw_canon
        have e1 : c.raw.g2.den = c.g2 := F2.den_raw _
        have e2 : c.raw.g3.den = c.g3 := F2.den_raw _
        have e3 : c.raw.g4.den = c.g4 := F2.den_raw _
        have e4 : c.raw.g5.den = c.g5 := F2.den_raw _
        rw [e1, e2, e3, e4] at k2
        rw [← k2]
        unfold Cp.square Cp.ofRaw
        rw [F2.ofRaw_eq, F2.ofRaw_eq, F2.ofRaw_eq, F2.ofRaw_eq]
    rw [← hi, hs]; rfl
  rw [← he]
  exact C63_square_n h1 h2 h ⟨hx.2.1, hx.1.2.2, hx.1.2.1, hx.2.2.2⟩
-- 40 squarings of an element of the subgroup that is not 1
example (a b : Bool) :=
  And.intro (show (⟨1, 1⟩ : F12).mapToCyclo ≠ 1 by decide +kernel) <| C63_power (by norm_num) (by norm_num) (el_callC (⟨1, 1⟩ : F12).mapToCyclo a b (k := 5) (by norm_num)) (elMem_at _)
    (F12.mapToCyclo_cyclo (by decide +kernel))

/-! ### C64 -/

theorem stuck {κ : Type} {cd : κ → List (Ins κ)} {ra : κ → ℕ → ℕ} {c d : Conf κ} {k : κ} {l : List (Ins κ)} {t : St} (h : Reach cd ra c d)
    (hc : c = ⟨k, .ret :: l, [], t⟩) : d = c := by
  subst hc
  rcases Relation.ReflTransGen.cases_head h with h | ⟨e, h, -⟩
  · exact h.symm
  · cases h

/-- **C64** the machine is deterministic: a call has at most one final state, so that what `Does` says about some final state
holds for every one. -/
theorem C64_unique {κ : Type} {cd : κ → List (Ins κ)} {ra : κ → ℕ → ℕ} {j : κ} {s t u : St} (h1 : Returns cd ra j s t)
    (h2 : Returns cd ra j s u) : t = u := by
  obtain ⟨l, h1⟩ := h1
  obtain ⟨l', h2⟩ := h2
  have key : ∀ {c d e : Conf κ}, Reach cd ra c d → Reach cd ra c e → (∃ k l t, d = ⟨k, .ret :: l, [], t⟩) → (∃ k l t, e = ⟨k, .ret :: l, [], t⟩) → d = e := by
    intro c d e hd he ⟨k, l, t, kd⟩ ⟨k', l', t', ke⟩
    induction hd using Relation.ReflTransGen.head_induction_on with
    | refl => exact (stuck he kd).symm
    | head h h' ih =>
      rcases Relation.ReflTransGen.cases_head he with rfl | ⟨f, h1, h2⟩
      · exact stuck (.head h h') ke
      · rw [h] at h1
        cases h1
        exact ih h2
  have := key h1 h2 ⟨_, _, _, rfl⟩ ⟨_, _, _, rfl⟩
  injection this

/-- **C64** calls can follow one another: if the memory ranges a call may write are apart from the stack and the tables, the
state it returns in again is one a routine can be called in (64-bit words, the same stack pointer, the tables intact). -/
theorem C64_again {d : ℕ} {j : Sub} {out : List (ℕ × ℕ)} {Q : St → Prop} (h : Env g s S d) (ho : ∀ o ∈ out, Dst g S d o.1 o.2)
    (hq : Does g j s S d out Q) : Does g j s S d out fun t => Q t ∧ Env g t S d := by
  intro ra
  obtain ⟨t, ⟨l, h1⟩, h2, h3, h4⟩ := hq ra
  have hg := reach_good (code g) ra h.words.good h1
  have fr : ∀ A n, (∀ o ∈ out, Apart o.1 o.2 A n) → Apart (S - d) (d + 1) A n → ∀ B k, A ≤ B → B + k ≤ A + n → num t.m B k = num s.m B k := by
    intro A n ha hb B k h5 h6
    refine num_congr fun i h7 h8 => h3 i (fun o ho => ?_) ?_
    · have := ha o ho
      unfold Apart at this
      omega
    · have := h.room
      unfold Apart at hb
      omega
  refine ⟨t, ⟨l, h1⟩, h2, h3, h4, ⟨⟨hg.r, hg.x, hg.m, hg.c⟩, ⟨fun i hi => ?_, ?_, ?_, ?_⟩, h.pb, h.hb, h.nb, ?_, h.room, h.top, h.stp, h.sth, h.stn⟩⟩
  · rw [fr g.pT 40 (fun o hm => (ho o hm).tp) h.stp _ _ (by omega) (by omega)]
    exact h.tables.p i hi
  · rw [fr g.hT 8 (fun o hm => (ho o hm).th) h.sth _ _ (by omega) (by omega)]
    exact h.tables.h0
  · rw [fr g.hT 8 (fun o hm => (ho o hm).th) h.sth _ _ (by omega) (by omega)]
    exact h.tables.h1
  · rw [fr g.nT 32 (fun o hm => (ho o hm).tn) h.stn _ _ (by omega) (by omega)]
    exact h.tables.n
  · rw [h2 .rsp (by decide)]
    exact h.sp
example (a b : Bool) :=
  C64_again (demo_env a b 48 48 96) (by simpa using demo_dst a b (A := 48) (n := 4) (by norm_num))
    (C57_add (demo_call3 a b (z := 48)) (demo_fp (A := 48)) (demo_fp (A := 96)))

end

/-! ### the machine runs -/

/-- what a run of at most n steps leaves in memory -/
def ranMem (a b : Bool) (n : ℕ) (j : Sub) (s : St) (Q : (ℕ → ℕ) → Bool) : Bool :=
  match run (code (demoCfg a b)) (fun _ n => n + 5) n ⟨j, code (demoCfg a b) j, [], s⟩ with
  | .ok t => Q t.m
  | _ => false

-- the modelled machine really runs the generated code
example : ∀ a b, ranMem a b 1000 .FpMul (demo 0 48 96) (fun m => num m 0 4 == Fp.mul (num demoMem 48 4) (num demoMem 96 4)) = true := by
  decide +kernel
example : ∀ a b, ranMem a b 5000 .Fp2Mul (demo 48 48 96) (fun m => rd2 4 m 48 = Fp2.mul (rd2 4 demoMem 48) (rd2 4 demoMem 96)) = true := by
  decide +kernel

theorem run_det {κ : Type} {cd : κ → List (Ins κ)} {ra : κ → ℕ → ℕ} {n : ℕ} {c d : Conf κ} {u : St} (hd : ∃ k l t, d = ⟨k, .ret :: l, [], t⟩)
    (h : Reach cd ra c d) (hr : run cd ra n c = .ok u) : u = d.s := by
  induction n generalizing c with
  | zero => cases hr
  | succ n ih =>
    rcases Relation.ReflTransGen.cases_head h with rfl | ⟨e, h1, h2⟩
    · obtain ⟨k, l, t, rfl⟩ := hd
      cases hr
      rfl
    · rw [run, h1] at hr
      exact ih h2 hr

/-- does the run in state s, with whatever return addresses, come to an end with Q -/
def ends (ra : Sub → ℕ → ℕ) (a b : Bool) (n : ℕ) (j : Sub) (s : St) (Q : St → Bool) : Bool :=
  match run (code (demoCfg a b)) ra n ⟨j, code (demoCfg a b) j, [], s⟩ with
  | .ok t => Q t
  | _ => false

theorem ends_returns {ra : Sub → ℕ → ℕ} {a b : Bool} {n : ℕ} {j : Sub} {s t : St} {Q : St → Bool} (h : ends ra a b n j s Q = true)
    (ht : Returns (code (demoCfg a b)) ra j s t) : Q t = true := by
  obtain ⟨l, ht⟩ := ht
  unfold ends at h
  split at h
  · next u hu => rwa [run_det ⟨_, _, _, rfl⟩ ht hu] at h
  · cases h

/-- the routine at the bottom of the stack of calls -/
def bottom (k : Sub) : List (Sub × List (Ins Sub)) → Sub
  | [] => k
  | f :: fs => bottom f.1 fs

theorem bind_some {α β : Type} {x : Res α} {f : α → Res β} {d : β} (h : x >>= f = .ok d) : ∃ v, x = .ok v ∧ f v = .ok d := by
  cases x <;> simp_all

theorem bottom_step {cd : Sub → List (Ins Sub)} {ra : Sub → ℕ → ℕ} {c d : Conf Sub} (h : step cd ra c = .ok d) :
    bottom d.k d.fs = bottom c.k c.fs := by
  obtain ⟨k, l, fs, s⟩ := c
  unfold step at h
  split at h
  · cases h
  · obtain ⟨x, _, h⟩ := bind_some h; cases h; rfl
  · cases h; rfl
  · obtain ⟨x, _, h⟩ := bind_some h; cases h; rfl
  · obtain ⟨x, _, h⟩ := bind_some h
    split at h
    · obtain ⟨x, _, h⟩ := bind_some h; cases h; rfl
    · cases h; rfl
  · obtain ⟨x, _, h⟩ := bind_some h; cases h; rfl
  · split at h
    · cases h
    · next e =>
      obtain ⟨x, _, h⟩ := bind_some h
      split at h
      · cases h
        simp only at e
        subst e
        rfl
      · cases h

theorem bind_noexit {α β : Type} {x : Res α} {f : α → Res β} (hx : x ≠ .exit) (hf : ∀ v, f v ≠ .exit) : (x >>= f) ≠ .exit := by
  cases x <;> simp_all

theorem load_noexit (m : ℕ → ℕ) (A : ℕ) : load m A ≠ .exit := by unfold load; split <;> simp
theorem store_noexit (m : ℕ → ℕ) (A v : ℕ) : store m A v ≠ .exit := by unfold store; split <;> simp
theorem flag_noexit {α : Type} (o : Option α) : flag o ≠ .exit := by cases o <;> simp [flag]
theorem src_noexit (s : St) (x : Src) : src s x ≠ .exit := by
  cases x <;> simp [src, load_noexit]
theorem alu_noexit (cf : Option ℕ) (a b : ℕ) (o : Alu) : alu cf a b o ≠ .exit := by
  cases o <;> simp only [alu] <;> first | exact bind_noexit (flag_noexit _) (by simp) | simp
theorem target_noexit (n : ℕ) (l : List (Ins Sub)) : target n l ≠ .exit := by
  induction l with
  | nil => simp [target]
  | cons i l ih =>
    cases i <;> simp only [target] <;> first | exact ih | (split <;> first | exact ih | simp)
theorem doOp_noexit (s : St) (o : Op) : doOp s o ≠ .exit := by
  cases o <;> simp only [doOp] <;>
    repeat' first
      | exact src_noexit _ _ | exact load_noexit _ _ | exact store_noexit _ _ _ | exact flag_noexit _ | exact alu_noexit _ _ _ _
      | (refine bind_noexit ?_ fun _ => ?_) | simp

theorem exit_step {cd : Sub → List (Ins Sub)} {ra : Sub → ℕ → ℕ} {c : Conf Sub} (h : step cd ra c = .exit) :
    ∃ l, c = ⟨c.k, .ret :: l, [], c.s⟩ := by
  obtain ⟨k, l, fs, s⟩ := c
  unfold step at h
  split at h
  · cases h
  · exact absurd h (bind_noexit (doOp_noexit _ _) (by simp))
  · cases h
  · exact absurd h (bind_noexit (target_noexit _ _) (by simp))
  · next q n l e =>
    refine absurd h (bind_noexit ?_ fun v => ?_)
    · cases q <;> simp only [holds] <;> first | exact flag_noexit _ | exact bind_noexit (flag_noexit _) (by simp)
    · split
      · exact bind_noexit (target_noexit _ _) (by simp)
      · simp
  · exact absurd h (bind_noexit (store_noexit _ _ _) (by simp))
  · next l e =>
    split at h
    · next e' => simp only at e e'; subst e e'; exact ⟨l, rfl⟩
    · refine absurd h (bind_noexit (load_noexit _ _) fun v => ?_)
      split <;> simp

theorem run_ends {ra : Sub → ℕ → ℕ} {cd : Sub → List (Ins Sub)} {n : ℕ} {c : Conf Sub} {u : St} (h : run cd ra n c = .ok u) :
    ∃ l, Reach cd ra c ⟨bottom c.k c.fs, .ret :: l, [], u⟩ := by
  induction n generalizing c with
  | zero => cases h
  | succ n ih =>
    unfold run at h
    split at h
    · next d hd =>
      obtain ⟨l, e⟩ := ih h
      rw [bottom_step hd] at e
      exact ⟨l, .head hd e⟩
    · next hd =>
      cases h
      obtain ⟨l, e⟩ := exit_step hd
      refine ⟨l, ?_⟩
      rw [e]
      exact .refl
    all_goals cases h

theorem ends_some {ra : Sub → ℕ → ℕ} {a b : Bool} {n : ℕ} {j : Sub} {s : St} {Q : St → Bool} (h : ends ra a b n j s Q = true) :
    ∃ t, Returns (code (demoCfg a b)) ra j s t := by
  unfold ends at h
  split at h
  · next u hu => exact ⟨u, run_ends hu⟩
  · cases h

/-- **C64** `Fp2::mul_xi` of an object onto itself is wrong: whatever the CPU switches, there is a call with z = x and a canonical
operand after which z does not hold (1 + u) x. -/
theorem C64_mul_xi_alias (a b : Bool) : ∃ (g : Cfg) (s : St) (S z : ℕ) (X : K2), g.interleaveLoad = a ∧ g.useMulx = b ∧
    Call2 g s S 3 z 8 z 8 ∧ AtF2 s.m z X ∧ ∀ ra t, Returns (code g) ra .Fp2MulXi s t → ¬ AtF2 t.m z (K2.xi * X) := by
  have h0 : (rd2 4 demoMem 48).Canon := by decide +kernel
  refine ⟨demoCfg a b, demo 48 48 0, 900, 48, (rd2 4 demoMem 48).den.k, rfl, rfl, demo_call2 a b 0 (by norm_num) (by norm_num) (by norm_num),
    atF2.2 ⟨h0, rfl⟩, fun ra t ht h => ?_⟩
  have e : ends ra a b 300 .Fp2MulXi (demo 48 48 0) (fun t => rd2 4 t.m 48 != Fp2.mulXi (rd2 4 demoMem 48)) = true := by
    cases a <;> cases b <;> krfl
  have e := ends_returns e ht
  obtain ⟨h1, h2⟩ := atF2.1 h
  obtain ⟨h3, h4⟩ := Fp2.mulXi_den h0
  rw [← F2.k_xi, ← F2.k_mul, ← h4] at h2
  rw [R2.den_inj h1 h3 (F2.k_inj h2)] at e
  simp at e

theorem cast_of_residueD {x y z : ℕ} (h : residueD x = 1 * residueD y + 1 * residueD z) : ((x : ℕ) : ZMod p) = ((z + y : ℕ) : ZMod p) := by
  rw [one_mul, one_mul, ← residueD_add] at h
  unfold residueD at h
  rw [add_comm z y]
  exact (div_left_inj' (pow_ne_zero _ two_ne)).1 h

theorem xi_off {m m' : ℕ → ℕ} {A : ℕ} (h : num m' (A + 8) 8 % p ≠ (num m A 8 + num m (A + 8) 8) % p) :
    ¬ AtD2 m' A (K2.xi * ⟨residueD (num m A 8), residueD (num m (A + 8) 8)⟩) := fun k =>
  h ((ZMod.natCast_eq_natCast_iff' _ _ _).1 (cast_of_residueD k.2.2))

theorem prod_off {m m' : ℕ → ℕ} {A : ℕ} (h1 : num m A 4 < p) (h2 : num m (A + 4) 4 < p)
    (h : num m' (A + 4) 4 ≠ Fp.mul (num m (A + 4) 4) (num m A 4)) :
    ¬ AtF2 m' A ⟨residue (num m A 4) * residue (num m A 4), residue (num m (A + 4) 4) * residue (num m A 4)⟩ := fun k =>
  h (residue_inj k.2.1 (mul_spec h2 h1).1 (k.2.2.trans (residue_mul h2 h1).symm))

theorem demo_small : num demoMem 48 4 < p ∧ num demoMem (48 + 4) 4 < p := by decide +kernel

theorem demo_wide : num demoMem 48 8 < p * 2 ^ 256 ∧ num demoMem (48 + 8) 8 < p * 2 ^ 256 := by decide +kernel

theorem demo_dxi : ∀ a b, ends (fun _ n => n + 5) a b 300 .Fp2DblMulXi (demo 48 48 0)
    (fun t => num t.m (48 + 8) 8 % p != (num demoMem 48 8 + num demoMem (48 + 8) 8) % p) = true := by decide +kernel

theorem demo_fp0 : ∀ a b, ends (fun _ n => n + 5) a b 2000 .Fp2MulFp0 (demo 48 48 48)
    (fun t => num t.m (48 + 4) 4 != Fp.mul (num demoMem (48 + 4) 4) (num demoMem 48 4)) = true := by decide +kernel

/-- **C64** so is `Fp2Dbl::mul_xi` of an object onto itself (here and in the next theorem with one choice of return addresses). -/
theorem C64_dbl_mul_xi_alias (a b : Bool) : ∃ (g : Cfg) (ra : Sub → ℕ → ℕ) (s : St) (S z : ℕ) (X : K2), g.interleaveLoad = a ∧
    g.useMulx = b ∧ Call2 g s S 4 z 16 z 16 ∧ AtD2 s.m z X ∧ (∃ t, Returns (code g) ra .Fp2DblMulXi s t) ∧
    ∀ t, Returns (code g) ra .Fp2DblMulXi s t → ¬ AtD2 t.m z (K2.xi * X) :=
  ⟨demoCfg a b, fun _ n => n + 5, demo 48 48 0, 900, 48, ⟨residueD (num demoMem 48 8), residueD (num demoMem (48 + 8) 8)⟩, rfl, rfl,
    demo_call2 a b 0 (by norm_num) (by norm_num) (by norm_num), ⟨⟨demo_wide.1, rfl⟩, demo_wide.2, rfl⟩, ends_some (demo_dxi a b),
    fun _ ht => xi_off (bne_iff_ne.1 (ends_returns (demo_dxi a b) ht))⟩

/-- **C64** and `Fp2::mul_Fp_0(z, x, z.a)`: the second product uses the new z.a. -/
theorem C64_mul_Fp_0_alias (a b : Bool) : ∃ (g : Cfg) (ra : Sub → ℕ → ℕ) (s : St) (S z : ℕ) (X : K2) (Y : ZMod p), g.interleaveLoad = a ∧
    g.useMulx = b ∧ Call3 g s S 7 z 8 z 8 z 4 ∧ AtF2 s.m z X ∧ AtFp s.m z Y ∧ (∃ t, Returns (code g) ra .Fp2MulFp0 s t) ∧
    ∀ t, Returns (code g) ra .Fp2MulFp0 s t → ¬ AtF2 t.m z ⟨X.a * Y, X.b * Y⟩ :=
  ⟨demoCfg a b, fun _ n => n + 5, demo 48 48 48, 900, 48, ⟨residue (num demoMem 48 4), residue (num demoMem (48 + 4) 4)⟩,
    residue (num demoMem 48 4), rfl, rfl, demo_call3 a b (by norm_num) (by norm_num) (by norm_num) (by norm_num),
    ⟨⟨demo_small.1, rfl⟩, demo_small.2, rfl⟩, ⟨demo_small.1, rfl⟩, ends_some (demo_fp0 a b),
    fun _ ht => prod_off demo_small.1 demo_small.2 (bne_iff_ne.1 (ends_returns (demo_fp0 a b) ht))⟩

end Jit
end Verif
