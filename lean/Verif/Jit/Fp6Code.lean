import Verif.Jit.Fp2Code

/-! The routines on `Fp6` that the others call. -/

namespace Verif
namespace Jit

open Fp Reg

section
variable (g : Cfg) (O : Ops)

/-! more groups of blocks -/
def kDAddNCN (n : ℕ) (z x y : Addr) : List Mac :=
  (List.range n).flatMap fun i => kSet .pFpDblAddNC (A_DblNC O true) (z.plus (64 * i)) (x.plus (64 * i)) (y.plus (64 * i))
def kMulXi2 (z x : Addr) : List Mac := [kMvi g, o (.lea gp1 z), o (.lea gp2 x), kCall .pFp2DblMulXi (A_DblMulXi O)]
def kDbl2 (j : Sub) (a : Act) (z x y : Addr) : List Mac :=
  kSet j a z x y ++ [o (ori .add gp1 64), o (ori .add gp2 64), o (ori .add gp3 64), kCall j a]
def kMod2 : List Mac :=
  [o (.toX 2 gp2), kCall .pFpDblMod (modA O), o (.ofX gp2 2), o (ori .add gp2 64), o (ori .add gp1 32), kCall .pFpDblMod (modA O)]
def kXi (z x : Addr) : List Mac := [kMvi g, kSub g O z x (x.plus 32), kAdd g O (z.plus 32) x (x.plus 32)]
def kGamma (z x y : Addr) : List Mac :=
  kXi g O z (x.plus 128) ++ kSet .pFp2Add (A_Fp2Add O) z z y ++ kSet .pFp2Add (A_Fp2Add O) (z.plus 64) x (y.plus 64) ++
  kSet .pFp2Add (A_Fp2Add O) (z.plus 128) (x.plus 64) (y.plus 128)

variable {g : Cfg} {O : Ops} {ra : Sub → ℕ → ℕ}
theorem code_kDAddNCN (n : ℕ) (z x y : Addr) : (kDAddNCN O n z x y).flatMap Mac.code = in_FpDbl_addNCn n z x y := by
  unfold kDAddNCN in_FpDbl_addNCn
  rw [List.flatMap_assoc]
  simp only [code_kSet, in_FpDbl_addNC]
theorem code_kMulXi2 (z x : Addr) : (kMulXi2 g O z x).flatMap Mac.code = in_Fp2Dbl_mul_xi g z x := rfl
theorem code_kDblAdd2 (z x y : Addr) : (kDbl2 .pFpDblAdd (A_DblAdd O) z x y).flatMap Mac.code = in_Fp2Dbl_add z x y := by
  unfold kDbl2 in_Fp2Dbl_add
  rw [List.flatMap_append, code_kSet, List.append_assoc]
  rfl
theorem code_kDblSub2 (z x y : Addr) : (kDbl2 .pFpDblSub (A_DblSub O) z x y).flatMap Mac.code = in_Fp2Dbl_sub z x y := by
  unfold kDbl2 in_Fp2Dbl_sub
  rw [List.flatMap_append, code_kSet, List.append_assoc]
  rfl
theorem code_kMod2 : (kMod2 O).flatMap Mac.code = in_Fp2Dbl_mod := rfl

theorem ok_DAddNCN {n : ℕ} {z x y : Addr} (h : (kCall .pFpDblAddNC (A_DblNC std true)).Ok g ra) : ∀ m ∈ kDAddNCN std n z x y, m.Ok g ra := by
  intro m hm
  obtain ⟨i, -, hi⟩ := List.mem_flatMap.1 hm
  exact ok_set h m hi
theorem ok_flatMap {α : Type} {l : List α} {f : α → List Mac} (h : ∀ i, ∀ m ∈ f i, m.Ok g ra) : ∀ m ∈ l.flatMap f, m.Ok g ra := by
  intro m hm
  obtain ⟨i, -, hi⟩ := List.mem_flatMap.1 hm
  exact h i m hi
theorem ok_Dbl2 {j : Sub} {a : Act} {z x y : Addr} (h : (kCall j a).Ok g ra) : ∀ m ∈ kDbl2 j a z x y, m.Ok g ra :=
  ok_append (ok_set h) (ok_cons op_ok (ok_cons op_ok (ok_cons op_ok (ok_cons h ok_nil))))
theorem ok_Mod2 : ∀ m ∈ kMod2 std, m.Ok g ra :=
  ok_cons op_ok (ok_cons (ok_DblMod g ra) (ok_cons op_ok (ok_cons op_ok (ok_cons op_ok (ok_cons (ok_DblMod g ra) ok_nil)))))
theorem ok_xi {z x : Reg} {dz dx : ℕ} (h : nots addRegs [z, x] = true) : ∀ m ∈ kXi g std (pt z dz) (pt x dx), m.Ok g ra :=
  have h3 : nots addRegs [z, x, x] = true := by
    simp only [nots, List.all_cons, List.all_nil, Bool.and_true, Bool.and_eq_true] at h ⊢; exact ⟨h.1, h.2, h.2⟩
  ok_cons ok_mvi (ok_cons (ok_sub h3) (ok_cons (ok_add h3) ok_nil))
theorem ok_gamma {z x y : Reg} {dz dx dy : ℕ} (h : nots addRegs [z, x] = true) : ∀ m ∈ kGamma g std (pt z dz) (pt x dx) (pt y dy), m.Ok g ra :=
  ok_append (ok_append (ok_append (ok_xi h) (ok_set (ok_Fp2Add g ra))) (ok_set (ok_Fp2Add g ra))) (ok_set (ok_Fp2Add g ra))
theorem ok_MulXi2 {z x : Addr} : ∀ m ∈ kMulXi2 g std z x, m.Ok g ra :=
  ok_cons ok_mvi (ok_cons op_ok (ok_cons op_ok (ok_cons (ok_DblMulXi g ra) ok_nil)))
end

section
variable (O : Ops) (g : Cfg)
def gpRegs : List Reg := [gt9, gt8, gt7, gt6, gt5, gt4, gt3, gt2, gt1, gt10, rax, rdx, gp1, gp2, gp3]

def A_Fp6DblMul : Act where
  args := [.xm 3, .xm 4, .xm 5]
  len := [48, 24, 24]
  al := [(0, 1, false), (0, 2, false)]
  ins := elts 1 4 6 ++ elts 2 4 6
  outs := elts 0 8 6
  f := on6 (Q6.dMul O)
  pre := []
  post := []
  clob := gpRegs
  clobX := []
  depth := 81
def A_Fp6Mul : Act := act3 6 4 [] (on6 (Q6.mul O)) [] gpRegs [0, 1, 2, 3, 4, 5] 130

def P_Fp6DblMul : List Mac :=
  [o (ori .sub rsp 512), o (.ofX gt8 3), o (.ofX gt9 4), o (.ofX gt10 5)] ++
  kL3 .pFp2DblMulOpt1 (A_MulOpt (Q2.mulOpt1 O)) (pt rsp 128) (pt gt9) (pt gt10) ++
  [o (.ofX gt9 4)] ++ [o (.ofX gt10 5)] ++ kL3 .pFp2DblMulOpt1 (A_MulOpt (Q2.mulOpt1 O)) (pt rsp 256) (pt gt9 64) (pt gt10 64) ++
  [o (.ofX gt9 4)] ++ [o (.ofX gt10 5)] ++ kL3 .pFp2DblMulOpt1 (A_MulOpt (Q2.mulOpt1 O)) (pt rsp 384) (pt gt9 128) (pt gt10 128) ++
  [o (.ofX gt9 4)] ++ [o (.ofX gt10 5)] ++ kSet .pFp2AddNC (A_Fp2AddNC O) (pt rsp) (pt gt9 64) (pt gt9 128) ++ kSet .pFp2AddNC (A_Fp2AddNC O) (pt rsp 64) (pt gt10 64) (pt gt10 128) ++
  [o (.ofX gt8 3)] ++ kL3 .pFp2DblMulOpt2 (A_MulOpt (Q2.mulOpt2 O)) (pt gt8 256) (pt rsp) (pt rsp 64) ++
  [o (.ofX gt8 3)] ++ [o (.ofX gt9 4)] ++ [o (.ofX gt10 5)] ++ kDAddNCN O 2 (pt gt8 128) (pt rsp 256) (pt rsp 384) ++
  kSet .pFpDblSub (A_DblSub O) (pt gt8 256) (pt gt8 256) (pt gt8 128) ++ kSet .pFpDblSubNC (A_DblNC O false) (pt gt8 320) (pt gt8 320) (pt gt8 192) ++
  kMulXi2 g O (pt gt8 128) (pt gt8 256) ++ kDbl2 .pFpDblAdd (A_DblAdd O) (pt gt8) (pt gt8 128) (pt rsp 128) ++
  kSet .pFp2AddNC (A_Fp2AddNC O) (pt rsp) (pt gt9) (pt gt9 64) ++ kSet .pFp2AddNC (A_Fp2AddNC O) (pt rsp 64) (pt gt10) (pt gt10 64) ++
  kL3 .pFp2DblMulOpt2 (A_MulOpt (Q2.mulOpt2 O)) (pt gt8 256) (pt rsp) (pt rsp 64) ++
  [o (.ofX gt8 3)] ++ [o (.ofX gt9 4)] ++ [o (.ofX gt10 5)] ++ kDAddNCN O 2 (pt gt8 128) (pt rsp 128) (pt rsp 256) ++
  kSet .pFpDblSub (A_DblSub O) (pt gt8 256) (pt gt8 256) (pt gt8 128) ++ kSet .pFpDblSubNC (A_DblNC O false) (pt gt8 320) (pt gt8 320) (pt gt8 192) ++
  [kOpt1 g O (pt gt8 128) (pt rsp 384) (pt rsp 448)] ++
  [kDAdd g O (pt gt8 192) (pt rsp 384) (pt rsp 448)] ++
  kDbl2 .pFpDblAdd (A_DblAdd O) (pt gt8 128) (pt gt8 128) (pt gt8 256) ++
  kSet .pFp2AddNC (A_Fp2AddNC O) (pt rsp) (pt gt9) (pt gt9 128) ++ kSet .pFp2AddNC (A_Fp2AddNC O) (pt rsp 64) (pt gt10) (pt gt10 128) ++
  kL3 .pFp2DblMulOpt2 (A_MulOpt (Q2.mulOpt2 O)) (pt gt8 256) (pt rsp) (pt rsp 64) ++
  [o (.ofX gt8 3)] ++ kDAddNCN O 2 (pt rsp 384) (pt rsp 384) (pt rsp 128) ++
  kSet .pFpDblSub (A_DblSub O) (pt gt8 256) (pt gt8 256) (pt rsp 384) ++ [kDAdd g O (pt gt8 256) (pt gt8 256) (pt rsp 256)] ++
  kSet .pFpDblSubNC (A_DblNC O false) (pt gt8 320) (pt gt8 320) (pt rsp 448) ++ kSet .pFpDblAddNC (A_DblNC O true) (pt gt8 320) (pt gt8 320) (pt rsp 320) ++
  [o (ori .add rsp 512)]
def P_Fp6Mul : List Mac :=
  [o (ori .sub rsp 384), o (.toX 2 gp1), o (.toX 3 rsp), o (.toX 4 gp2), o (.toX 5 gp3), kCall .pFp6DblMul (A_Fp6DblMul O)] ++
  ((List.range 6).flatMap fun i =>
    (if i = 0 then [o (.ofX gp1 2), o (mv gp2 rsp)] else [o (.ofX gp1 2), o (ori .add gp1 (32 * i)), o (.lea gp2 (pt rsp (64 * i)))]) ++
    [kCall .pFpDblMod (modA O)]) ++ [o (ori .add rsp 384)]
end

section
variable (g : Cfg) (ra : Sub → ℕ → ℕ)
set_option maxRecDepth 20000

theorem run_Fp6DblMul (O : Ops) (vs : List ℕ) : allRun (A_Fp6DblMul O) 0 (P_Fp6DblMul O g) vs = allSpec (A_Fp6DblMul O) vs := by krfl
theorem run_Fp6Mul (O : Ops) (vs : List ℕ) : allRun (A_Fp6Mul O) 0 (P_Fp6Mul O) vs = allSpec (A_Fp6Mul O) vs := by krfl

theorem fn_Fp6DblMul : SatFn g ra .pFp6DblMul (A_Fp6DblMul std) :=
  fn_of_run rfl (run_Fp6DblMul g std)
    (by
      unfold P_Fp6DblMul
      oks [ok_DAddNCN (ok_DblAddNC g ra), ok_Dbl2 (ok_DblAdd g ra), ok_MulXi2, ok_Mod2, ok_DblSub g ra, ok_DblSubNC g ra, ok_Fp2AddNC g ra,
        ok_MulOpt1 g ra, ok_MulOpt2 g ra, ok_DblAddNC g ra])
    (by rcases g with ⟨a, b, c⟩; cases a <;> cases b <;> krfl)
theorem ok_Fp6DblMul : (kCall .pFp6DblMul (A_Fp6DblMul std)).Ok g ra := call_ok (fn_Fp6DblMul g ra) rfl
theorem fn_Fp6Mul : SatFn g ra .pFp6Mul (A_Fp6Mul std) :=
  fn_of_run rfl (run_Fp6Mul std)
    (by
      unfold P_Fp6Mul
      refine ok_append (ok_append (by oks [ok_Fp6DblMul g ra]) ?_) (by oks [])
      refine ok_flatMap fun i => ok_append ?_ (by oks [ok_DblMod g ra])
      split <;> oks [])
    (by
      show _ = (P_Fp6Mul std).flatMap Mac.code ++ [.ret]
      rfl)
theorem ok_Fp6Mul : (kCall .pFp6Mul (A_Fp6Mul std)).Ok g ra := call_ok (fn_Fp6Mul g ra) rfl
end

end Jit
end Verif
