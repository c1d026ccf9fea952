import Verif.Jit.Progs

/-! The routines on `Fp2` and `Dbl` that the others call. -/

namespace Verif
namespace Jit

open Fp Reg

section
variable (O : Ops)

/-- operands in gp1, gp2, gp3 -/
def act3 (k n : ℕ) (al : List (ℕ × ℕ × Bool)) (f : List ℕ → List ℕ) (post : List (Reg × ℕ)) (clob : List Reg) (clobX : List ℕ) (depth : ℕ) : Act where
  args := [.ad gp1 0, .ad gp2 0, .ad gp3 0]
  len := [k * n, k * n, k * n]
  al := al
  ins := elts 1 n k ++ elts 2 n k
  outs := elts 0 n k
  f := f
  pre := []
  post := post
  clob := clob
  clobX := clobX
  depth := depth

/-- operands in gp1 (k numbers of n words), gp2 (k' numbers of n' words) -/
def act2 (k n k' n' : ℕ) (al : List (ℕ × ℕ × Bool)) (f : List ℕ → List ℕ) (clob : List Reg) (clobX : List ℕ) (depth : ℕ) : Act where
  args := [.ad gp1 0, .ad gp2 0]
  len := [k * n, k' * n']
  al := al
  ins := elts 1 n' k'
  outs := elts 0 n k
  f := f
  pre := []
  post := []
  clob := clob
  clobX := clobX
  depth := depth

/-- f on two elements of `Fp2` -/
def on2 (f : R2 → R2 → R2) (v : List ℕ) : List ℕ := l2 (f (r2 v 0) (r2 v 2))
/-- f on two elements of `Fp6` -/
def on6 (f : R6 → R6 → R6) (v : List ℕ) : List ℕ := l6 (f (r6 v 0) (r6 v 6))
/-- f on one element of `Fp2` -/
def at2 (f : R2 → R2) (v : List ℕ) : List ℕ := l2 (f (r2 v 0))

abbrev nc4 : List Reg := [gt4, gt3, gt2, gt1]

def A_Fp2Add : Act := act3 2 4 inPlace (on2 (Q2.add O)) [(rax, 4)] (rax :: addRegs) [] 0
def A_Fp2Sub : Act := act3 2 4 inPlace (on2 (Q2.sub O)) [(rax, 4)] (rax :: addRegs) [] 0
def A_Fp2AddNC : Act := act3 2 4 inPlace (on2 (Q2.addNC O)) [] nc4 [] 0
def A_DblAdd : Act := dAddA O (pt gp1) (pt gp2) (pt gp3)
def A_DblSub : Act := dSubA O (pt gp1) (pt gp2) (pt gp3)
def A_DblNC (b : Bool) : Act := dncA O b (pt gp1) (pt gp2) (pt gp3)
def A_Fp2Mul : Act := act3 2 4 [] (on2 (Q2.mul O)) [] (gp1 :: modRegs) [0, 1] 33
def A_Fp2Square : Act := act2 2 4 2 4 [(0, 1, true)] (at2 (Q2.square O)) (gp1 :: modRegs) [0, 1] 21
def A_Fp2DivBy2 : Act := act2 2 4 2 4 [(0, 1, true)] (at2 (Q2.divBy2 O)) [gt4, gt3, gt2, gt1, rdx, gt5, rax] [] 0
def A_2z3x : Act := { act2 2 4 2 4 [(0, 1, false)] (on2 (Q2.add2z3x O)) [gt4, gt3, gt2, gt1, gp3, gt5, gt6, gt7, rax, rdx] [] 0 with
  ins := elts 0 4 2 ++ elts 1 4 2 }
def A_DblMulXi : Act := act2 2 8 2 8 [(0, 1, false)] (at2 (Q2.dMulXi O)) (rax :: addRegs) [] 0
def mulRegs' : List Reg := [gt9, gt8, gt7, gt6, gt5, gt4, gt3, gt2, gt1, gt10, rax, rdx]
def A_MulOpt (f : R2 → R2 → R2) : Act :=
  { act3 2 4 [(0, 1, false), (0, 2, false)] (on2 f) [] mulRegs' [] 16 with len := [16, 8, 8], outs := elts 0 8 2 }
def A_DblSquare : Act := act2 2 8 2 4 [(0, 1, false)] (at2 (Q2.dSquare O)) [gt9, gt8, gt7, gt6, gt5, gt4, gt3, gt2, gt1, gp3, rax, rdx] [] 8
def A_Fp6Add : Act := act3 6 4 inPlace (on6 (Q6.add O)) [(rax, 4)] (rax :: addRegs) [] 0
def A_Fp6Sub : Act := act3 6 4 inPlace (on6 (Q6.sub O)) [(rax, 4)] (rax :: addRegs) [] 0

variable (g : Cfg)

def P_Fp2AddNC : List Mac := [kNC g O true (pt gp1) (pt gp2) (pt gp3), kNC g O true (pt gp1 32) (pt gp2 32) (pt gp3 32)]
def P_Fp2Mul : List Mac :=
  [o (ori .sub rsp 256), kNC g O true (pt rsp) (pt gp2) (pt gp2 32), kNC g O true (pt rsp 32) (pt gp3) (pt gp3 32),
   kMul4' g O (pt rsp 64) (pt rsp) (pt rsp 32), kMul4' g O (pt rsp 128) (pt gp2) (pt gp3),
   kMul4' g O (pt rsp 192) (pt gp2 32) (pt gp3 32), kDsnc g O gt3 gt2 gt1 gt10 (pt rsp 64) (pt rsp 128),
   kDsnc g O gt3 gt2 gt1 gt10 (pt rsp 64) (pt rsp 192), kDSub g O (pt rsp 128) (pt rsp 128) (pt rsp 192), o (.lea gp2 (pt rsp 128)),
   kCall .pFpDblMod (modA O), o (.lea gp2 (pt rsp 64)), o (ori .add gp1 32), kCall .pFpDblMod (modA O), o (ori .add rsp 256)]
def P_Fp2Square : List Mac :=
  [o (ori .sub rsp 160), kDbl1 O gt4 gt3 gt2 gt1 (pt rsp) (pt gp2 32),
   kMul4 g O gt1 gt2 gt3 gt4 gt5 gt6 gt7 gt8 gt9 gt10 (pt rsp 32) (pt rsp) (pt gp2), kMvi g,
   kAps g O gt4 gt3 gt2 gt1 (pt rsp) (pt gp2) (pt gp2 32), kNC g O true (pt gp1) (pt gp2) (pt gp2 32),
   kMul4 g O gt1 gt2 gt3 gt4 gt5 gt6 gt7 gt8 gt9 gt10 (pt rsp 96) (pt rsp) (pt gp1), o (.lea gp2 (pt rsp 96)),
   kCall .pFpDblMod (modA O), o (.lea gp2 (pt rsp 32)), o (ori .add gp1 32), kCall .pFpDblMod (modA O), o (ori .add rsp 160)]
def P_Fp2DivBy2 : List Mac := [kMvi g, kDiv g O (pt gp1) (pt gp2), kDiv g O (pt gp1 32) (pt gp2 32)]
def P_2z3x : List Mac := [kTz g O (pt gp1) (pt gp2), kTz g O (pt gp1 32) (pt gp2 32)]
def P_DblMulXi : List Mac := [kMvi g, kDSub g O (pt gp1) (pt gp2) (pt gp2 64), kDAdd g O (pt gp1 64) (pt gp2 64) (pt gp2)]
def P_MulOpt (m : Mac) : List Mac :=
  [o (ori .sub rsp 128), kNC g O true (pt rsp) (pt gp2) (pt gp2 32), kNC g O true (pt rsp 32) (pt gp3) (pt gp3 32),
   kMul4' g O (pt rsp 64) (pt gp2 32) (pt gp3 32), kMul4' g O (pt gp1) (pt gp2) (pt gp3),
   kMul4' g O (pt gp1 64) (pt rsp) (pt rsp 32), kMid g O, m, o (ori .add rsp 128)]
def P_DblSquare : List Mac :=
  [o (ori .sub rsp 64), kDbl1 O gt3 gt2 gt1 gp3 (pt rsp) (pt gp2 32),
   kMul4 g O gp3 gt1 gt2 gt3 gt4 gt5 gt6 gt7 gt8 gt9 (pt gp1 64) (pt rsp) (pt gp2), kMvi g,
   kAps g O gt3 gt2 gt1 gp3 (pt rsp 32) (pt gp2) (pt gp2 32), kNC g O true (pt rsp) (pt gp2) (pt gp2 32),
   kMul4 g O gp3 gt1 gt2 gt3 gt4 gt5 gt6 gt7 gt8 gt9 (pt gp1) (pt rsp) (pt rsp 32), o (ori .add rsp 64)]
end

section
variable (g : Cfg) (ra : Sub → ℕ → ℕ)
set_option maxRecDepth 10000

theorem run_Fp2Add (O : Ops) (vs : List ℕ) : allRun (A_Fp2Add O) 0 (kAddN g O 2 (pt gp1) (pt gp2) (pt gp3)) vs = allSpec (A_Fp2Add O) vs := by krfl
theorem run_Fp2Sub (O : Ops) (vs : List ℕ) : allRun (A_Fp2Sub O) 0 (kSubN g O 2 (pt gp1) (pt gp2) (pt gp3)) vs = allSpec (A_Fp2Sub O) vs := by krfl
theorem run_Fp2AddNC (O : Ops) (vs : List ℕ) : allRun (A_Fp2AddNC O) 0 (P_Fp2AddNC O g) vs = allSpec (A_Fp2AddNC O) vs := by krfl
theorem run_Fp2Mul (O : Ops) (vs : List ℕ) : allRun (A_Fp2Mul O) 0 (P_Fp2Mul O g) vs = allSpec (A_Fp2Mul O) vs := by krfl
theorem run_Fp2Square (O : Ops) (vs : List ℕ) : allRun (A_Fp2Square O) 0 (P_Fp2Square O g) vs = allSpec (A_Fp2Square O) vs := by krfl
theorem run_Fp2DivBy2 (O : Ops) (vs : List ℕ) : allRun (A_Fp2DivBy2 O) 0 (P_Fp2DivBy2 O g) vs = allSpec (A_Fp2DivBy2 O) vs := by krfl
theorem run_2z3x (O : Ops) (vs : List ℕ) : allRun (A_2z3x O) 0 (P_2z3x O g) vs = allSpec (A_2z3x O) vs := by krfl
theorem run_DblMulXi (O : Ops) (vs : List ℕ) : allRun (A_DblMulXi O) 0 (P_DblMulXi O g) vs = allSpec (A_DblMulXi O) vs := by krfl
theorem run_MulOpt1 (O : Ops) (vs : List ℕ) : allRun (A_MulOpt (Q2.mulOpt1 O)) 0 (P_MulOpt O g (kOpt1 g O (pt gp1) (pt gp1) (pt rsp 64))) vs =
    allSpec (A_MulOpt (Q2.mulOpt1 O)) vs := by krfl
theorem run_MulOpt2 (O : Ops) (vs : List ℕ) : allRun (A_MulOpt (Q2.mulOpt2 O)) 0 (P_MulOpt O g (kDSub g O (pt gp1) (pt gp1) (pt rsp 64))) vs =
    allSpec (A_MulOpt (Q2.mulOpt2 O)) vs := by krfl
theorem run_DblSquare (O : Ops) (vs : List ℕ) : allRun (A_DblSquare O) 0 (P_DblSquare O g) vs = allSpec (A_DblSquare O) vs := by krfl
theorem run_Fp6Add (O : Ops) (vs : List ℕ) : allRun (A_Fp6Add O) 0 (kAddN g O 6 (pt gp1) (pt gp2) (pt gp3)) vs = allSpec (A_Fp6Add O) vs := by krfl
theorem run_Fp6Sub (O : Ops) (vs : List ℕ) : allRun (A_Fp6Sub O) 0 (kSubN g O 6 (pt gp1) (pt gp2) (pt gp3)) vs = allSpec (A_Fp6Sub O) vs := by krfl

theorem fn_FpMul : SatFn g ra .pFpMul (mulA std) := fn_of_sat mul_sat rfl
theorem fn_DblMod : SatFn g ra .pFpDblMod (modA std) := fn_of_sat mod_sat rfl
theorem ok_DblMod : (kCall .pFpDblMod (modA std)).Ok g ra := call_ok (fn_DblMod g ra) rfl
theorem ok_FpMul : (kCall .pFpMul (mulA std)).Ok g ra := call_ok (fn_FpMul g ra) rfl
theorem fn_DblAdd : SatFn g ra .pFpDblAdd (A_DblAdd std) := fn_of_sat (dAdd_sat (by decide) (by decide) (by decide) rfl rfl rfl) rfl
theorem fn_DblSub : SatFn g ra .pFpDblSub (A_DblSub std) := fn_of_sat (dSub_sat (by decide) (by decide) (by decide) rfl rfl rfl) rfl
theorem fn_DblAddNC : SatFn g ra .pFpDblAddNC (A_DblNC std true) := fn_of_sat (dnc_sat true (by decide) (by decide) (by decide) rfl rfl rfl) rfl
theorem fn_DblSubNC : SatFn g ra .pFpDblSubNC (A_DblNC std false) := fn_of_sat (dnc_sat false (by decide) (by decide) (by decide) rfl rfl rfl) rfl

theorem fn_Fp2Add : SatFn g ra .pFp2Add (A_Fp2Add std) := fn_of_run rfl (run_Fp2Add g std) (by oks []) (by codes [])
theorem fn_Fp2Sub : SatFn g ra .pFp2Sub (A_Fp2Sub std) := fn_of_run rfl (run_Fp2Sub g std) (by oks []) (by codes [])
theorem fn_Fp2AddNC : SatFn g ra .pFp2AddNC (A_Fp2AddNC std) :=
  fn_of_run rfl (run_Fp2AddNC g std) (by unfold P_Fp2AddNC; oks []) (by codes [P_Fp2AddNC])
theorem fn_Fp2Mul : SatFn g ra .pFp2Mul (A_Fp2Mul std) :=
  fn_of_run rfl (run_Fp2Mul g std) (by unfold P_Fp2Mul; oks [ok_DblMod g ra]) (by codes [P_Fp2Mul, code_pFp2Mul])
theorem fn_Fp2Square : SatFn g ra .pFp2Square (A_Fp2Square std) :=
  fn_of_run rfl (run_Fp2Square g std) (by unfold P_Fp2Square; oks [ok_DblMod g ra]) (by codes [P_Fp2Square, in_Fp2_square])
theorem fn_Fp2DivBy2 : SatFn g ra .pFp2DivBy2 (A_Fp2DivBy2 std) :=
  fn_of_run rfl (run_Fp2DivBy2 g std) (by unfold P_Fp2DivBy2; oks []) (by codes [P_Fp2DivBy2])
theorem fn_2z3x : SatFn g ra .pFp2_2zAdd3x (A_2z3x std) := fn_of_run rfl (run_2z3x g std) (by unfold P_2z3x; oks []) (by codes [P_2z3x])
theorem fn_DblMulXi : SatFn g ra .pFp2DblMulXi (A_DblMulXi std) :=
  fn_of_run rfl (run_DblMulXi g std) (by unfold P_DblMulXi; oks []) (by codes [P_DblMulXi])
theorem fn_MulOpt1 : SatFn g ra .pFp2DblMulOpt1 (A_MulOpt (Q2.mulOpt1 std)) :=
  fn_of_run rfl (run_MulOpt1 g std) (by unfold P_MulOpt; oks []) (by codes [P_MulOpt, sub_Fp2Dbl_mulOpt, mulOptMid, reduceIte])
theorem fn_MulOpt2 : SatFn g ra .pFp2DblMulOpt2 (A_MulOpt (Q2.mulOpt2 std)) :=
  fn_of_run rfl (run_MulOpt2 g std) (by unfold P_MulOpt; oks []) (by codes [P_MulOpt, sub_Fp2Dbl_mulOpt, mulOptMid, reduceIte, OfNat.ofNat_ne_one])
theorem fn_DblSquare : SatFn g ra .pFp2DblSquare (A_DblSquare std) :=
  fn_of_run rfl (run_DblSquare g std) (by unfold P_DblSquare; oks []) (by codes [P_DblSquare, code_pFp2DblSquare])
theorem fn_Fp6Add : SatFn g ra .pFp6Add (A_Fp6Add std) := fn_of_run rfl (run_Fp6Add g std) (by oks []) (by codes [])
theorem fn_Fp6Sub : SatFn g ra .pFp6Sub (A_Fp6Sub std) := fn_of_run rfl (run_Fp6Sub g std) (by oks []) (by codes [])

theorem ok_DblAdd : (kCall .pFpDblAdd (A_DblAdd std)).Ok g ra := call_ok (fn_DblAdd g ra) rfl
theorem ok_DblSub : (kCall .pFpDblSub (A_DblSub std)).Ok g ra := call_ok (fn_DblSub g ra) rfl
theorem ok_DblAddNC : (kCall .pFpDblAddNC (A_DblNC std true)).Ok g ra := call_ok (fn_DblAddNC g ra) rfl
theorem ok_DblSubNC : (kCall .pFpDblSubNC (A_DblNC std false)).Ok g ra := call_ok (fn_DblSubNC g ra) rfl
theorem ok_Fp2Add : (kCall .pFp2Add (A_Fp2Add std)).Ok g ra := call_ok (fn_Fp2Add g ra) rfl
theorem ok_Fp2Sub : (kCall .pFp2Sub (A_Fp2Sub std)).Ok g ra := call_ok (fn_Fp2Sub g ra) rfl
theorem ok_Fp2AddNC : (kCall .pFp2AddNC (A_Fp2AddNC std)).Ok g ra := call_ok (fn_Fp2AddNC g ra) rfl
theorem ok_Fp2Mul : (kCall .pFp2Mul (A_Fp2Mul std)).Ok g ra := call_ok (fn_Fp2Mul g ra) rfl
theorem ok_Fp2Square : (kCall .pFp2Square (A_Fp2Square std)).Ok g ra := call_ok (fn_Fp2Square g ra) rfl
theorem ok_Fp2DivBy2 : (kCall .pFp2DivBy2 (A_Fp2DivBy2 std)).Ok g ra := call_ok (fn_Fp2DivBy2 g ra) rfl
theorem ok_2z3x : (kCall .pFp2_2zAdd3x (A_2z3x std)).Ok g ra := call_ok (fn_2z3x g ra) rfl
theorem ok_DblMulXi : (kCall .pFp2DblMulXi (A_DblMulXi std)).Ok g ra := call_ok (fn_DblMulXi g ra) rfl
theorem ok_MulOpt1 : (kCall .pFp2DblMulOpt1 (A_MulOpt (Q2.mulOpt1 std))).Ok g ra := call_ok (fn_MulOpt1 g ra) rfl
theorem ok_MulOpt2 : (kCall .pFp2DblMulOpt2 (A_MulOpt (Q2.mulOpt2 std))).Ok g ra := call_ok (fn_MulOpt2 g ra) rfl
theorem ok_DblSquare : (kCall .pFp2DblSquare (A_DblSquare std)).Ok g ra := call_ok (fn_DblSquare g ra) rfl
theorem ok_Fp6Add : (kCall .pFp6Add (A_Fp6Add std)).Ok g ra := call_ok (fn_Fp6Add g ra) rfl
theorem ok_Fp6Sub : (kCall .pFp6Sub (A_Fp6Sub std)).Ok g ra := call_ok (fn_Fp6Sub g ra) rfl
end

end Jit
end Verif
