import Verif.Jit.Machine

/-! The code generator `PairingCode` of src/zm2.cpp (lines 428-3573) for Linux and without `BN_SUPPORT_SNARK`: each function
below is the C++ member function of (nearly) the same name and returns the instructions it emits.  `align` only inserts
no-operations between routines and is left out; so are the counters of `DEBUG_COUNT`. -/

namespace Verif
namespace Jit

open Reg

/-- What the emitted code depends on: the two switches of `detectCpu` (zm2.cpp:258-310) and the places of the tables
`s_pTbl`, `Fp::halfTbl_` and `Fp::Dbl::pNTbl_`, in words. -/
structure Cfg where
  interleaveLoad : Bool
  useMulx : Bool
  pT : ℕ
  hT : ℕ
  nT : ℕ

/-- The routines.  `p...` are the internal ones reached by `call`, the others the entry points stored in function pointers by
`init` (zm2.cpp:3306-3532). -/
inductive Sub where
  | pFpMul | pFp2Neg | pFp2Add | pFp2Sub | pFp2AddNC | pFpDblMod | pFp2Square | pFp2Mul | pFp2DivBy2 | pFp2_2zAdd3x
  | pFpDblAdd | pFpDblSub | pFpDblAddNC | pFpDblSubNC | pFp2DblMulXi | pFp2DblMulOpt1 | pFp2DblMulOpt2 | pFp2DblSquare
  | pFp6Add | pFp6Sub | pFp6DblMul | pFp6Mul
  | FpAdd | FpSub | FpAddNC | FpSubNC | FpNeg | FpShr1 | FpShr2 | FpMul | FpPreInv
  | DblAdd | DblAddNC | DblNeg | DblSub | DblSubNC | DblMul | DblMod
  | Fp2Add | Fp2AddNC | Fp2Sub | Fp2Mul | Fp2MulXi | Fp2Square | Fp2MulFp0 | Fp2DivBy2
  | Fp2DblAdd | Fp2DblAddNC | Fp2DblNeg | Fp2DblSub | Fp2DblSubNC | Fp2DblMulOpt1 | Fp2DblMulOpt2 | Fp2DblSquare | Fp2DblMod
  | Fp2DblMulXi
  | Fp6Add | Fp6Sub | PointDblLineEval | PointDblLineEvalWithoutP | Fp6DblMul | Fp6Mul
  | CompressSquareN | Fp12Square | Fp12Mul | Fp12DblMulFp2_024
  deriving DecidableEq, Repr

abbrev Code := List (Ins Sub)

def ops (l : List Op) : Code := l.map .op

/-! registers, zm2.cpp:3222-3244 -/
abbrev gp1 := rdi
abbrev gp2 := rsi
abbrev gp3 := r9
abbrev gt1 := r8
abbrev gt2 := rcx
abbrev gt3 := r10
abbrev gt4 := r11
abbrev gt5 := r12
abbrev gt6 := r13
abbrev gt7 := r14
abbrev gt8 := r15
abbrev gt9 := rbp
abbrev gt10 := rbx

/-- `ptr [q + n]` -/
def pt (q : Reg) (n : ℕ := 0) : Addr := { base := q, disp := n }

/-! ### instructions in short -/
/-- `mov(d, ptr [a])` -/
def ld (d : Reg) (a : Addr) : Op := .mov d (.m a)
/-- `mov(d, q)` -/
def mv (d q : Reg) : Op := .mov d (.r q)
/-- `mov(d, n)` -/
def mvi (d : Reg) (n : ℕ) : Op := .mov d (.i n)
/-- `o(d, q)` -/
def orr (o : Alu) (d q : Reg) : Op := .alu o d (.r q)
/-- `o(d, ptr [a])` -/
def orm (o : Alu) (d : Reg) (a : Addr) : Op := .alu o d (.m a)
/-- `o(d, n)` -/
def ori (o : Alu) (d : Reg) (n : ℕ) : Op := .alu o d (.i n)

/-- zm2.cpp:432-439 -/
def load_rm (z3 z2 z1 z0 : Reg) (m : Addr) : List Op :=
  [ld z0 m, ld z1 (m.plus 8), ld z2 (m.plus 16), ld z3 (m.plus 24)]
/-- zm2.cpp:443-449 -/
def store_mr (m : Addr) (x3 x2 x1 x0 : Reg) : List Op :=
  [.st m x0, .st (m.plus 8) x1, .st (m.plus 16) x2, .st (m.plus 24) x3]
/-- `add_rr` zm2.cpp:453-460, `sub_rr` 551-558; `o` is add or sub, `c` adc or sbb -/
def chain_rr (o c : Alu) (z3 z2 z1 z0 x3 x2 x1 x0 : Reg) : List Op :=
  [orr o z0 x0, orr c z1 x1, orr c z2 x2, orr c z3 x3]
def add_rr := chain_rr .add .adc
def sub_rr := chain_rr .sub .sbb
/-- `add_rm` zm2.cpp:464-471, `adc_rm` 484-491, `sub_rm` 562-569, `sbb_rm` 573-580 -/
def chain_rm (o c : Alu) (z3 z2 z1 z0 : Reg) (m : Addr) : List Op :=
  [orm o z0 m, orm c z1 (m.plus 8), orm c z2 (m.plus 16), orm c z3 (m.plus 24)]
def add_rm := chain_rm .add .adc
def adc_rm := chain_rm .adc .adc
def sub_rm := chain_rm .sub .sbb
def sbb_rm := chain_rm .sbb .sbb

/-- first instruction of an addition or subtraction -/
def o1 (isAdd withCarry : Bool) : Alu := if withCarry then (if isAdd then .adc else .sbb) else (if isAdd then .add else .sub)
/-- the following ones -/
def o2 (isAdd : Bool) : Alu := if isAdd then .adc else .sbb

variable (g : Cfg)

/-- `&s_pTbl[i]` -/
def pTblAt (i : ℕ) : ℕ := 8 * (g.pT + 4 * i)

/-- `load_add_rm` zm2.cpp:492-519, `load_sub_rm` 520-547 -/
def load_op_rm (isAdd : Bool) (z3 z2 z1 z0 : Reg) (mx my : Addr) (withCarry : Bool) : List Op :=
  if g.interleaveLoad then
    [ld z0 mx, orm (o1 isAdd withCarry) z0 my,
     ld z1 (mx.plus 8), orm (o2 isAdd) z1 (my.plus 8),
     ld z2 (mx.plus 16), orm (o2 isAdd) z2 (my.plus 16),
     ld z3 (mx.plus 24), orm (o2 isAdd) z3 (my.plus 24)]
  else load_rm z3 z2 z1 z0 mx ++ chain_rm (o1 isAdd withCarry) (o2 isAdd) z3 z2 z1 z0 my
def load_add_rm := load_op_rm g true
def load_sub_rm := load_op_rm g false

/-- `in_Fp_add_carry` zm2.cpp:581-607, `in_Fp_sub_carry` 608-634 -/
def in_Fp_op_carry (isAdd : Bool) (mz mx my : Addr) (withCarry : Bool) : List Op :=
  if g.interleaveLoad then
    [ld gt1 mx, orm (o1 isAdd withCarry) gt1 my, .st mz gt1,
     ld gt2 (mx.plus 8), orm (o2 isAdd) gt2 (my.plus 8), .st (mz.plus 8) gt2,
     ld gt3 (mx.plus 16), orm (o2 isAdd) gt3 (my.plus 16), .st (mz.plus 16) gt3,
     ld gt4 (mx.plus 24), orm (o2 isAdd) gt4 (my.plus 24), .st (mz.plus 24) gt4]
  else load_op_rm g isAdd gt4 gt3 gt2 gt1 mx my withCarry ++ store_mr mz gt4 gt3 gt2 gt1
/-- zm2.cpp:635-650 -/
def in_Fp_addNC (mz mx my : Addr) := in_Fp_op_carry g true mz mx my false
def in_Fp_subNC (mz mx my : Addr) := in_Fp_op_carry g false mz mx my false
def in_Fp_adcNC (mz mx my : Addr) := in_Fp_op_carry g true mz mx my true
def in_Fp_sbbNC (mz mx my : Addr) := in_Fp_op_carry g false mz mx my true

/-- zm2.cpp:656-671 -/
def smart_set_gp (mz mx my : Addr) : List Op :=
  [.lea gp1 mz, if mx = mz then mv gp2 gp1 else .lea gp2 mx,
   if my = mz then mv gp3 gp1 else if my = mx then mv gp3 gp2 else .lea gp3 my]

/-- `smart_set_gp` and a `call` -/
def setCall (j : Sub) (mz mx my : Addr) : Code := ops (smart_set_gp mz mx my) ++ [.call j]

/-- zm2.cpp:672-681 -/
def in_FpDbl_addNC (mz mx my : Addr) : Code := setCall .pFpDblAddNC mz mx my
def in_FpDbl_subNC (mz mx my : Addr) : Code := setCall .pFpDblSubNC mz mx my

/-- zm2.cpp:682-701 -/
def make_Fp_addNC (n : ℕ) : Code :=
  ops ((List.range n).flatMap fun i =>
    load_add_rm g rax r9 r10 r11 (pt rsi (32 * i)) (pt rdx (32 * i)) false ++ store_mr (pt rdi (32 * i)) rax r9 r10 r11)
  ++ [.ret]
/-- zm2.cpp:702-719 -/
def make_Fp_subNC : Code :=
  ops (load_sub_rm g rsi r9 r10 r11 (pt rsi) (pt rdx) false ++ store_mr (pt rdi) rsi r9 r10 r11) ++ [.ret]

/-- zm2.cpp:726-747 -/
def in_Fp_add_modp : List Op :=
  [mv gt5 gt1, mv gt6 gt2, mv gt7 gt3, mv rdx gt4] ++ sub_rm gt4 gt3 gt2 gt1 (pt rax) ++
  [.cmovc gt1 gt5, .cmovc gt2 gt6, .cmovc gt3 gt7, .cmovc gt4 rdx]
/-- zm2.cpp:752-758 -/
def in_Fp_add1 (mz mx my : Addr) : List Op :=
  load_add_rm g gt4 gt3 gt2 gt1 mx my false ++ in_Fp_add_modp ++ store_mr mz gt4 gt3 gt2 gt1
/-- zm2.cpp:764-793 -/
def in_Fp_sub_modp : List Op :=
  [orr .sbb rdx rdx, mv gt5 rdx, mv gt6 rdx, mv gt7 rdx,
   orm .and rdx (pt rax), orm .and gt5 (pt rax 8), orm .and gt6 (pt rax 16), orm .and gt7 (pt rax 24)] ++
  add_rr gt4 gt3 gt2 gt1 gt7 gt6 gt5 rdx
/-- zm2.cpp:798-803 -/
def in_Fp_sub1 (mz mx my : Addr) : List Op :=
  load_sub_rm g gt4 gt3 gt2 gt1 mx my false ++ in_Fp_sub_modp ++ store_mr mz gt4 gt3 gt2 gt1
/-- zm2.cpp:807-814 -/
def in_FpDbl_add1 (mz mx my : Addr) : List Op :=
  [mvi rax (pTblAt g 1)] ++ in_Fp_addNC g mz mx my ++ load_add_rm g gt4 gt3 gt2 gt1 (mx.plus 32) (my.plus 32) true ++
  in_Fp_add_modp ++ store_mr (mz.plus 32) gt4 gt3 gt2 gt1
/-- zm2.cpp:818-825 -/
def sub_FpDbl_sub (mz mx my : Addr) : List Op :=
  [mvi rax (pTblAt g 1)] ++ in_Fp_subNC g mz mx my ++ load_sub_rm g gt4 gt3 gt2 gt1 (mx.plus 32) (my.plus 32) true ++
  in_Fp_sub_modp ++ store_mr (mz.plus 32) gt4 gt3 gt2 gt1
/-- zm2.cpp:826-830 -/
def in_FpDbl_sub1 (mz mx my : Addr) : Code := setCall .pFpDblSub mz mx my

/-- `add(gp1, 64); add(gp2, 64); add(gp3, 64)` -/
def next64 : List Op := [ori .add gp1 64, ori .add gp2 64, ori .add gp3 64]
/-- zm2.cpp:854-862 -/
def in_Fp2Dbl_add (mz mx my : Addr) : Code := setCall .pFpDblAdd mz mx my ++ ops next64 ++ [.call .pFpDblAdd]
/-- zm2.cpp:870-878 -/
def in_Fp2Dbl_sub (mz mx my : Addr) : Code := setCall .pFpDblSub mz mx my ++ ops next64 ++ [.call .pFpDblSub]
/-- zm2.cpp:879-885 -/
def in_Fp_add (n : ℕ) (mz mx my : Addr) : List Op :=
  mvi rax (pTblAt g 1) :: (List.range n).flatMap fun i => in_Fp_add1 g (mz.plus (32 * i)) (mx.plus (32 * i)) (my.plus (32 * i))
/-- zm2.cpp:963-969 -/
def in_Fp_sub (n : ℕ) (mz mx my : Addr) : List Op :=
  mvi rax (pTblAt g 1) :: (List.range n).flatMap fun i => in_Fp_sub1 g (mz.plus (32 * i)) (mx.plus (32 * i)) (my.plus (32 * i))

/-- zm2.cpp:887-898; `i` is the number of the label `@@` -/
def in_Fp_neg1 (i : ℕ) (mz mx : Addr) : Code :=
  ops (load_rm gt4 gt3 gt2 gt1 mx ++ [mv rdx gt1, orr .or rdx gt2, orr .or rdx gt3, orr .or rdx gt4]) ++
  .jcc .z i :: (ops (load_sub_rm g gt4 gt3 gt2 gt1 (pt rax) mx false) ++ .lab i :: ops (store_mr mz gt4 gt3 gt2 gt1))
/-- zm2.cpp:899-905 -/
def in_Fp_neg (n : ℕ) (mz mx : Addr) : Code :=
  .op (mvi rax (pTblAt g 1)) :: (List.range n).flatMap fun i => in_Fp_neg1 g i (mz.plus (32 * i)) (mx.plus (32 * i))
/-- zm2.cpp:906-917 -/
def in_Fp2_neg (mz mx : Addr) : Code := ops [.lea gp1 mz, if mx = mz then mv gp2 gp1 else .lea gp2 mx] ++ [.call .pFp2Neg]
/-- zm2.cpp:926-935, 958-962 -/
def in_Fp2_add (mz mx my : Addr) : Code := setCall .pFp2Add mz mx my
def in_Fp2_sub (mz mx my : Addr) : Code := setCall .pFp2Sub mz mx my
def in_Fp2_addNC (mz mx my : Addr) : Code := setCall .pFp2AddNC mz mx my
/-- zm2.cpp:970-987 -/
def in_FpDbl_add (n : ℕ) (mz mx my : Addr) : List Op :=
  (List.range n).flatMap fun i => in_FpDbl_add1 g (mz.plus (64 * i)) (mx.plus (64 * i)) (my.plus (64 * i))
def in_FpDbl_addNCn (n : ℕ) (mz mx my : Addr) : Code :=
  (List.range n).flatMap fun i => in_FpDbl_addNC (mz.plus (64 * i)) (mx.plus (64 * i)) (my.plus (64 * i))
def in_FpDbl_sub (n : ℕ) (mz mx my : Addr) : List Op :=
  (List.range n).flatMap fun i => sub_FpDbl_sub g (mz.plus (64 * i)) (mx.plus (64 * i)) (my.plus (64 * i))

/-! ### stack frame, zm2.cpp:326-341, 3257-3305 -/

/-- `tbl[i - 3]` for i = 5, ..., 10 -/
def gtSaved (n : ℕ) : List (ℕ × Reg) :=
  [(5, gt5), (6, gt6), (7, gt7), (8, gt8), (9, gt9), (10, gt10)].filter fun q => q.1 ≤ n
/-- the number of bytes taken from the stack -/
def frameP (gtn numQword : ℕ) : ℕ := 8 * ((gtn - 4) + numQword)
/-- zm2.cpp:3257-3282 -/
def storeReg (gtn numQword : ℕ) : List Op :=
  (if 0 < frameP gtn numQword then [ori .sub rsp (frameP gtn numQword)] else []) ++
  (gtSaved gtn).map (fun q => .st (pt rsp (frameP gtn numQword - 8 * (q.1 - 4))) q.2) ++ [mv r9 rdx]
/-- zm2.cpp:3286-3305 -/
def restoreReg (gtn numQword : ℕ) : List Op :=
  (gtSaved gtn).map (fun q => ld q.2 (pt rsp (frameP gtn numQword - 8 * (q.1 - 4)))) ++
  (if 0 < frameP gtn numQword then [ori .add rsp (frameP gtn numQword)] else [])
/-- `MakeStackFrame` -/
def frame (gtn numQword : ℕ) (body : Code) : Code :=
  ops (storeReg gtn numQword) ++ (body ++ (ops (restoreReg gtn numQword) ++ [.ret]))

/-- zm2.cpp:1029-1054 -/
def make_Fp_neg : Code :=
  ops (load_rm r8 r9 r10 r11 (pt rsi) ++ [mv rax r11, orr .or rax r10, orr .or rax r9, orr .or rax r8]) ++
  .jcc .z 0 :: (ops (mvi rax (pTblAt g 1) :: load_sub_rm g r8 r9 r10 r11 (pt rax) (pt rsi) false) ++
  .lab 0 :: (ops (store_mr (pt rdi) r8 r9 r10 r11) ++ [.ret]))
/-- zm2.cpp:1058-1064 -/
def shrn (x3 x2 x1 x0 : Reg) (n : ℕ) : List Op := [.shrd x0 x1 n, .shrd x1 x2 n, .shrd x2 x3 n, .shr x3 n]
/-- zm2.cpp:1068-1078 -/
def shr1 (x3 x2 x1 x0 : Reg) : List Op := shrn x3 x2 x1 x0 1
def shl1 (x3 x2 x1 x0 : Reg) : List Op := add_rr x3 x2 x1 x0 x3 x2 x1 x0
/-- zm2.cpp:1083-1094 -/
def sub_Fp_divBy2 (z x : Addr) : List Op :=
  [ld rdx x, ori .and rdx 1, .shl rdx 5] ++ load_rm gt4 gt3 gt2 gt1 x ++ shr1 gt4 gt3 gt2 gt1 ++
  [mvi gt5 (8 * g.hT), orr .add rdx gt5] ++ add_rm gt4 gt3 gt2 gt1 (pt rdx) ++ store_mr z gt4 gt3 gt2 gt1
/-- zm2.cpp:1125-1142 -/
def make_Fp_shr (n : ℕ) : Code :=
  ops (load_rm r8 r9 r10 r11 (pt rsi) ++ shrn r8 r9 r10 r11 n ++ store_mr (pt rdi) r8 r9 r10 r11) ++ [.ret]

/-- zm2.cpp:1147-1182 -/
def mul4x1 (py : Addr) (x t3 t2 t1 t0 t : Reg) : List Op :=
  if g.useMulx then
    [mv rdx x, .mulx t1 t0 (.m py), .mulx t2 rax (.m (py.plus 8)), orr .add t1 rax, .mulx x rax (.m (py.plus 16)),
     orr .adc t2 rax, .mulx rdx rax (.m (py.plus 24)), orr .adc x rax, ori .adc rdx 0]
  else
    [ld rax py, .mul (.r x), mv t0 rax, mv t1 rdx, ld rax (py.plus 8), .mul (.r x), mv t rax, mv t2 rdx,
     ld rax (py.plus 16), .mul (.r x), mv t3 rax, mv rax x, mv x rdx, .mul (.m (py.plus 24)),
     orr .add t1 t, orr .adc t2 t3, orr .adc x rax, ori .adc rdx 0]

/-- zm2.cpp:1195-1222 -/
def montgomery1 (c4 c3 c2 c1 c0 px y p t0 t1 t2 t3 t4 : Reg) (isFirst : Bool) : List Op :=
  (if isFirst then mul4x1 g (pt px) y c3 c2 c1 c0 c4 ++ [mv c4 rdx]
   else mul4x1 g (pt px) y t3 t2 t1 t0 t4 ++ add_rr y c2 c1 c0 c3 t2 t1 t0 ++ [orr .adc c4 rdx]) ++
  [mvi rax Fp.pp, .mul (.r c0), mv c3 rax] ++ mul4x1 g (pt p) c3 t3 t2 t1 t0 t4 ++
  [orr .add c0 t0, orr .adc c1 t1, orr .adc c2 t2, orr .adc c3 y, orr .adc c4 rdx, ori .adc c0 0]

/-- zm2.cpp:1228-1265 -/
def Fp_mul : List Op :=
  [.toX 0 gp1, mvi gp1 (pTblAt g 1), .toX 1 gp3, ld gp3 (pt gp3)] ++
  montgomery1 g gt1 gt8 gt4 gt3 gt2 gp2 gp3 gp1 gt5 gt6 gt7 gt9 gt10 true ++
  [.ofX gp3 1, ld gp3 (pt gp3 8)] ++
  montgomery1 g gt2 gt1 gt8 gt4 gt3 gp2 gp3 gp1 gt5 gt6 gt7 gt9 gt10 false ++
  [.ofX gp3 1, ld gp3 (pt gp3 16)] ++
  montgomery1 g gt3 gt2 gt1 gt8 gt4 gp2 gp3 gp1 gt5 gt6 gt7 gt9 gt10 false ++
  [.ofX gp3 1, ld gp3 (pt gp3 24)] ++
  montgomery1 g gt4 gt3 gt2 gt1 gt8 gp2 gp3 gp1 gt5 gt6 gt7 gt9 gt10 false ++
  [mv gt5 gt1, mv gt6 gt2, mv gt7 gt3, mv rdx gt4] ++ sub_rm gt4 gt3 gt2 gt1 (pt gp1) ++
  [.cmovc gt1 gt5, .cmovc gt2 gt6, .cmovc gt3 gt7, .cmovc gt4 rdx, .ofX gp1 0] ++ store_mr (pt gp1) gt4 gt3 gt2 gt1

/-- zm2.cpp:1302-1374 -/
def mul4x4 (pz px py : Addr) (t9 t8 t7 t6 t5 t4 t3 t2 t1 t0 : Reg) : List Op :=
  (if g.useMulx then
    [ld rdx px, .mulx t0 rax (.m py), .st pz rax, .mulx t1 rax (.m (py.plus 8)), orr .add t0 rax,
     .mulx t2 rax (.m (py.plus 16)), orr .adc t1 rax, .mulx t3 rax (.m (py.plus 24)), orr .adc t2 rax, ori .adc t3 0]
   else
    [ld t5 px, ld rax py, .mul (.r t5), .st pz rax, mv t0 rdx, ld rax (py.plus 8), .mul (.r t5), mv t3 rax, mv t1 rdx,
     ld rax (py.plus 16), .mul (.r t5), mv t4 rax, mv t2 rdx, ld rax (py.plus 24), .mul (.r t5), orr .add t0 t3, mvi t3 0,
     orr .adc t1 t4, orr .adc t2 rax, orr .adc t3 rdx]) ++
  [ld t9 (px.plus 8)] ++ mul4x1 g py t9 t8 t7 t6 t5 t4 ++ add_rr t3 t2 t1 t0 t9 t7 t6 t5 ++
  [ori .adc rdx 0, mv t8 rdx, .st (pz.plus 8) t0] ++
  [ld t9 (px.plus 16)] ++ mul4x1 g py t9 t7 t6 t5 t4 t0 ++ add_rr t8 t3 t2 t1 t9 t6 t5 t4 ++
  [ori .adc rdx 0, mv t7 rdx, .st (pz.plus 16) t1] ++
  [ld t9 (px.plus 24)] ++ mul4x1 g py t9 t6 t5 t4 t1 t0 ++ add_rr t7 t8 t3 t2 t9 t5 t4 t1 ++
  [ori .adc rdx 0] ++ store_mr (pz.plus 24) t7 t8 t3 t2 ++ [.st (pz.plus 56) rdx]

/-- zm2.cpp:1381-1466 -/
def mont_mod : List Op :=
  [.toX 0 gp1, ld gp1 (pt gp2), mvi rax Fp.pp, .mul (.r gp1), mvi gp3 (pTblAt g 1), mv gt7 rax] ++
  mul4x1 g (pt gp3) gt7 gt4 gt3 gt2 gt1 gt8 ++
  [orr .add gt1 gp1, orm .adc gt2 (pt gp2 8), orm .adc gt3 (pt gp2 16), orm .adc gt7 (pt gp2 24),
   ld gt4 (pt gp2 32), orr .adc gt4 rdx, ld gt8 (pt gp2 40), ori .adc gt8 0, ld gt9 (pt gp2 48), ori .adc gt9 0,
   ld gt10 (pt gp2 56), ori .adc gt10 0] ++
  [mvi rax Fp.pp, .mul (.r gt2), mv gp1 rax, .toX 1 gt10] ++ mul4x1 g (pt gp3) gp1 gt1 gt5 gp2 gt6 gt10 ++ [.ofX gt10 1] ++
  add_rr gt4 gt7 gt3 gt2 gp1 gt5 gp2 gt6 ++ [orr .adc gt8 rdx, ori .adc gt9 0, ori .adc gt10 0] ++
  [mvi rax Fp.pp, .mul (.r gt3), mv gp1 rax] ++ mul4x1 g (pt gp3) gp1 gt1 gt5 gp2 gt6 gt2 ++
  add_rr gt8 gt4 gt7 gt3 gp1 gt5 gp2 gt6 ++ [orr .adc gt9 rdx, ori .adc gt10 0] ++
  [mvi rax Fp.pp, .mul (.r gt7), mv gp1 rax] ++ mul4x1 g (pt gp3) gp1 gt1 gt5 gp2 gt6 gt2 ++
  add_rr gt9 gt8 gt4 gt7 gp1 gt5 gp2 gt6 ++ [orr .adc gt10 rdx] ++
  [mv gp1 gt4, mv gt1 gt8, mv gt2 gt9, mv gt3 gt10] ++ sub_rm gt10 gt9 gt8 gt4 (pt gp3) ++
  [.cmovc gt4 gp1, .cmovc gt8 gt1, .cmovc gt9 gt2, .cmovc gt10 gt3, .ofX gp1 0] ++ store_mr (pt gp1) gt10 gt9 gt8 gt4

/-- zm2.cpp:1510-1535 -/
def in_Fp2_mul_xi (mz mx : Addr) : List Op :=
  mvi rax (pTblAt g 1) :: (in_Fp_sub1 g mz mx (mx.plus 32) ++ in_Fp_add1 g (mz.plus 32) mx (mx.plus 32))

/-- zm2.cpp:1546-1578; `i` and `i + 1` are the numbers of the labels `.neg` and `.exit` -/
def in_FpDbl_neg (i : ℕ) (mz mx : Addr) : Code :=
  ops (load_rm gt4 gt3 gt2 gt1 mx ++ [mv rdx gt4, orr .or rdx gt3, orr .or rdx gt2, orr .or rdx gp1] ++
    load_rm gt4 gt3 gt2 gt1 (mx.plus 32) ++ [orr .or rdx gt4, orr .or rdx gt3, orr .or rdx gt2, orr .or rdx gp1]) ++
  .jcc .nz i :: (ops (store_mr mz rdx rdx rdx rdx ++ store_mr (mz.plus 32) rdx rdx rdx rdx) ++
  .jmp (i + 1) :: .lab i :: (ops (mvi rax (pTblAt g 0) :: in_Fp_subNC g mz (pt rax) mx ++
    in_Fp_sbbNC g (mz.plus 32) (pt rax 32) (mx.plus 32)) ++ [.lab (i + 1)]))

/-- zm2.cpp:1627-1633 -/
def in_Fp2Dbl_mul_xi (mz mx : Addr) : Code :=
  ops [mvi rax (pTblAt g 1), .lea gp1 mz, .lea gp2 mx] ++ [.call .pFp2DblMulXi]

/-- zm2.cpp:1660-1669 -/
def in_Fp2Dbl_mod : Code :=
  ops [.toX 2 gp2] ++ .call .pFpDblMod :: (ops [.ofX gp2 2, ori .add gp2 64, ori .add gp1 32] ++ [.call .pFpDblMod])

/-- zm2.cpp:1686-1705 -/
def fast_modp (x3 x2 x1 x0 t0 t1 t2 t3 : Reg) : List Op :=
  [mv rdx x3, .shr rdx 61, .shl rdx 5, mvi rax (pTblAt g 0)] ++
  sub_rm x3 x2 x1 x0 { base := rax, idx := some rdx } ++ [orr .sbb rdx rdx] ++ load_rm t3 t2 t1 t0 (pt rax 32) ++
  [orr .and t0 rdx, orr .and t1 rdx, orr .and t2 rdx, orr .and t3 rdx] ++ add_rr x3 x2 x1 x0 t3 t2 t1 t0

/-- zm2.cpp:1717-1774: t at rsp, d0 at rsp + 32, d1 at rsp + 96 -/
def in_Fp2_square : Code :=
  ops ([ori .sub rsp 160] ++ load_rm gt4 gt3 gt2 gt1 (pt gp2 32) ++ add_rr gt4 gt3 gt2 gt1 gt4 gt3 gt2 gt1 ++
    store_mr (pt rsp) gt4 gt3 gt2 gt1 ++
    mul4x4 g (pt rsp 32) (pt rsp) (pt gp2) gt10 gt9 gt8 gt7 gt6 gt5 gt4 gt3 gt2 gt1 ++
    [mvi rax (pTblAt g 1)] ++ load_add_rm g gt4 gt3 gt2 gt1 (pt gp2) (pt rax) false ++ sub_rm gt4 gt3 gt2 gt1 (pt gp2 32) ++
    store_mr (pt rsp) gt4 gt3 gt2 gt1 ++ in_Fp_op_carry g true (pt gp1) (pt gp2) (pt gp2 32) false ++
    mul4x4 g (pt rsp 96) (pt rsp) (pt gp1) gt10 gt9 gt8 gt7 gt6 gt5 gt4 gt3 gt2 gt1 ++ [.lea gp2 (pt rsp 96)]) ++
  .call .pFpDblMod :: (ops [.lea gp2 (pt rsp 32), ori .add gp1 32] ++ .call .pFpDblMod :: ops [ori .add rsp 160])

/-- zm2.cpp:1787-1795 -/
def sub_Fp2Dbl_subNC (pz px : Addr) (t3 t2 t1 t0 : Reg) : List Op :=
  load_sub_rm g t3 t2 t1 t0 pz px false ++ store_mr pz t3 t2 t1 t0 ++
  load_sub_rm g t3 t2 t1 t0 (pz.plus 32) (px.plus 32) true ++ store_mr (pz.plus 32) t3 t2 t1 t0

/-- zm2.cpp:1802-1813 -/
def in_FpDbl_subOpt1 (mz mx my : Addr) : List Op :=
  [mvi rax (8 * (g.nT + 16))] ++ load_rm gt4 gt3 gt2 gt1 mx ++ [orm .add gt4 (pt rax 24)] ++
  load_add_rm g rdx gt7 gt6 gt5 (mx.plus 32) (pt rax 32) true ++ sub_rm gt4 gt3 gt2 gt1 my ++ store_mr mz gt4 gt3 gt2 gt1 ++
  sbb_rm rdx gt7 gt6 gt5 (my.plus 32) ++ store_mr (mz.plus 32) rdx gt7 gt6 gt5

/-- the register list of the calls of `mul4x4` with gt10 last -/
def mul4x4' (pz px py : Addr) : List Op := mul4x4 g pz px py gt9 gt8 gt7 gt6 gt5 gt4 gt3 gt2 gt1 gt10

/-- zm2.cpp:1816-1860: s, t, d0, d1, d2 at rsp + 0, 32, 64, 128, 192 -/
def code_pFp2Mul : Code :=
  ops ([ori .sub rsp 256] ++ in_Fp_addNC g (pt rsp) (pt gp2) (pt gp2 32) ++ in_Fp_addNC g (pt rsp 32) (pt gp3) (pt gp3 32) ++
    mul4x4' g (pt rsp 64) (pt rsp) (pt rsp 32) ++ mul4x4' g (pt rsp 128) (pt gp2) (pt gp3) ++
    mul4x4' g (pt rsp 192) (pt gp2 32) (pt gp3 32) ++
    sub_Fp2Dbl_subNC g (pt rsp 64) (pt rsp 128) gt3 gt2 gt1 gt10 ++ sub_Fp2Dbl_subNC g (pt rsp 64) (pt rsp 192) gt3 gt2 gt1 gt10 ++
    sub_FpDbl_sub g (pt rsp 128) (pt rsp 128) (pt rsp 192) ++ [.lea gp2 (pt rsp 128)]) ++
  .call .pFpDblMod :: (ops [.lea gp2 (pt rsp 64), ori .add gp1 32] ++ .call .pFpDblMod :: (ops [ori .add rsp 256] ++ [.ret]))

/-- zm2.cpp:1870-1980.  Labels: 0 `.lp`, 1 `.v_even`, 2 `.next3`, 3 `.u_even`, 4 `.exit`.
v = gt2:gt1:gp3:gp2, u = gt6:gt5:gt4:gt3, s = gt10:gt9:gt8:gt7, r = gp1:rax:rsp[1]:rsp[0] -/
def preInv_head : List Op :=
  [mvi rdx (pTblAt g 1)] ++ load_rm gt6 gt5 gt4 gt3 (pt rdx) ++
  [ld gt2 (pt gp2 24), ld gt1 (pt gp2 16), ld gp3 (pt gp2 8), ld gp2 (pt gp2), orr .xor gt10 gt10, .lea gt7 (pt gt10 1),
   mv gt8 gt10, mv gt9 gt10, .st (pt rsp) gt10, .st (pt rsp 8) gt10, .st (pt rsp 16) gp1, orr .xor rax rax, orr .xor gp1 gp1,
   .pxor 4 4, .pxor 5 5, .toX 5 gt7]
/-- zm2.cpp:1920-1923 -/
def preInv_test : List Op := [mv rdx gp2, orr .or rdx gp3, orr .or rdx gt1, orr .or rdx gt2]
/-- zm2.cpp:1929-1933 -/
def preInv_cmp : List Op := [.toX 0 gp2, .toX 1 gp3, .toX 2 gt1, .toX 3 gt2] ++ sub_rr gt2 gt1 gp3 gp2 gt6 gt5 gt4 gt3
/-- zm2.cpp:1935-1938 -/
def preInv_adds : List Op := [orm .add gt7 (pt rsp), orm .adc gt8 (pt rsp 8), orr .adc gt9 rax, orr .adc gt10 gp1]
/-- zm2.cpp:1940-1947 -/
def preInv_veven : List Op :=
  shr1 gt2 gt1 gp3 gp2 ++ [ld rdx (pt rsp), .alum .add (pt rsp) (.r rdx), ld rdx (pt rsp 8), .alum .adc (pt rsp 8) (.r rdx),
   orr .adc rax rax, orr .adc gp1 gp1, .paddd 4 5]
/-- zm2.cpp:1951-1959 -/
def preInv_next3 : List Op :=
  [.ofX gp2 0, .ofX gp3 1, .ofX gt1 2, .ofX gt2 3] ++ sub_rr gt6 gt5 gt4 gt3 gt2 gt1 gp3 gp2 ++
  [.alum .add (pt rsp) (.r gt7), .alum .adc (pt rsp 8) (.r gt8), orr .adc rax gt9, orr .adc gp1 gt10]
/-- zm2.cpp:1961-1963 -/
def preInv_ueven : List Op := shr1 gt6 gt5 gt4 gt3 ++ shl1 gt10 gt9 gt8 gt7 ++ [.paddd 4 5]
/-- zm2.cpp:1969-1977 -/
def preInv_exit : List Op :=
  [mvi rdx (pTblAt g 2)] ++ load_rm gt10 gt9 gt8 gt7 (pt rdx) ++ [orm .sub gt7 (pt rsp), orm .sbb gt8 (pt rsp 8), orr .sbb gt9 rax,
   orr .sbb gt10 gp1, ld gp1 (pt rsp 16)] ++ store_mr (pt gp1) gt10 gt9 gt8 gt7 ++ [.ofX rax 4]
def code_FpPreInv : Code :=
  frame 10 4 (ops (preInv_head g) ++ .lab 0 :: (ops preInv_test ++ .jcc .z 4 :: (ops [.test gt3 1] ++ .jcc .z 3 ::
    (ops [.test gp2 1] ++ .jcc .z 1 :: (ops preInv_cmp ++ .jcc .cy 2 :: (ops preInv_adds ++ .lab 1 :: (ops preInv_veven ++
    .jmp 0 :: .lab 2 :: (ops preInv_next3 ++ .lab 3 :: (ops preInv_ueven ++ .jmp 0 :: .lab 4 :: ops (preInv_exit g))))))))))

/-- zm2.cpp:2003-2047: s, t, d0 at rsp + 0, 32, 64 -/
def sub_Fp2Dbl_mulOpt (mode : ℕ) : Code :=
  ops ([ori .sub rsp 128] ++ in_Fp_addNC g (pt rsp) (pt gp2) (pt gp2 32) ++ in_Fp_addNC g (pt rsp 32) (pt gp3) (pt gp3 32) ++
    mul4x4' g (pt rsp 64) (pt gp2 32) (pt gp3 32) ++ mul4x4' g (pt gp1) (pt gp2) (pt gp3) ++
    mul4x4' g (pt gp1 64) (pt rsp) (pt rsp 32) ++
    load_sub_rm g gt3 gt2 gt1 gt10 (pt gp1 64) (pt gp1) false ++ load_sub_rm g gt7 gt6 gt5 gt4 (pt gp1 96) (pt gp1 32) true ++
    sub_rm gt3 gt2 gt1 gt10 (pt rsp 64) ++ sbb_rm gt7 gt6 gt5 gt4 (pt rsp 96) ++
    store_mr (pt gp1 64) gt3 gt2 gt1 gt10 ++ store_mr (pt gp1 96) gt7 gt6 gt5 gt4 ++
    (if mode = 1 then in_FpDbl_subOpt1 g (pt gp1) (pt gp1) (pt rsp 64) else sub_FpDbl_sub g (pt gp1) (pt gp1) (pt rsp 64)) ++
    [ori .add rsp 128]) ++ [.ret]

/-- `movq(z.r_, xm3); movq(x.r_, xm4); movq(y.r_, xm5)` -/
def ldz (z : Reg) : Code := ops [.ofX z 3]
def ldx (x : Reg) : Code := ops [.ofX x 4]
def ldy (y : Reg) : Code := ops [.ofX y 5]
/-- `lea(gp1, ptr [a]); lea(gp2, ptr [b]); lea(gp3, ptr [c]); call(j)` -/
def lea3 (j : Sub) (a b c : Addr) : Code := ops [.lea gp1 a, .lea gp2 b, .lea gp3 c] ++ [.call j]
/-- `lea(gp1, ptr [a]); lea(gp2, ptr [b]); call(j)` -/
def lea2 (j : Sub) (a b : Addr) : Code := ops [.lea gp1 a, .lea gp2 b] ++ [.call j]

/-- zm2.cpp:2103-2260.  z in gt8 (a, b, c at 0, 128, 256), x in gt9 and y in gt10 (0, 64, 128); t0, t1 at rsp + 0, 64, T0, T1, T2
at rsp + 128, 256, 384 -/
def code_pFp6DblMul : Code :=
  ops [ori .sub rsp 512, .ofX gt8 3, .ofX gt9 4, .ofX gt10 5] ++
  lea3 .pFp2DblMulOpt1 (pt rsp 128) (pt gt9) (pt gt10) ++
  ldx gt9 ++ ldy gt10 ++ lea3 .pFp2DblMulOpt1 (pt rsp 256) (pt gt9 64) (pt gt10 64) ++
  ldx gt9 ++ ldy gt10 ++ lea3 .pFp2DblMulOpt1 (pt rsp 384) (pt gt9 128) (pt gt10 128) ++
  ldx gt9 ++ ldy gt10 ++ in_Fp2_addNC (pt rsp) (pt gt9 64) (pt gt9 128) ++ in_Fp2_addNC (pt rsp 64) (pt gt10 64) (pt gt10 128) ++
  ldz gt8 ++ lea3 .pFp2DblMulOpt2 (pt gt8 256) (pt rsp) (pt rsp 64) ++
  ldz gt8 ++ ldx gt9 ++ ldy gt10 ++ in_FpDbl_addNCn 2 (pt gt8 128) (pt rsp 256) (pt rsp 384) ++
  in_FpDbl_sub1 (pt gt8 256) (pt gt8 256) (pt gt8 128) ++ in_FpDbl_subNC (pt gt8 320) (pt gt8 320) (pt gt8 192) ++
  in_Fp2Dbl_mul_xi g (pt gt8 128) (pt gt8 256) ++ in_Fp2Dbl_add (pt gt8) (pt gt8 128) (pt rsp 128) ++
  in_Fp2_addNC (pt rsp) (pt gt9) (pt gt9 64) ++ in_Fp2_addNC (pt rsp 64) (pt gt10) (pt gt10 64) ++
  lea3 .pFp2DblMulOpt2 (pt gt8 256) (pt rsp) (pt rsp 64) ++
  ldz gt8 ++ ldx gt9 ++ ldy gt10 ++ in_FpDbl_addNCn 2 (pt gt8 128) (pt rsp 128) (pt rsp 256) ++
  in_FpDbl_sub1 (pt gt8 256) (pt gt8 256) (pt gt8 128) ++ in_FpDbl_subNC (pt gt8 320) (pt gt8 320) (pt gt8 192) ++
  ops (in_FpDbl_subOpt1 g (pt gt8 128) (pt rsp 384) (pt rsp 448)) ++
  ops (in_FpDbl_add1 g (pt gt8 192) (pt rsp 384) (pt rsp 448)) ++
  in_Fp2Dbl_add (pt gt8 128) (pt gt8 128) (pt gt8 256) ++
  in_Fp2_addNC (pt rsp) (pt gt9) (pt gt9 128) ++ in_Fp2_addNC (pt rsp 64) (pt gt10) (pt gt10 128) ++
  lea3 .pFp2DblMulOpt2 (pt gt8 256) (pt rsp) (pt rsp 64) ++
  ldz gt8 ++ in_FpDbl_addNCn 2 (pt rsp 384) (pt rsp 384) (pt rsp 128) ++
  in_FpDbl_sub1 (pt gt8 256) (pt gt8 256) (pt rsp 384) ++ ops (in_FpDbl_add1 g (pt gt8 256) (pt gt8 256) (pt rsp 256)) ++
  in_FpDbl_subNC (pt gt8 320) (pt gt8 320) (pt rsp 448) ++ in_FpDbl_addNC (pt gt8 320) (pt gt8 320) (pt rsp 320) ++
  ops [ori .add rsp 512] ++ [.ret]

/-- zm2.cpp:2275-2300 -/
def code_pFp6Mul : Code :=
  ops [ori .sub rsp 384, .toX 2 gp1, .toX 3 rsp, .toX 4 gp2, .toX 5 gp3] ++ [.call .pFp6DblMul] ++
  ((List.range 6).flatMap fun i =>
    ops (if i = 0 then [.ofX gp1 2, mv gp2 rsp] else [.ofX gp1 2, ori .add gp1 (32 * i), .lea gp2 (pt rsp (64 * i))]) ++
    [.call .pFpDblMod]) ++
  ops [ori .add rsp 384] ++ [.ret]

/-- zm2.cpp:2538-2545 -/
def in_Fp_2z_add_3x (mz mx : Addr) : List Op :=
  load_add_rm g gt4 gt3 gt2 gt1 mz mx false ++ add_rr gt4 gt3 gt2 gt1 gt4 gt3 gt2 gt1 ++ add_rm gt4 gt3 gt2 gt1 mx ++
  fast_modp g gt4 gt3 gt2 gt1 gp3 gt5 gt6 gt7 ++ store_mr mz gt4 gt3 gt2 gt1

/-- zm2.cpp:2483-2489: one component of the update of g4 -/
def in_g4 (i : ℕ) : List Op :=
  [mvi rax (pTblAt g 1)] ++ load_add_rm g gt4 gt3 gt2 gt1 (pt rsp (32 * i)) (pt rax) false ++
  sub_rm gt4 gt3 gt2 gt1 (pt gt10 (64 + 32 * i)) ++ add_rr gt4 gt3 gt2 gt1 gt4 gt3 gt2 gt1 ++
  add_rm gt4 gt3 gt2 gt1 (pt rsp (32 * i)) ++ fast_modp g gt4 gt3 gt2 gt1 gp1 gp2 gp3 gt5 ++
  store_mr (pt gt10 (64 + 32 * i)) gt4 gt3 gt2 gt1

/-- zm2.cpp:2375-2519, from `.lp` to the decrement.  z in gt10 (g2, g3, g4, g5 at 192, 128, 64, 320); t0, t1, t2 at rsp + 0, 64, 128,
T0, ..., T3 at rsp + 192, 320, 448, 576, the counter at rsp + 704 -/
def compress_body : Code :=
  lea2 .pFp2DblSquare (pt rsp 192) (pt gt10 64) ++
  ops [.lea gp1 (pt rsp 320), .ofX gp2 3, ori .add gp2 320] ++ [.call .pFp2DblSquare] ++
  in_Fp2Dbl_mul_xi g (pt rsp 448) (pt rsp 320) ++ in_Fp2Dbl_add (pt rsp 448) (pt rsp 448) (pt rsp 192) ++
  ops [.lea gp1 (pt rsp 128), .lea gp2 (pt rsp 448)] ++ in_Fp2Dbl_mod ++
  ldz gt10 ++ in_Fp2_add (pt rsp) (pt gt10 64) (pt gt10 320) ++
  lea2 .pFp2DblSquare (pt rsp 448) (pt rsp) ++
  ldz gt10 ++ ops (in_FpDbl_add g 2 (pt rsp 192) (pt rsp 192) (pt rsp 320)) ++
  in_Fp2Dbl_sub (pt rsp 448) (pt rsp 448) (pt rsp 192) ++
  ops [.lea gp1 (pt rsp), .lea gp2 (pt rsp 448)] ++ in_Fp2Dbl_mod ++
  ldz gt10 ++ in_Fp2_add (pt rsp 64) (pt gt10 192) (pt gt10 128) ++
  lea2 .pFp2DblSquare (pt rsp 576) (pt rsp 64) ++
  ldz gt10 ++ lea2 .pFp2DblSquare (pt rsp 448) (pt gt10 192) ++
  ops (in_Fp2_mul_xi g (pt rsp 64) (pt rsp)) ++
  lea2 .pFp2_2zAdd3x (pt gt10 192) (pt rsp 64) ++
  in_Fp2_sub (pt rsp 64) (pt rsp 128) (pt gt10 128) ++ in_Fp2_add (pt rsp 64) (pt rsp 64) (pt rsp 64) ++
  lea2 .pFp2DblSquare (pt rsp 320) (pt gt10 128) ++
  ldz gt10 ++ in_Fp2_add (pt gt10 128) (pt rsp 64) (pt rsp 128) ++
  in_Fp2Dbl_mul_xi g (pt rsp 192) (pt rsp 320) ++ ops (in_FpDbl_add g 2 (pt rsp 192) (pt rsp 192) (pt rsp 448)) ++
  ops [.lea gp1 (pt rsp), .lea gp2 (pt rsp 192)] ++ in_Fp2Dbl_mod ++
  ldz gt10 ++ ops (in_g4 g 0) ++ ops (in_g4 g 1) ++
  in_FpDbl_addNCn 2 (pt rsp 448) (pt rsp 448) (pt rsp 320) ++ in_Fp2Dbl_sub (pt rsp 576) (pt rsp 576) (pt rsp 448) ++
  ops [.lea gp1 (pt rsp), .lea gp2 (pt rsp 576)] ++ in_Fp2Dbl_mod ++
  ldz gt10 ++ lea2 .pFp2_2zAdd3x (pt gt10 320) (pt rsp)

/-- zm2.cpp:2346-2532; label 0 is `.lp` -/
def code_CompressSquareN : Code :=
  frame 10 89 (ops [ld gt10 (pt gp1), .st (pt rsp 704) gp2, .toX 3 gt10] ++ .lab 0 :: (compress_body g ++
    (ops [.alum .sub (pt rsp 704) (.i 1)] ++ [.jcc .nz 0])))

/-- zm2.cpp:2559-2568 -/
def sub_Fp2_mul_gamma_add (mz mx my : Addr) : Code :=
  ops (in_Fp2_mul_xi g mz (mx.plus 128)) ++ in_Fp2_add mz mz my ++ in_Fp2_add (mz.plus 64) mx (my.plus 64) ++
  in_Fp2_add (mz.plus 128) (mx.plus 64) (my.plus 128)

/-- zm2.cpp:2570-2611: t0 at rsp, t1 at rsp + 192, z saved at rsp + 384 -/
def code_Fp12Square : Code :=
  frame 10 49 (ops [mv gt10 gp1, .st (pt rsp 384) gp1] ++ lea3 .pFp6Add (pt rsp) (pt gt10) (pt gt10 192) ++
    sub_Fp2_mul_gamma_add g (pt rsp 192) (pt gt10 192) (pt gt10) ++
    ops [.lea gp1 (pt gt10 192), mv gp2 gp1, mv gp3 gt10] ++ [.call .pFp6Mul] ++
    ops [ld gp1 (pt rsp 384), .lea gp2 (pt rsp), .lea gp3 (pt rsp 192)] ++ [.call .pFp6Mul] ++
    ops [ld gt10 (pt rsp 384)] ++ sub_Fp2_mul_gamma_add g (pt rsp 192) (pt gt10 192) (pt gt10 192) ++
    ops [ld gt10 (pt rsp 384), mv gp1 gt10, mv gp2 gt10, .lea gp3 (pt rsp 192)] ++ [.call .pFp6Sub] ++
    ops [.lea gp1 (pt gt10 192), mv gp2 gp1, mv gp3 gp1] ++ [.call .pFp6Add])

/-- zm2.cpp:2613-2695: t0, t1 at rsp + 0, 192, T0, T1, T2 at rsp + 384, 768, 1152, zd at rsp + 1536 (a, b at 0, 384), zsave, xsave, ysave
at rsp + 2304, 2312, 2320 -/
def code_Fp12Mul : Code :=
  frame 10 291 (ops [.st (pt rsp 2304) gp1, .st (pt rsp 2312) gp2, .st (pt rsp 2320) gp3] ++
    ops [.lea gp1 (pt rsp 384), .toX 3 gp1, .toX 4 gp2, .toX 5 gp3] ++ [.call .pFp6DblMul] ++
    ops [ld gt9 (pt rsp 2312), ld gt10 (pt rsp 2320)] ++
    ops [.lea gp1 (pt rsp 768), .lea gp2 (pt gt9 192), .lea gp3 (pt gt10 192), .toX 3 gp1, .toX 4 gp2, .toX 5 gp3] ++ [.call .pFp6DblMul] ++
    ops [ld gt9 (pt rsp 2312)] ++ lea3 .pFp6Add (pt rsp) (pt gt9) (pt gt9 192) ++
    ops [ld gt10 (pt rsp 2320)] ++ lea3 .pFp6Add (pt rsp 192) (pt gt10) (pt gt10 192) ++
    ops [.lea gp1 (pt rsp 1536), .lea gp2 (pt rsp), .lea gp3 (pt rsp 192), .toX 3 gp1, .toX 4 gp2, .toX 5 gp3] ++ [.call .pFp6DblMul] ++
    ops (in_FpDbl_add g 6 (pt rsp 1152) (pt rsp 384) (pt rsp 768)) ++
    ops (in_FpDbl_sub g 6 (pt rsp 1920) (pt rsp 1536) (pt rsp 1152)) ++
    in_Fp2Dbl_mul_xi g (pt rsp 1536) (pt rsp 1024) ++ ops (in_FpDbl_add g 2 (pt rsp 1536) (pt rsp 1536) (pt rsp 384)) ++
    ops (in_FpDbl_add g 2 (pt rsp 1664) (pt rsp 768) (pt rsp 512)) ++
    ops (in_FpDbl_add g 2 (pt rsp 1792) (pt rsp 896) (pt rsp 640)) ++
    ((List.range 12).flatMap fun i =>
      ops (ld gp1 (pt rsp 2304) :: (if 0 < i then [ori .add gp1 (32 * i)] else []) ++ [.lea gp2 (pt rsp (1536 + 64 * i))]) ++
      [.call .pFpDblMod]))

/-- zm2.cpp:2697-2959.  z in gt9 (z.a_: 0, 64, 128, z.b_: 192, 256, 320), x in gt10 (0, 64, 128); t0, t1, t2, t4 at rsp + 0, 64, 128, 192,
T2, T3, X0T0, X2T2, X4T4, ACC at rsp + 256, 384, 512, 640, 768, 896 -/
def code_Fp12DblMulFp2_024 : Code :=
  frame 10 128 (ops [mv gt9 gp1, mv gt10 gp2, .toX 3 gt9, .toX 4 gt10] ++
    ops [.lea gp1 (pt rsp 512), mv gp2 gt9, mv gp3 gt10] ++ [.call .pFp2DblMulOpt2] ++
    ldz gt9 ++ ldx gt10 ++ lea3 .pFp2DblMulOpt2 (pt rsp 640) (pt gt9 128) (pt gt10 128) ++
    ldz gt9 ++ ldx gt10 ++ lea3 .pFp2DblMulOpt2 (pt rsp 768) (pt gt9 256) (pt gt10 64) ++
    ldz gt9 ++ in_Fp2_add (pt rsp 128) (pt gt9) (pt gt9 256) ++ in_Fp2_add (pt rsp 64) (pt gt9) (pt gt9 128) ++
    in_Fp2_add (pt rsp 192) (pt gt9 64) (pt gt9 192) ++ in_Fp2_add (pt rsp 192) (pt rsp 192) (pt gt9 320) ++
    ldx gt10 ++ lea3 .pFp2DblMulOpt2 (pt rsp 896) (pt gt9 64) (pt gt10 128) ++
    in_Fp2Dbl_add (pt rsp 256) (pt rsp 896) (pt rsp 768) ++ in_Fp2Dbl_mul_xi g (pt rsp 384) (pt rsp 256) ++
    in_Fp2Dbl_add (pt rsp 384) (pt rsp 384) (pt rsp 512) ++
    ldz gt9 ++ ops [.lea gp1 (pt gt9), .lea gp2 (pt rsp 384)] ++ in_Fp2Dbl_mod ++
    ldz gt9 ++ ldx gt10 ++ lea3 .pFp2DblMulOpt2 (pt rsp 256) (pt gt9 320) (pt gt10 64) ++
    in_Fp2Dbl_add (pt rsp 896) (pt rsp 896) (pt rsp 256) ++ in_Fp2Dbl_add (pt rsp 256) (pt rsp 256) (pt rsp 640) ++
    in_Fp2Dbl_mul_xi g (pt rsp 384) (pt rsp 256) ++
    ldz gt9 ++ ldx gt10 ++ lea3 .pFp2DblMulOpt2 (pt rsp 256) (pt gt9 64) (pt gt10) ++
    in_Fp2Dbl_add (pt rsp 896) (pt rsp 896) (pt rsp 256) ++ in_Fp2Dbl_add (pt rsp 384) (pt rsp 384) (pt rsp 256) ++
    ldz gt9 ++ ops [.lea gp1 (pt gt9 64), .lea gp2 (pt rsp 384)] ++ in_Fp2Dbl_mod ++
    ldx gt10 ++ in_Fp2_add (pt rsp) (pt gt10) (pt gt10 128) ++
    lea3 .pFp2DblMulOpt2 (pt rsp 256) (pt rsp 64) (pt rsp) ++
    in_Fp2Dbl_sub (pt rsp 256) (pt rsp 256) (pt rsp 512) ++ in_Fp2Dbl_sub (pt rsp 256) (pt rsp 256) (pt rsp 640) ++
    ldz gt9 ++ ldx gt10 ++ lea3 .pFp2DblMulOpt2 (pt rsp 384) (pt gt9 192) (pt gt10 64) ++
    in_Fp2Dbl_add (pt rsp 896) (pt rsp 896) (pt rsp 384) ++ in_Fp2Dbl_add (pt rsp 256) (pt rsp 256) (pt rsp 384) ++
    ldz gt9 ++ in_Fp2_add (pt rsp) (pt gt9 128) (pt gt9 256) ++
    ops [.lea gp1 (pt gt9 128), .lea gp2 (pt rsp 256)] ++ in_Fp2Dbl_mod ++
    ldx gt10 ++ in_Fp2_add (pt rsp 64) (pt gt10 128) (pt gt10 64) ++
    lea3 .pFp2DblMulOpt2 (pt rsp 256) (pt rsp) (pt rsp 64) ++
    in_Fp2Dbl_sub (pt rsp 256) (pt rsp 256) (pt rsp 640) ++ in_Fp2Dbl_sub (pt rsp 256) (pt rsp 256) (pt rsp 768) ++
    in_Fp2Dbl_mul_xi g (pt rsp 384) (pt rsp 256) ++
    ldz gt9 ++ ldx gt10 ++ ops [.lea gp1 (pt rsp 256), .lea gp2 (pt gt9 192), mv gp3 gt10] ++ [.call .pFp2DblMulOpt2] ++
    in_Fp2Dbl_add (pt rsp 896) (pt rsp 896) (pt rsp 256) ++ in_Fp2Dbl_add (pt rsp 384) (pt rsp 384) (pt rsp 256) ++
    ldz gt9 ++ ops [.lea gp1 (pt gt9 192), .lea gp2 (pt rsp 384)] ++ in_Fp2Dbl_mod ++
    ldz gt9 ++ ldx gt10 ++ lea3 .pFp2DblMulOpt2 (pt rsp 256) (pt gt9 320) (pt gt10 128) ++
    in_Fp2Dbl_add (pt rsp 896) (pt rsp 896) (pt rsp 256) ++ in_Fp2Dbl_mul_xi g (pt rsp 384) (pt rsp 256) ++
    ldx gt10 ++ in_Fp2_add (pt rsp) (pt gt10) (pt gt10 64) ++
    lea3 .pFp2DblMulOpt2 (pt rsp 256) (pt rsp 128) (pt rsp) ++
    in_Fp2Dbl_sub (pt rsp 256) (pt rsp 256) (pt rsp 512) ++ in_Fp2Dbl_sub (pt rsp 256) (pt rsp 256) (pt rsp 768) ++
    in_Fp2Dbl_add (pt rsp 384) (pt rsp 384) (pt rsp 256) ++
    ldz gt9 ++ ops [.lea gp1 (pt gt9 256), .lea gp2 (pt rsp 384)] ++ in_Fp2Dbl_mod ++
    ldx gt10 ++ in_Fp2_add (pt rsp) (pt gt10) (pt gt10 128) ++ in_Fp2_add (pt rsp) (pt rsp) (pt gt10 64) ++
    lea3 .pFp2DblMulOpt2 (pt rsp 256) (pt rsp 192) (pt rsp) ++
    ldz gt9 ++ in_Fp2Dbl_sub (pt rsp 256) (pt rsp 256) (pt rsp 896) ++
    ops [.lea gp1 (pt gt9 320), .lea gp2 (pt rsp 256)] ++ in_Fp2Dbl_mod)

/-- zm2.cpp:2965-3001: t0 at rsp, t1 at rsp + 32; the registers are gt3, gt2, gt1, gp3 -/
def code_pFp2DblSquare : Code :=
  ops ([ori .sub rsp 64] ++ load_rm gt3 gt2 gt1 gp3 (pt gp2 32) ++ add_rr gt3 gt2 gt1 gp3 gt3 gt2 gt1 gp3 ++
    store_mr (pt rsp) gt3 gt2 gt1 gp3 ++
    mul4x4 g (pt gp1 64) (pt rsp) (pt gp2) gt9 gt8 gt7 gt6 gt5 gt4 gt3 gt2 gt1 gp3 ++
    [mvi rax (pTblAt g 1)] ++ load_add_rm g gt3 gt2 gt1 gp3 (pt gp2) (pt rax) false ++ sub_rm gt3 gt2 gt1 gp3 (pt gp2 32) ++
    store_mr (pt rsp 32) gt3 gt2 gt1 gp3 ++ in_Fp_addNC g (pt rsp) (pt gp2) (pt gp2 32) ++
    mul4x4 g (pt gp1) (pt rsp) (pt rsp 32) gt9 gt8 gt7 gt6 gt5 gt4 gt3 gt2 gt1 gp3 ++ [ori .add rsp 64]) ++ [.ret]

/-- zm2.cpp:3012-3214.  l in gt8 (0, 64, 128), R in gt9, P in gt10; t0, ..., t5 at rsp + 0, 64, ..., 320, T0, T1, T2 at rsp + 384, 512, 640.
With `withoutP` the frame is closed right after `in_Fp2_neg`. -/
def make_pointDblLineEval (withoutP : Bool) : Code :=
  frame 10 96 (ops [mv gt8 gp1, mv gt9 gp2, .toX 3 gp1, .toX 4 gp2, .toX 5 gp3] ++
    lea2 .pFp2Square (pt rsp) (pt gt9 128) ++
    ldx gt9 ++ lea3 .pFp2Mul (pt rsp 256) (pt gt9) (pt gt9 64) ++
    ldx gt9 ++ lea2 .pFp2Square (pt rsp 64) (pt gt9 64) ++
    in_Fp2_add (pt rsp 192) (pt rsp) (pt rsp) ++
    ops [.lea gp1 (pt rsp 256), mv gp2 gp1] ++ [.call .pFp2DivBy2] ++
    in_Fp2_add (pt rsp 320) (pt rsp) (pt rsp 64) ++ in_Fp2_add (pt rsp) (pt rsp) (pt rsp 192) ++
    ops (in_Fp_add1 g (pt rsp 128) (pt rsp) (pt rsp 32)) ++ ops (in_Fp_sub1 g (pt rsp 160) (pt rsp 32) (pt rsp)) ++
    ops [.lea gp1 (pt rsp), .ofX gp2 4] ++ [.call .pFp2Square] ++
    in_Fp2_add (pt rsp 192) (pt rsp 128) (pt rsp 128) ++ in_Fp2_add (pt rsp 192) (pt rsp 192) (pt rsp 128) ++
    ldz gt8 ++ in_Fp2_addNC (pt gt8 128) (pt rsp) (pt rsp) ++
    ldx gt9 ++ in_Fp2_sub (pt gt9) (pt rsp 64) (pt rsp 192) ++
    in_Fp2_addNC (pt gt8 128) (pt gt8 128) (pt rsp) ++ in_Fp2_add (pt rsp 192) (pt rsp 192) (pt rsp 64) ++
    ops [mv gp1 gt9, mv gp2 gp1, .lea gp3 (pt rsp 256)] ++ [.call .pFp2Mul] ++
    ops [.lea gp1 (pt rsp 192), mv gp2 gp1] ++ [.call .pFp2DivBy2] ++
    lea2 .pFp2DblSquare (pt rsp 384) (pt rsp 192) ++ lea2 .pFp2DblSquare (pt rsp 512) (pt rsp 128) ++
    in_FpDbl_addNCn 2 (pt rsp 640) (pt rsp 512) (pt rsp 512) ++
    ldx gt9 ++ in_Fp2_add (pt rsp 192) (pt gt9 64) (pt gt9 128) ++
    in_FpDbl_addNCn 2 (pt rsp 640) (pt rsp 640) (pt rsp 512) ++
    ops [.lea gp1 (pt rsp 192), mv gp2 gp1] ++ [.call .pFp2Square] ++
    in_Fp2_sub (pt rsp 192) (pt rsp 192) (pt rsp 320) ++
    ops (in_FpDbl_sub g 2 (pt rsp 384) (pt rsp 384) (pt rsp 640)) ++
    ldx gt9 ++ ops [.lea gp1 (pt gt9 64), .lea gp2 (pt rsp 384)] ++ in_Fp2Dbl_mod ++
    ldx gt9 ++ lea3 .pFp2Mul (pt gt9 128) (pt rsp 64) (pt rsp 192) ++
    in_Fp2_sub (pt rsp 128) (pt rsp 128) (pt rsp 64) ++
    ldz gt8 ++ ops (in_Fp2_mul_xi g (pt gt8) (pt rsp 128)) ++
    ldz gt8 ++ in_Fp2_neg (pt gt8 64) (pt rsp 192) ++
    (if withoutP then [] else
      ops [.lea gp1 (pt gt8 128), mv gp2 gp1, .ofX gp3 5] ++ [.call .pFpMul] ++
      ldz gt8 ++ ops [.lea gp1 (pt gt8 160), mv gp2 gp1, .ofX gp3 5] ++ [.call .pFpMul] ++
      ldz gt8 ++ ldy gt10 ++ ops [.lea gp1 (pt gt8 64), mv gp2 gp1, .lea gp3 (pt gt10 32)] ++ [.call .pFpMul] ++
      ldz gt8 ++ ldy gt10 ++ ops [.lea gp1 (pt gt8 96), mv gp2 gp1, .lea gp3 (pt gt10 32)] ++ [.call .pFpMul]))

/-- what `init` generates (zm2.cpp:3320-3529) -/
def code : Sub → Code
  -- zm2.cpp:1266-1273
  | .pFpMul => ops (Fp_mul g) ++ [.ret]
  -- zm2.cpp:918-924
  | .pFp2Neg => in_Fp_neg g 2 (pt gp1) (pt gp2) ++ [.ret]
  -- zm2.cpp:936-957
  | .pFp2Add => ops (in_Fp_add g 2 (pt gp1) (pt gp2) (pt gp3)) ++ [.ret]
  | .pFp2Sub => ops (in_Fp_sub g 2 (pt gp1) (pt gp2) (pt gp3)) ++ [.ret]
  | .pFp2AddNC => ops (in_Fp_addNC g (pt gp1) (pt gp2) (pt gp3) ++ in_Fp_addNC g (pt gp1 32) (pt gp2 32) (pt gp3 32)) ++ [.ret]
  -- zm2.cpp:1274-1280
  | .pFpDblMod => ops (mont_mod g) ++ [.ret]
  -- zm2.cpp:1709-1715
  | .pFp2Square => in_Fp2_square g ++ [.ret]
  | .pFp2Mul => code_pFp2Mul g
  -- zm2.cpp:1095-1105
  | .pFp2DivBy2 => ops ([mvi rax (pTblAt g 1)] ++ sub_Fp_divBy2 g (pt gp1) (pt gp2) ++ sub_Fp_divBy2 g (pt gp1 32) (pt gp2 32)) ++ [.ret]
  -- zm2.cpp:2551-2558
  | .pFp2_2zAdd3x => ops (in_Fp_2z_add_3x g (pt gp1) (pt gp2) ++ in_Fp_2z_add_3x g (pt gp1 32) (pt gp2 32)) ++ [.ret]
  -- zm2.cpp:831-869
  | .pFpDblAdd => ops (in_FpDbl_add1 g (pt gp1) (pt gp2) (pt gp3)) ++ [.ret]
  | .pFpDblSub => ops (sub_FpDbl_sub g (pt gp1) (pt gp2) (pt gp3)) ++ [.ret]
  | .pFpDblAddNC => ops (in_Fp_addNC g (pt gp1) (pt gp2) (pt gp3) ++ in_Fp_adcNC g (pt gp1 32) (pt gp2 32) (pt gp3 32)) ++ [.ret]
  | .pFpDblSubNC => ops (in_Fp_subNC g (pt gp1) (pt gp2) (pt gp3) ++ in_Fp_sbbNC g (pt gp1 32) (pt gp2 32) (pt gp3 32)) ++ [.ret]
  -- zm2.cpp:2063-2085
  | .pFp2DblMulXi => ops ([mvi rax (pTblAt g 1)] ++ sub_FpDbl_sub g (pt gp1) (pt gp2) (pt gp2 64) ++
      in_FpDbl_add1 g (pt gp1 64) (pt gp2 64) (pt gp2)) ++ [.ret]
  -- zm2.cpp:2048-2062
  | .pFp2DblMulOpt1 => sub_Fp2Dbl_mulOpt g 1
  | .pFp2DblMulOpt2 => sub_Fp2Dbl_mulOpt g 2
  | .pFp2DblSquare => code_pFp2DblSquare g
  -- zm2.cpp:1004-1010, 1016-1022
  | .pFp6Add => ops (in_Fp_add g 6 (pt gp1) (pt gp2) (pt gp3)) ++ [.ret]
  | .pFp6Sub => ops (in_Fp_sub g 6 (pt gp1) (pt gp2) (pt gp3)) ++ [.ret]
  | .pFp6DblMul => code_pFp6DblMul g
  | .pFp6Mul => code_pFp6Mul
  -- zm2.cpp:994-1003
  | .FpAdd => frame 7 0 (ops (in_Fp_add g 1 (pt gp1) (pt gp2) (pt gp3)))
  | .FpSub => frame 7 0 (ops (in_Fp_sub g 1 (pt gp1) (pt gp2) (pt gp3)))
  | .FpAddNC => make_Fp_addNC g 1
  | .FpSubNC => make_Fp_subNC g
  | .FpNeg => make_Fp_neg g
  | .FpShr1 => make_Fp_shr 1
  | .FpShr2 => make_Fp_shr 2
  -- zm2.cpp:1282-1286
  | .FpMul => frame 10 0 [.call .pFpMul]
  | .FpPreInv => code_FpPreInv g
  -- zm2.cpp:1594-1626
  | .DblAdd => frame 7 0 (ops (in_FpDbl_add g 1 (pt gp1) (pt gp2) (pt gp3)))
  | .DblAddNC => frame 7 0 (in_FpDbl_addNCn 1 (pt gp1) (pt gp2) (pt gp3))
  -- zm2.cpp:1579-1589
  | .DblNeg => frame 4 0 (in_FpDbl_neg g 0 (pt gp1) (pt gp2))
  | .DblSub => frame 7 0 (ops (in_FpDbl_sub g 1 (pt gp1) (pt gp2) (pt gp3)))
  | .DblSubNC => frame 7 0 (ops (in_Fp_subNC g (pt gp1) (pt gp2) (pt gp3) ++ in_Fp_sbbNC g (pt gp1 32) (pt gp2 32) (pt gp3 32)))
  -- zm2.cpp:1643-1656
  | .DblMul => frame 10 0 (ops (mul4x4' g (pt gp1) (pt gp2) (pt gp3)))
  | .DblMod => frame 10 0 [.call .pFpDblMod]
  | .Fp2Add => frame 7 0 (ops (in_Fp_add g 2 (pt gp1) (pt gp2) (pt gp3)))
  | .Fp2AddNC => make_Fp_addNC g 2
  | .Fp2Sub => frame 7 0 (ops (in_Fp_sub g 2 (pt gp1) (pt gp2) (pt gp3)))
  -- zm2.cpp:1863-1867
  | .Fp2Mul => frame 10 0 [.call .pFp2Mul]
  -- zm2.cpp:1536-1540
  | .Fp2MulXi => frame 7 0 (ops (in_Fp2_mul_xi g (pt gp1) (pt gp2)))
  -- zm2.cpp:1779-1783
  | .Fp2Square => frame 10 0 [.call .pFp2Square]
  -- zm2.cpp:1288-1297
  | .Fp2MulFp0 => frame 10 0 (ops [.toX 2 gp3] ++ .call .pFpMul :: (ops [.ofX gp3 2, ori .add gp1 32, ori .add gp2 32] ++ [.call .pFpMul]))
  -- zm2.cpp:1106-1110
  | .Fp2DivBy2 => frame 7 0 [.call .pFp2DivBy2]
  | .Fp2DblAdd => frame 7 0 (ops (in_FpDbl_add g 2 (pt gp1) (pt gp2) (pt gp3)))
  | .Fp2DblAddNC => frame 7 0 (in_FpDbl_addNCn 2 (pt gp1) (pt gp2) (pt gp3))
  | .Fp2DblNeg => frame 4 0 (in_FpDbl_neg g 0 (pt gp1) (pt gp2) ++ in_FpDbl_neg g 2 (pt gp1 64) (pt gp2 64))
  | .Fp2DblSub => frame 7 0 (ops (in_FpDbl_sub g 2 (pt gp1) (pt gp2) (pt gp3)))
  | .Fp2DblSubNC => frame 7 0 (ops (in_Fp_subNC g (pt gp1) (pt gp2) (pt gp3) ++ in_Fp_sbbNC g (pt gp1 32) (pt gp2 32) (pt gp3 32) ++
      in_Fp_subNC g (pt gp1 64) (pt gp2 64) (pt gp3 64) ++ in_Fp_sbbNC g (pt gp1 96) (pt gp2 96) (pt gp3 96)))
  -- zm2.cpp:2088-2096
  | .Fp2DblMulOpt1 => frame 10 0 [.call .pFp2DblMulOpt1]
  | .Fp2DblMulOpt2 => frame 10 0 [.call .pFp2DblMulOpt2]
  -- zm2.cpp:3006-3010
  | .Fp2DblSquare => frame 9 0 [.call .pFp2DblSquare]
  -- zm2.cpp:1674-1678
  | .Fp2DblMod => frame 10 0 in_Fp2Dbl_mod
  -- zm2.cpp:1634-1638
  | .Fp2DblMulXi => frame 7 0 [.call .pFp2DblMulXi]
  -- zm2.cpp:1011-1015, 1023-1027
  | .Fp6Add => frame 7 0 [.call .pFp6Add]
  | .Fp6Sub => frame 7 0 [.call .pFp6Sub]
  | .PointDblLineEval => make_pointDblLineEval g false
  | .PointDblLineEvalWithoutP => make_pointDblLineEval g true
  -- zm2.cpp:2264-2271
  | .Fp6DblMul => frame 10 0 (ops [.toX 3 gp1, .toX 4 gp2, .toX 5 gp3] ++ [.call .pFp6DblMul])
  -- zm2.cpp:2304-2308
  | .Fp6Mul => frame 10 0 [.call .pFp6Mul]
  | .CompressSquareN => code_CompressSquareN g
  | .Fp12Square => code_Fp12Square g
  | .Fp12Mul => code_Fp12Mul g
  | .Fp12DblMulFp2_024 => code_Fp12DblMulFp2_024 g

end Jit
end Verif
