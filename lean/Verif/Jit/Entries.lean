import Verif.Jit.Fp6Code
import Verif.Jit.Neg

/-! The entry points with a frame. -/

namespace Verif
namespace Jit

open Fp Reg

/-- cases on the two switches, then `rfl` by the kernel -/
macro "kcode" g:ident : tactic => `(tactic| (rcases $g:ident with ⟨a, b, c⟩; cases a <;> cases b <;> krfl))

/-- the registers that code with gt1, ..., gtn may use -/
def gts (n : ℕ) : List Reg := [rax, rdx, gp1, gp2, gp3] ++ [gt1, gt2, gt3, gt4, gt5, gt6, gt7, gt8, gt9, gt10].take n
abbrev allX : List ℕ := [0, 1, 2, 3, 4, 5]

/-- z := f(x, y) with z: k numbers of n words, x: k' of n', y: k'' of n'' -/
def bodyA (k n k' n' k'' n'' : ℕ) (al : List (ℕ × ℕ × Bool)) (f : List ℕ → List ℕ) (gtn depth : ℕ) : Act where
  args := [.ad gp1 0, .ad gp2 0, .ad gp3 0]
  len := [k * n, k' * n', k'' * n'']
  al := al
  ins := elts 1 n' k' ++ elts 2 n'' k''
  outs := elts 0 n k
  f := f
  pre := []
  post := []
  clob := gts gtn
  clobX := allX
  depth := depth
/-- z := f(x) -/
def bodyA1 (k n k' n' : ℕ) (al : List (ℕ × ℕ × Bool)) (f : List ℕ → List ℕ) (gtn depth : ℕ) : Act where
  args := [.ad gp1 0, .ad gp2 0]
  len := [k * n, k' * n']
  al := al
  ins := elts 1 n' k'
  outs := elts 0 n k
  f := f
  pre := []
  post := []
  clob := gts gtn
  clobX := allX
  depth := depth

def un1 (f : ℕ → ℕ) (v : List ℕ) : List ℕ := [f (v.getD 0 0)]
def on1 (f : ℕ → ℕ → ℕ) (v : List ℕ) : List ℕ := [f (v.getD 0 0) (v.getD 1 0)]
abbrev apart : List (ℕ × ℕ × Bool) := [(0, 1, false), (0, 2, false)]

section
variable {g : Cfg} {ra : Sub → ℕ → ℕ}
def kNeg2 (O : Ops) (z x : Addr) : List Mac :=
  [o (.lea gp1 z), o (if x = z then mv gp2 gp1 else .lea gp2 x), kCall .pFp2Neg (A_Fp2Neg O)]
theorem ok_neg2 {z x : Addr} : ∀ m ∈ kNeg2 std z x, m.Ok g ra := ok_cons op_ok (ok_cons op_ok (ok_cons (ok_Fp2Neg g ra) ok_nil))
end

section
set_option linter.unusedVariables false
def B_FpAdd (O : Ops) : Act := bodyA 1 4 1 4 1 4 [] (on1 O.add) 7 0
def E_FpAdd (O : Ops) (g : Cfg) : List Mac :=
  kAddN g O 1 (pt gp1) (pt gp2) (pt gp3)
def B_FpSub (O : Ops) : Act := bodyA 1 4 1 4 1 4 [] (on1 O.sub) 7 0
def E_FpSub (O : Ops) (g : Cfg) : List Mac :=
  kSubN g O 1 (pt gp1) (pt gp2) (pt gp3)
def B_FpMul (O : Ops) : Act := bodyA 1 4 1 4 1 4 [] (on1 O.mul) 10 1
def E_FpMul (O : Ops) (g : Cfg) : List Mac :=
  [kCall .pFpMul (mulA O)]
def B_DblAdd (O : Ops) : Act := bodyA 1 8 1 8 1 8 inPlace (on1 O.dAdd) 7 0
def E_DblAdd (O : Ops) (g : Cfg) : List Mac :=
  kDAddN g O 1 (pt gp1) (pt gp2) (pt gp3)
def B_DblAddNC (O : Ops) : Act := bodyA 1 8 1 8 1 8 inPlace (on1 O.dAddNC) 7 1
def E_DblAddNC (O : Ops) (g : Cfg) : List Mac :=
  kDAddNCN O 1 (pt gp1) (pt gp2) (pt gp3)
def B_DblSub (O : Ops) : Act := bodyA 1 8 1 8 1 8 inPlace (on1 O.dSub) 7 0
def E_DblSub (O : Ops) (g : Cfg) : List Mac :=
  kDSubN g O 1 (pt gp1) (pt gp2) (pt gp3)
def B_DblSubNC (O : Ops) : Act := bodyA 1 8 1 8 1 8 inPlace (on1 O.dSubNC) 7 0
def E_DblSubNC (O : Ops) (g : Cfg) : List Mac :=
  [kDNC g O false (pt gp1) (pt gp2) (pt gp3)]
def B_DblMul (O : Ops) : Act := bodyA 1 8 1 4 1 4 apart (on1 O.dMul) 10 0
def E_DblMul (O : Ops) (g : Cfg) : List Mac :=
  [kMul4' g O (pt gp1) (pt gp2) (pt gp3)]
def B_DblMod (O : Ops) : Act := bodyA1 1 4 1 8 [] (un1 O.dMod) 10 1
def E_DblMod (O : Ops) (g : Cfg) : List Mac :=
  [kCall .pFpDblMod (modA O)]
def B_Fp2Add (O : Ops) : Act := bodyA 2 4 2 4 2 4 inPlace (on2 (Q2.add O)) 7 0
def E_Fp2Add (O : Ops) (g : Cfg) : List Mac :=
  kAddN g O 2 (pt gp1) (pt gp2) (pt gp3)
def B_Fp2Sub (O : Ops) : Act := bodyA 2 4 2 4 2 4 inPlace (on2 (Q2.sub O)) 7 0
def E_Fp2Sub (O : Ops) (g : Cfg) : List Mac :=
  kSubN g O 2 (pt gp1) (pt gp2) (pt gp3)
def B_Fp2Mul (O : Ops) : Act := bodyA 2 4 2 4 2 4 [] (on2 (Q2.mul O)) 10 34
def E_Fp2Mul (O : Ops) (g : Cfg) : List Mac :=
  [kCall .pFp2Mul (A_Fp2Mul O)]
def B_Fp2MulXi (O : Ops) : Act := bodyA1 2 4 2 4 [(0, 1, false)] (at2 (Q2.mulXi O)) 7 0
def E_Fp2MulXi (O : Ops) (g : Cfg) : List Mac :=
  kXi g O (pt gp1) (pt gp2)
def B_Fp2Square (O : Ops) : Act := bodyA1 2 4 2 4 [(0, 1, true)] (at2 (Q2.square O)) 10 22
def E_Fp2Square (O : Ops) (g : Cfg) : List Mac :=
  [kCall .pFp2Square (A_Fp2Square O)]
def B_Fp2MulFp0 (O : Ops) : Act := bodyA 2 4 2 4 1 4 [(0, 1, true), (0, 2, false)] (fun v => l2 (Q2.mulFp0 O (r2 v 0) (v.getD 2 0))) 10 1
def E_Fp2MulFp0 (O : Ops) (g : Cfg) : List Mac :=
  [o (.toX 2 gp3), kCall .pFpMul (mulA O), o (.ofX gp3 2), o (ori .add gp1 32), o (ori .add gp2 32), kCall .pFpMul (mulA O)]
def B_Fp2DivBy2 (O : Ops) : Act := bodyA1 2 4 2 4 [(0, 1, true)] (at2 (Q2.divBy2 O)) 7 1
def E_Fp2DivBy2 (O : Ops) (g : Cfg) : List Mac :=
  [kCall .pFp2DivBy2 (A_Fp2DivBy2 O)]
def B_Fp2DblAdd (O : Ops) : Act := bodyA 2 8 2 8 2 8 inPlace (on2 (Q2.dAdd O)) 7 0
def E_Fp2DblAdd (O : Ops) (g : Cfg) : List Mac :=
  kDAddN g O 2 (pt gp1) (pt gp2) (pt gp3)
def B_Fp2DblAddNC (O : Ops) : Act := bodyA 2 8 2 8 2 8 inPlace (on2 (Q2.dAddNC O)) 7 1
def E_Fp2DblAddNC (O : Ops) (g : Cfg) : List Mac :=
  kDAddNCN O 2 (pt gp1) (pt gp2) (pt gp3)
def B_Fp2DblSub (O : Ops) : Act := bodyA 2 8 2 8 2 8 inPlace (on2 (Q2.dSub O)) 7 0
def E_Fp2DblSub (O : Ops) (g : Cfg) : List Mac :=
  kDSubN g O 2 (pt gp1) (pt gp2) (pt gp3)
def B_Fp2DblSubNC (O : Ops) : Act := bodyA 2 8 2 8 2 8 inPlace (on2 (fun x y => ⟨O.dSubNC x.a y.a, O.dSubNC x.b y.b⟩)) 7 0
def E_Fp2DblSubNC (O : Ops) (g : Cfg) : List Mac :=
  [kDNC g O false (pt gp1) (pt gp2) (pt gp3), kDNC g O false (pt gp1 64) (pt gp2 64) (pt gp3 64)]
def B_Fp2DblMulOpt1 (O : Ops) : Act := bodyA 2 8 2 4 2 4 apart (on2 (Q2.mulOpt1 O)) 10 17
def E_Fp2DblMulOpt1 (O : Ops) (g : Cfg) : List Mac :=
  [kCall .pFp2DblMulOpt1 (A_MulOpt (Q2.mulOpt1 O))]
def B_Fp2DblMulOpt2 (O : Ops) : Act := bodyA 2 8 2 4 2 4 apart (on2 (Q2.mulOpt2 O)) 10 17
def E_Fp2DblMulOpt2 (O : Ops) (g : Cfg) : List Mac :=
  [kCall .pFp2DblMulOpt2 (A_MulOpt (Q2.mulOpt2 O))]
def B_Fp2DblSquare (O : Ops) : Act := bodyA1 2 8 2 4 [(0, 1, false)] (at2 (Q2.dSquare O)) 9 9
def E_Fp2DblSquare (O : Ops) (g : Cfg) : List Mac :=
  [kCall .pFp2DblSquare (A_DblSquare O)]
def B_Fp2DblMod (O : Ops) : Act := bodyA1 2 4 2 8 [(0, 1, false)] (at2 (Q2.dMod O)) 10 1
def E_Fp2DblMod (O : Ops) (g : Cfg) : List Mac :=
  kMod2 O
def B_Fp2DblMulXi (O : Ops) : Act := bodyA1 2 8 2 8 [(0, 1, false)] (at2 (Q2.dMulXi O)) 7 1
def E_Fp2DblMulXi (O : Ops) (g : Cfg) : List Mac :=
  [kCall .pFp2DblMulXi (A_DblMulXi O)]
def B_Fp6Add (O : Ops) : Act := bodyA 6 4 6 4 6 4 inPlace (on6 (Q6.add O)) 7 1
def E_Fp6Add (O : Ops) (g : Cfg) : List Mac :=
  [kCall .pFp6Add (A_Fp6Add O)]
def B_Fp6Sub (O : Ops) : Act := bodyA 6 4 6 4 6 4 inPlace (on6 (Q6.sub O)) 7 1
def E_Fp6Sub (O : Ops) (g : Cfg) : List Mac :=
  [kCall .pFp6Sub (A_Fp6Sub O)]
def B_Fp6DblMul (O : Ops) : Act := bodyA 6 8 6 4 6 4 apart (on6 (Q6.dMul O)) 10 82
def E_Fp6DblMul (O : Ops) (g : Cfg) : List Mac :=
  [o (.toX 3 gp1), o (.toX 4 gp2), o (.toX 5 gp3), kCall .pFp6DblMul (A_Fp6DblMul O)]
def B_Fp6Mul (O : Ops) : Act := bodyA 6 4 6 4 6 4 [] (on6 (Q6.mul O)) 10 131
def E_Fp6Mul (O : Ops) (g : Cfg) : List Mac :=
  [kCall .pFp6Mul (A_Fp6Mul O)]
def B_Fp12Square (O : Ops) : Act := { bodyA1 12 4 0 0 [] (fun v => l12 (Q12.square O (r12 v 0))) 10 131 with args := [.ad gp1 0], len := [48], ins := elts 0 4 12 }
def E_Fp12Square (O : Ops) (g : Cfg) : List Mac :=
  [o (mv gt10 gp1), o (.st (pt rsp 384) gp1)] ++ kL3 .pFp6Add (A_Fp6Add O) (pt rsp) (pt gt10) (pt gt10 192) ++
    kGamma g O (pt rsp 192) (pt gt10 192) (pt gt10) ++
    [o (.lea gp1 (pt gt10 192)), o (mv gp2 gp1), o (mv gp3 gt10)] ++ [kCall .pFp6Mul (A_Fp6Mul O)] ++
    [o (ld gp1 (pt rsp 384)), o (.lea gp2 (pt rsp)), o (.lea gp3 (pt rsp 192))] ++ [kCall .pFp6Mul (A_Fp6Mul O)] ++
    [o (ld gt10 (pt rsp 384))] ++ kGamma g O (pt rsp 192) (pt gt10 192) (pt gt10 192) ++
    [o (ld gt10 (pt rsp 384)), o (mv gp1 gt10), o (mv gp2 gt10), o (.lea gp3 (pt rsp 192))] ++ [kCall .pFp6Sub (A_Fp6Sub O)] ++
    [o (.lea gp1 (pt gt10 192)), o (mv gp2 gp1), o (mv gp3 gp1)] ++ [kCall .pFp6Add (A_Fp6Add O)]
def B_Fp12Mul (O : Ops) : Act := bodyA 12 4 12 4 12 4 [] (fun v => l12 (Q12.mul O (r12 v 0) (r12 v 12))) 10 82
def E_Fp12Mul (O : Ops) (g : Cfg) : List Mac :=
  [o (.st (pt rsp 2304) gp1), o (.st (pt rsp 2312) gp2), o (.st (pt rsp 2320) gp3)] ++
    [o (.lea gp1 (pt rsp 384)), o (.toX 3 gp1), o (.toX 4 gp2), o (.toX 5 gp3)] ++ [kCall .pFp6DblMul (A_Fp6DblMul O)] ++
    [o (ld gt9 (pt rsp 2312)), o (ld gt10 (pt rsp 2320))] ++
    [o (.lea gp1 (pt rsp 768)), o (.lea gp2 (pt gt9 192)), o (.lea gp3 (pt gt10 192)), o (.toX 3 gp1), o (.toX 4 gp2), o (.toX 5 gp3)] ++ [kCall .pFp6DblMul (A_Fp6DblMul O)] ++
    [o (ld gt9 (pt rsp 2312))] ++ kL3 .pFp6Add (A_Fp6Add O) (pt rsp) (pt gt9) (pt gt9 192) ++
    [o (ld gt10 (pt rsp 2320))] ++ kL3 .pFp6Add (A_Fp6Add O) (pt rsp 192) (pt gt10) (pt gt10 192) ++
    [o (.lea gp1 (pt rsp 1536)), o (.lea gp2 (pt rsp)), o (.lea gp3 (pt rsp 192)), o (.toX 3 gp1), o (.toX 4 gp2), o (.toX 5 gp3)] ++ [kCall .pFp6DblMul (A_Fp6DblMul O)] ++
    kDAddN g O 6 (pt rsp 1152) (pt rsp 384) (pt rsp 768) ++
    kDSubN g O 6 (pt rsp 1920) (pt rsp 1536) (pt rsp 1152) ++
    kMulXi2 g O (pt rsp 1536) (pt rsp 1024) ++ kDAddN g O 2 (pt rsp 1536) (pt rsp 1536) (pt rsp 384) ++
    kDAddN g O 2 (pt rsp 1664) (pt rsp 768) (pt rsp 512) ++
    kDAddN g O 2 (pt rsp 1792) (pt rsp 896) (pt rsp 640) ++
    ((List.range 12).flatMap fun i =>
      (o (ld gp1 (pt rsp 2304)) :: (if 0 < i then [o (ori .add gp1 (32 * i))] else []) ++ [o (.lea gp2 (pt rsp (1536 + 64 * i))),
        kCall .pFpDblMod (modA O)]))
def B_Fp12DblMulFp2_024 (O : Ops) : Act := { bodyA1 12 4 6 4 [(0, 1, false)] (fun v => l12 (Q12.mul024 O (r12 v 0) (r6 v 12))) 10 17 with ins := elts 0 4 12 ++ elts 1 4 6 }
def E_Fp12DblMulFp2_024 (O : Ops) (g : Cfg) : List Mac :=
  [o (mv gt9 gp1), o (mv gt10 gp2), o (.toX 3 gt9), o (.toX 4 gt10)] ++
    [o (.lea gp1 (pt rsp 512)), o (mv gp2 gt9), o (mv gp3 gt10)] ++ [kCall .pFp2DblMulOpt2 (A_MulOpt (Q2.mulOpt2 O))] ++
    [o (.ofX gt9 3)] ++ [o (.ofX gt10 4)] ++ kL3 .pFp2DblMulOpt2 (A_MulOpt (Q2.mulOpt2 O)) (pt rsp 640) (pt gt9 128) (pt gt10 128) ++
    [o (.ofX gt9 3)] ++ [o (.ofX gt10 4)] ++ kL3 .pFp2DblMulOpt2 (A_MulOpt (Q2.mulOpt2 O)) (pt rsp 768) (pt gt9 256) (pt gt10 64) ++
    [o (.ofX gt9 3)] ++ kSet .pFp2Add (A_Fp2Add O) (pt rsp 128) (pt gt9) (pt gt9 256) ++ kSet .pFp2Add (A_Fp2Add O) (pt rsp 64) (pt gt9) (pt gt9 128) ++
    kSet .pFp2Add (A_Fp2Add O) (pt rsp 192) (pt gt9 64) (pt gt9 192) ++ kSet .pFp2Add (A_Fp2Add O) (pt rsp 192) (pt rsp 192) (pt gt9 320) ++
    [o (.ofX gt10 4)] ++ kL3 .pFp2DblMulOpt2 (A_MulOpt (Q2.mulOpt2 O)) (pt rsp 896) (pt gt9 64) (pt gt10 128) ++
    kDbl2 .pFpDblAdd (A_DblAdd O) (pt rsp 256) (pt rsp 896) (pt rsp 768) ++ kMulXi2 g O (pt rsp 384) (pt rsp 256) ++
    kDbl2 .pFpDblAdd (A_DblAdd O) (pt rsp 384) (pt rsp 384) (pt rsp 512) ++
    [o (.ofX gt9 3)] ++ [o (.lea gp1 (pt gt9)), o (.lea gp2 (pt rsp 384))] ++ kMod2 O ++
    [o (.ofX gt9 3)] ++ [o (.ofX gt10 4)] ++ kL3 .pFp2DblMulOpt2 (A_MulOpt (Q2.mulOpt2 O)) (pt rsp 256) (pt gt9 320) (pt gt10 64) ++
    kDbl2 .pFpDblAdd (A_DblAdd O) (pt rsp 896) (pt rsp 896) (pt rsp 256) ++ kDbl2 .pFpDblAdd (A_DblAdd O) (pt rsp 256) (pt rsp 256) (pt rsp 640) ++
    kMulXi2 g O (pt rsp 384) (pt rsp 256) ++
    [o (.ofX gt9 3)] ++ [o (.ofX gt10 4)] ++ kL3 .pFp2DblMulOpt2 (A_MulOpt (Q2.mulOpt2 O)) (pt rsp 256) (pt gt9 64) (pt gt10) ++
    kDbl2 .pFpDblAdd (A_DblAdd O) (pt rsp 896) (pt rsp 896) (pt rsp 256) ++ kDbl2 .pFpDblAdd (A_DblAdd O) (pt rsp 384) (pt rsp 384) (pt rsp 256) ++
    [o (.ofX gt9 3)] ++ [o (.lea gp1 (pt gt9 64)), o (.lea gp2 (pt rsp 384))] ++ kMod2 O ++
    [o (.ofX gt10 4)] ++ kSet .pFp2Add (A_Fp2Add O) (pt rsp) (pt gt10) (pt gt10 128) ++
    kL3 .pFp2DblMulOpt2 (A_MulOpt (Q2.mulOpt2 O)) (pt rsp 256) (pt rsp 64) (pt rsp) ++
    kDbl2 .pFpDblSub (A_DblSub O) (pt rsp 256) (pt rsp 256) (pt rsp 512) ++ kDbl2 .pFpDblSub (A_DblSub O) (pt rsp 256) (pt rsp 256) (pt rsp 640) ++
    [o (.ofX gt9 3)] ++ [o (.ofX gt10 4)] ++ kL3 .pFp2DblMulOpt2 (A_MulOpt (Q2.mulOpt2 O)) (pt rsp 384) (pt gt9 192) (pt gt10 64) ++
    kDbl2 .pFpDblAdd (A_DblAdd O) (pt rsp 896) (pt rsp 896) (pt rsp 384) ++ kDbl2 .pFpDblAdd (A_DblAdd O) (pt rsp 256) (pt rsp 256) (pt rsp 384) ++
    [o (.ofX gt9 3)] ++ kSet .pFp2Add (A_Fp2Add O) (pt rsp) (pt gt9 128) (pt gt9 256) ++
    [o (.lea gp1 (pt gt9 128)), o (.lea gp2 (pt rsp 256))] ++ kMod2 O ++
    [o (.ofX gt10 4)] ++ kSet .pFp2Add (A_Fp2Add O) (pt rsp 64) (pt gt10 128) (pt gt10 64) ++
    kL3 .pFp2DblMulOpt2 (A_MulOpt (Q2.mulOpt2 O)) (pt rsp 256) (pt rsp) (pt rsp 64) ++
    kDbl2 .pFpDblSub (A_DblSub O) (pt rsp 256) (pt rsp 256) (pt rsp 640) ++ kDbl2 .pFpDblSub (A_DblSub O) (pt rsp 256) (pt rsp 256) (pt rsp 768) ++
    kMulXi2 g O (pt rsp 384) (pt rsp 256) ++
    [o (.ofX gt9 3)] ++ [o (.ofX gt10 4)] ++ [o (.lea gp1 (pt rsp 256)), o (.lea gp2 (pt gt9 192)), o (mv gp3 gt10)] ++ [kCall .pFp2DblMulOpt2 (A_MulOpt (Q2.mulOpt2 O))] ++
    kDbl2 .pFpDblAdd (A_DblAdd O) (pt rsp 896) (pt rsp 896) (pt rsp 256) ++ kDbl2 .pFpDblAdd (A_DblAdd O) (pt rsp 384) (pt rsp 384) (pt rsp 256) ++
    [o (.ofX gt9 3)] ++ [o (.lea gp1 (pt gt9 192)), o (.lea gp2 (pt rsp 384))] ++ kMod2 O ++
    [o (.ofX gt9 3)] ++ [o (.ofX gt10 4)] ++ kL3 .pFp2DblMulOpt2 (A_MulOpt (Q2.mulOpt2 O)) (pt rsp 256) (pt gt9 320) (pt gt10 128) ++
    kDbl2 .pFpDblAdd (A_DblAdd O) (pt rsp 896) (pt rsp 896) (pt rsp 256) ++ kMulXi2 g O (pt rsp 384) (pt rsp 256) ++
    [o (.ofX gt10 4)] ++ kSet .pFp2Add (A_Fp2Add O) (pt rsp) (pt gt10) (pt gt10 64) ++
    kL3 .pFp2DblMulOpt2 (A_MulOpt (Q2.mulOpt2 O)) (pt rsp 256) (pt rsp 128) (pt rsp) ++
    kDbl2 .pFpDblSub (A_DblSub O) (pt rsp 256) (pt rsp 256) (pt rsp 512) ++ kDbl2 .pFpDblSub (A_DblSub O) (pt rsp 256) (pt rsp 256) (pt rsp 768) ++
    kDbl2 .pFpDblAdd (A_DblAdd O) (pt rsp 384) (pt rsp 384) (pt rsp 256) ++
    [o (.ofX gt9 3)] ++ [o (.lea gp1 (pt gt9 256)), o (.lea gp2 (pt rsp 384))] ++ kMod2 O ++
    [o (.ofX gt10 4)] ++ kSet .pFp2Add (A_Fp2Add O) (pt rsp) (pt gt10) (pt gt10 128) ++ kSet .pFp2Add (A_Fp2Add O) (pt rsp) (pt rsp) (pt gt10 64) ++
    kL3 .pFp2DblMulOpt2 (A_MulOpt (Q2.mulOpt2 O)) (pt rsp 256) (pt rsp 192) (pt rsp) ++
    [o (.ofX gt9 3)] ++ kDbl2 .pFpDblSub (A_DblSub O) (pt rsp 256) (pt rsp 256) (pt rsp 896) ++
    [o (.lea gp1 (pt gt9 320)), o (.lea gp2 (pt rsp 256))] ++ kMod2 O
def B_PointDblLineEvalWithoutP (O : Ops) : Act := { bodyA1 6 4 0 0 [(0, 1, false)] (fun v => let e := tPointDblLineEvalWithoutP O (r2 v 0) (r2 v 2) (r2 v 4); l6 e.l ++ l6 ⟨e.x, e.y, e.z⟩) 10 34 with
  len := [24, 24], ins := elts 1 4 6, outs := elts 0 4 6 ++ elts 1 4 6 }
def E_PointDblLineEvalWithoutP (O : Ops) (g : Cfg) : List Mac :=
  [o (mv gt8 gp1), o (mv gt9 gp2), o (.toX 3 gp1), o (.toX 4 gp2), o (.toX 5 gp3)] ++
    kL2 .pFp2Square (A_Fp2Square O) (pt rsp) (pt gt9 128) ++
    [o (.ofX gt9 4)] ++ kL3 .pFp2Mul (A_Fp2Mul O) (pt rsp 256) (pt gt9) (pt gt9 64) ++
    [o (.ofX gt9 4)] ++ kL2 .pFp2Square (A_Fp2Square O) (pt rsp 64) (pt gt9 64) ++
    kSet .pFp2Add (A_Fp2Add O) (pt rsp 192) (pt rsp) (pt rsp) ++
    [o (.lea gp1 (pt rsp 256)), o (mv gp2 gp1)] ++ [kCall .pFp2DivBy2 (A_Fp2DivBy2 O)] ++
    kSet .pFp2Add (A_Fp2Add O) (pt rsp 320) (pt rsp) (pt rsp 64) ++ kSet .pFp2Add (A_Fp2Add O) (pt rsp) (pt rsp) (pt rsp 192) ++
    [kAdd g O (pt rsp 128) (pt rsp) (pt rsp 32)] ++ [kSub g O (pt rsp 160) (pt rsp 32) (pt rsp)] ++
    [o (.lea gp1 (pt rsp)), o (.ofX gp2 4)] ++ [kCall .pFp2Square (A_Fp2Square O)] ++
    kSet .pFp2Add (A_Fp2Add O) (pt rsp 192) (pt rsp 128) (pt rsp 128) ++ kSet .pFp2Add (A_Fp2Add O) (pt rsp 192) (pt rsp 192) (pt rsp 128) ++
    [o (.ofX gt8 3)] ++ kSet .pFp2AddNC (A_Fp2AddNC O) (pt gt8 128) (pt rsp) (pt rsp) ++
    [o (.ofX gt9 4)] ++ kSet .pFp2Sub (A_Fp2Sub O) (pt gt9) (pt rsp 64) (pt rsp 192) ++
    kSet .pFp2AddNC (A_Fp2AddNC O) (pt gt8 128) (pt gt8 128) (pt rsp) ++ kSet .pFp2Add (A_Fp2Add O) (pt rsp 192) (pt rsp 192) (pt rsp 64) ++
    [o (mv gp1 gt9), o (mv gp2 gp1), o (.lea gp3 (pt rsp 256))] ++ [kCall .pFp2Mul (A_Fp2Mul O)] ++
    [o (.lea gp1 (pt rsp 192)), o (mv gp2 gp1)] ++ [kCall .pFp2DivBy2 (A_Fp2DivBy2 O)] ++
    kL2 .pFp2DblSquare (A_DblSquare O) (pt rsp 384) (pt rsp 192) ++ kL2 .pFp2DblSquare (A_DblSquare O) (pt rsp 512) (pt rsp 128) ++
    kDAddNCN O 2 (pt rsp 640) (pt rsp 512) (pt rsp 512) ++
    [o (.ofX gt9 4)] ++ kSet .pFp2Add (A_Fp2Add O) (pt rsp 192) (pt gt9 64) (pt gt9 128) ++
    kDAddNCN O 2 (pt rsp 640) (pt rsp 640) (pt rsp 512) ++
    [o (.lea gp1 (pt rsp 192)), o (mv gp2 gp1)] ++ [kCall .pFp2Square (A_Fp2Square O)] ++
    kSet .pFp2Sub (A_Fp2Sub O) (pt rsp 192) (pt rsp 192) (pt rsp 320) ++
    kDSubN g O 2 (pt rsp 384) (pt rsp 384) (pt rsp 640) ++
    [o (.ofX gt9 4)] ++ [o (.lea gp1 (pt gt9 64)), o (.lea gp2 (pt rsp 384))] ++ kMod2 O ++
    [o (.ofX gt9 4)] ++ kL3 .pFp2Mul (A_Fp2Mul O) (pt gt9 128) (pt rsp 64) (pt rsp 192) ++
    kSet .pFp2Sub (A_Fp2Sub O) (pt rsp 128) (pt rsp 128) (pt rsp 64) ++
    [o (.ofX gt8 3)] ++ kXi g O (pt gt8) (pt rsp 128) ++
    [o (.ofX gt8 3)] ++ kNeg2 O (pt gt8 64) (pt rsp 192)
def B_PointDblLineEval (O : Ops) : Act := { bodyA1 6 4 0 0 [(0, 1, false), (0, 2, false), (1, 2, false)]
    (fun v => let e := tPointDblLineEval O (r2 v 0) (r2 v 2) (r2 v 4) (v.getD 6 0) (v.getD 7 0); l6 e.l ++ l6 ⟨e.x, e.y, e.z⟩) 10 34 with
  args := [.ad gp1 0, .ad gp2 0, .ad gp3 0], len := [24, 24, 8], ins := elts 1 4 6 ++ elts 2 4 2, outs := elts 0 4 6 ++ elts 1 4 6 }
def E_PointDblLineEval (O : Ops) (g : Cfg) : List Mac :=
  E_PointDblLineEvalWithoutP O g ++
    
      [o (.lea gp1 (pt gt8 128)), o (mv gp2 gp1), o (.ofX gp3 5)] ++ [kCall .pFpMul (mulA O)] ++
      [o (.ofX gt8 3)] ++ [o (.lea gp1 (pt gt8 160)), o (mv gp2 gp1), o (.ofX gp3 5)] ++ [kCall .pFpMul (mulA O)] ++
      [o (.ofX gt8 3)] ++ [o (.ofX gt10 5)] ++ [o (.lea gp1 (pt gt8 64)), o (mv gp2 gp1), o (.lea gp3 (pt gt10 32))] ++ [kCall .pFpMul (mulA O)] ++
      [o (.ofX gt8 3)] ++ [o (.ofX gt10 5)] ++ [o (.lea gp1 (pt gt8 96)), o (mv gp2 gp1), o (.lea gp3 (pt gt10 32))] ++ [kCall .pFpMul (mulA O)]
end

section
variable (g : Cfg) (ra : Sub → ℕ → ℕ)
set_option maxRecDepth 100000

theorem run_FpAdd' (O : Ops) (vs : List ℕ) : allRun (B_FpAdd O) 0 (E_FpAdd O g) vs = allSpec (B_FpAdd O) vs := by krfl
theorem run_FpSub' (O : Ops) (vs : List ℕ) : allRun (B_FpSub O) 0 (E_FpSub O g) vs = allSpec (B_FpSub O) vs := by krfl
theorem run_FpMul' (O : Ops) (vs : List ℕ) : allRun (B_FpMul O) 0 (E_FpMul O g) vs = allSpec (B_FpMul O) vs := by krfl
theorem run_DblAdd' (O : Ops) (vs : List ℕ) : allRun (B_DblAdd O) 0 (E_DblAdd O g) vs = allSpec (B_DblAdd O) vs := by krfl
theorem run_DblAddNC' (O : Ops) (vs : List ℕ) : allRun (B_DblAddNC O) 0 (E_DblAddNC O g) vs = allSpec (B_DblAddNC O) vs := by krfl
theorem run_DblSub' (O : Ops) (vs : List ℕ) : allRun (B_DblSub O) 0 (E_DblSub O g) vs = allSpec (B_DblSub O) vs := by krfl
theorem run_DblSubNC' (O : Ops) (vs : List ℕ) : allRun (B_DblSubNC O) 0 (E_DblSubNC O g) vs = allSpec (B_DblSubNC O) vs := by krfl
theorem run_DblMul' (O : Ops) (vs : List ℕ) : allRun (B_DblMul O) 0 (E_DblMul O g) vs = allSpec (B_DblMul O) vs := by krfl
theorem run_DblMod' (O : Ops) (vs : List ℕ) : allRun (B_DblMod O) 0 (E_DblMod O g) vs = allSpec (B_DblMod O) vs := by krfl
theorem run_Fp2Add' (O : Ops) (vs : List ℕ) : allRun (B_Fp2Add O) 0 (E_Fp2Add O g) vs = allSpec (B_Fp2Add O) vs := by krfl
theorem run_Fp2Sub' (O : Ops) (vs : List ℕ) : allRun (B_Fp2Sub O) 0 (E_Fp2Sub O g) vs = allSpec (B_Fp2Sub O) vs := by krfl
theorem run_Fp2Mul' (O : Ops) (vs : List ℕ) : allRun (B_Fp2Mul O) 0 (E_Fp2Mul O g) vs = allSpec (B_Fp2Mul O) vs := by krfl
theorem run_Fp2MulXi' (O : Ops) (vs : List ℕ) : allRun (B_Fp2MulXi O) 0 (E_Fp2MulXi O g) vs = allSpec (B_Fp2MulXi O) vs := by krfl
theorem run_Fp2Square' (O : Ops) (vs : List ℕ) : allRun (B_Fp2Square O) 0 (E_Fp2Square O g) vs = allSpec (B_Fp2Square O) vs := by krfl
theorem run_Fp2MulFp0' (O : Ops) (vs : List ℕ) : allRun (B_Fp2MulFp0 O) 0 (E_Fp2MulFp0 O g) vs = allSpec (B_Fp2MulFp0 O) vs := by krfl
theorem run_Fp2DivBy2' (O : Ops) (vs : List ℕ) : allRun (B_Fp2DivBy2 O) 0 (E_Fp2DivBy2 O g) vs = allSpec (B_Fp2DivBy2 O) vs := by krfl
theorem run_Fp2DblAdd' (O : Ops) (vs : List ℕ) : allRun (B_Fp2DblAdd O) 0 (E_Fp2DblAdd O g) vs = allSpec (B_Fp2DblAdd O) vs := by krfl
theorem run_Fp2DblAddNC' (O : Ops) (vs : List ℕ) : allRun (B_Fp2DblAddNC O) 0 (E_Fp2DblAddNC O g) vs = allSpec (B_Fp2DblAddNC O) vs := by krfl
theorem run_Fp2DblSub' (O : Ops) (vs : List ℕ) : allRun (B_Fp2DblSub O) 0 (E_Fp2DblSub O g) vs = allSpec (B_Fp2DblSub O) vs := by krfl
theorem run_Fp2DblSubNC' (O : Ops) (vs : List ℕ) : allRun (B_Fp2DblSubNC O) 0 (E_Fp2DblSubNC O g) vs = allSpec (B_Fp2DblSubNC O) vs := by krfl
theorem run_Fp2DblMulOpt1' (O : Ops) (vs : List ℕ) : allRun (B_Fp2DblMulOpt1 O) 0 (E_Fp2DblMulOpt1 O g) vs = allSpec (B_Fp2DblMulOpt1 O) vs := by krfl
theorem run_Fp2DblMulOpt2' (O : Ops) (vs : List ℕ) : allRun (B_Fp2DblMulOpt2 O) 0 (E_Fp2DblMulOpt2 O g) vs = allSpec (B_Fp2DblMulOpt2 O) vs := by krfl
theorem run_Fp2DblSquare' (O : Ops) (vs : List ℕ) : allRun (B_Fp2DblSquare O) 0 (E_Fp2DblSquare O g) vs = allSpec (B_Fp2DblSquare O) vs := by krfl
theorem run_Fp2DblMod' (O : Ops) (vs : List ℕ) : allRun (B_Fp2DblMod O) 0 (E_Fp2DblMod O g) vs = allSpec (B_Fp2DblMod O) vs := by krfl
theorem run_Fp2DblMulXi' (O : Ops) (vs : List ℕ) : allRun (B_Fp2DblMulXi O) 0 (E_Fp2DblMulXi O g) vs = allSpec (B_Fp2DblMulXi O) vs := by krfl
theorem run_Fp6Add' (O : Ops) (vs : List ℕ) : allRun (B_Fp6Add O) 0 (E_Fp6Add O g) vs = allSpec (B_Fp6Add O) vs := by krfl
theorem run_Fp6Sub' (O : Ops) (vs : List ℕ) : allRun (B_Fp6Sub O) 0 (E_Fp6Sub O g) vs = allSpec (B_Fp6Sub O) vs := by krfl
theorem run_Fp6DblMul' (O : Ops) (vs : List ℕ) : allRun (B_Fp6DblMul O) 0 (E_Fp6DblMul O g) vs = allSpec (B_Fp6DblMul O) vs := by krfl
theorem run_Fp6Mul' (O : Ops) (vs : List ℕ) : allRun (B_Fp6Mul O) 0 (E_Fp6Mul O g) vs = allSpec (B_Fp6Mul O) vs := by krfl
theorem run_Fp12Square' (O : Ops) (vs : List ℕ) : allRun (B_Fp12Square O) 49 (E_Fp12Square O g) vs = allSpec (B_Fp12Square O) vs := by krfl
theorem run_Fp12Mul' (O : Ops) (vs : List ℕ) : allRun (B_Fp12Mul O) 291 (E_Fp12Mul O g) vs = allSpec (B_Fp12Mul O) vs := by krfl
theorem run_Fp12DblMulFp2_024' (O : Ops) (vs : List ℕ) : allRun (B_Fp12DblMulFp2_024 O) 128 (E_Fp12DblMulFp2_024 O g) vs = allSpec (B_Fp12DblMulFp2_024 O) vs := by krfl
theorem run_PointDblLineEvalWithoutP' (O : Ops) (vs : List ℕ) : allRun (B_PointDblLineEvalWithoutP O) 96 (E_PointDblLineEvalWithoutP O g) vs = allSpec (B_PointDblLineEvalWithoutP O) vs := by krfl
theorem run_PointDblLineEval' (O : Ops) (vs : List ℕ) : allRun (B_PointDblLineEval O) 96 (E_PointDblLineEval O g) vs = allSpec (B_PointDblLineEval O) vs := by krfl
theorem en_FpAdd : SatFn g ra .FpAdd ((B_FpAdd std).frame 7 0) :=
  frame_of_run (by decide) rfl (run_FpAdd' g std) (by unfold E_FpAdd; oks []) (by kcode g)
theorem en_FpSub : SatFn g ra .FpSub ((B_FpSub std).frame 7 0) :=
  frame_of_run (by decide) rfl (run_FpSub' g std) (by unfold E_FpSub; oks []) (by kcode g)
theorem en_FpMul : SatFn g ra .FpMul ((B_FpMul std).frame 10 0) :=
  frame_of_run (by decide) rfl (run_FpMul' g std) (by unfold E_FpMul; oks [ok_FpMul g ra]) (by kcode g)
theorem en_DblAdd : SatFn g ra .DblAdd ((B_DblAdd std).frame 7 0) :=
  frame_of_run (by decide) rfl (run_DblAdd' g std) (by unfold E_DblAdd; oks []) (by kcode g)
theorem en_DblAddNC : SatFn g ra .DblAddNC ((B_DblAddNC std).frame 7 0) :=
  frame_of_run (by decide) rfl (run_DblAddNC' g std) (by unfold E_DblAddNC; oks [ok_DAddNCN (ok_DblAddNC g ra)]) (by kcode g)
theorem en_DblSub : SatFn g ra .DblSub ((B_DblSub std).frame 7 0) :=
  frame_of_run (by decide) rfl (run_DblSub' g std) (by unfold E_DblSub; oks []) (by kcode g)
theorem en_DblSubNC : SatFn g ra .DblSubNC ((B_DblSubNC std).frame 7 0) :=
  frame_of_run (by decide) rfl (run_DblSubNC' g std) (by unfold E_DblSubNC; oks []) (by kcode g)
theorem en_DblMul : SatFn g ra .DblMul ((B_DblMul std).frame 10 0) :=
  frame_of_run (by decide) rfl (run_DblMul' g std) (by unfold E_DblMul; oks []) (by kcode g)
theorem en_DblMod : SatFn g ra .DblMod ((B_DblMod std).frame 10 0) :=
  frame_of_run (by decide) rfl (run_DblMod' g std) (by unfold E_DblMod; oks [ok_DblMod g ra]) (by kcode g)
theorem en_Fp2Add : SatFn g ra .Fp2Add ((B_Fp2Add std).frame 7 0) :=
  frame_of_run (by decide) rfl (run_Fp2Add' g std) (by unfold E_Fp2Add; oks []) (by kcode g)
theorem en_Fp2Sub : SatFn g ra .Fp2Sub ((B_Fp2Sub std).frame 7 0) :=
  frame_of_run (by decide) rfl (run_Fp2Sub' g std) (by unfold E_Fp2Sub; oks []) (by kcode g)
theorem en_Fp2Mul : SatFn g ra .Fp2Mul ((B_Fp2Mul std).frame 10 0) :=
  frame_of_run (by decide) rfl (run_Fp2Mul' g std) (by unfold E_Fp2Mul; oks [ok_Fp2Mul g ra]) (by kcode g)
theorem en_Fp2MulXi : SatFn g ra .Fp2MulXi ((B_Fp2MulXi std).frame 7 0) :=
  frame_of_run (by decide) rfl (run_Fp2MulXi' g std) (by unfold E_Fp2MulXi; oks [ok_xi (by decide)]) (by kcode g)
theorem en_Fp2Square : SatFn g ra .Fp2Square ((B_Fp2Square std).frame 10 0) :=
  frame_of_run (by decide) rfl (run_Fp2Square' g std) (by unfold E_Fp2Square; oks [ok_Fp2Square g ra]) (by kcode g)
theorem en_Fp2MulFp0 : SatFn g ra .Fp2MulFp0 ((B_Fp2MulFp0 std).frame 10 0) :=
  frame_of_run (by decide) rfl (run_Fp2MulFp0' g std) (by unfold E_Fp2MulFp0; oks [ok_FpMul g ra]) (by kcode g)
theorem en_Fp2DivBy2 : SatFn g ra .Fp2DivBy2 ((B_Fp2DivBy2 std).frame 7 0) :=
  frame_of_run (by decide) rfl (run_Fp2DivBy2' g std) (by unfold E_Fp2DivBy2; oks [ok_Fp2DivBy2 g ra]) (by kcode g)
theorem en_Fp2DblAdd : SatFn g ra .Fp2DblAdd ((B_Fp2DblAdd std).frame 7 0) :=
  frame_of_run (by decide) rfl (run_Fp2DblAdd' g std) (by unfold E_Fp2DblAdd; oks []) (by kcode g)
theorem en_Fp2DblAddNC : SatFn g ra .Fp2DblAddNC ((B_Fp2DblAddNC std).frame 7 0) :=
  frame_of_run (by decide) rfl (run_Fp2DblAddNC' g std) (by unfold E_Fp2DblAddNC; oks [ok_DAddNCN (ok_DblAddNC g ra)]) (by kcode g)
theorem en_Fp2DblSub : SatFn g ra .Fp2DblSub ((B_Fp2DblSub std).frame 7 0) :=
  frame_of_run (by decide) rfl (run_Fp2DblSub' g std) (by unfold E_Fp2DblSub; oks []) (by kcode g)
theorem en_Fp2DblSubNC : SatFn g ra .Fp2DblSubNC ((B_Fp2DblSubNC std).frame 7 0) :=
  frame_of_run (by decide) rfl (run_Fp2DblSubNC' g std) (by unfold E_Fp2DblSubNC; oks []) (by kcode g)
theorem en_Fp2DblMulOpt1 : SatFn g ra .Fp2DblMulOpt1 ((B_Fp2DblMulOpt1 std).frame 10 0) :=
  frame_of_run (by decide) rfl (run_Fp2DblMulOpt1' g std) (by unfold E_Fp2DblMulOpt1; oks [ok_MulOpt1 g ra]) (by kcode g)
theorem en_Fp2DblMulOpt2 : SatFn g ra .Fp2DblMulOpt2 ((B_Fp2DblMulOpt2 std).frame 10 0) :=
  frame_of_run (by decide) rfl (run_Fp2DblMulOpt2' g std) (by unfold E_Fp2DblMulOpt2; oks [ok_MulOpt2 g ra]) (by kcode g)
theorem en_Fp2DblSquare : SatFn g ra .Fp2DblSquare ((B_Fp2DblSquare std).frame 9 0) :=
  frame_of_run (by decide) rfl (run_Fp2DblSquare' g std) (by unfold E_Fp2DblSquare; oks [ok_DblSquare g ra]) (by kcode g)
theorem en_Fp2DblMod : SatFn g ra .Fp2DblMod ((B_Fp2DblMod std).frame 10 0) :=
  frame_of_run (by decide) rfl (run_Fp2DblMod' g std) (by unfold E_Fp2DblMod; oks [ok_Mod2]) (by kcode g)
theorem en_Fp2DblMulXi : SatFn g ra .Fp2DblMulXi ((B_Fp2DblMulXi std).frame 7 0) :=
  frame_of_run (by decide) rfl (run_Fp2DblMulXi' g std) (by unfold E_Fp2DblMulXi; oks [ok_DblMulXi g ra]) (by kcode g)
theorem en_Fp6Add : SatFn g ra .Fp6Add ((B_Fp6Add std).frame 7 0) :=
  frame_of_run (by decide) rfl (run_Fp6Add' g std) (by unfold E_Fp6Add; oks [ok_Fp6Add g ra]) (by kcode g)
theorem en_Fp6Sub : SatFn g ra .Fp6Sub ((B_Fp6Sub std).frame 7 0) :=
  frame_of_run (by decide) rfl (run_Fp6Sub' g std) (by unfold E_Fp6Sub; oks [ok_Fp6Sub g ra]) (by kcode g)
theorem en_Fp6DblMul : SatFn g ra .Fp6DblMul ((B_Fp6DblMul std).frame 10 0) :=
  frame_of_run (by decide) rfl (run_Fp6DblMul' g std) (by unfold E_Fp6DblMul; oks [ok_Fp6DblMul g ra]) (by kcode g)
theorem en_Fp6Mul : SatFn g ra .Fp6Mul ((B_Fp6Mul std).frame 10 0) :=
  frame_of_run (by decide) rfl (run_Fp6Mul' g std) (by unfold E_Fp6Mul; oks [ok_Fp6Mul g ra]) (by kcode g)
theorem en_Fp12Square : SatFn g ra .Fp12Square ((B_Fp12Square std).frame 10 49) :=
  frame_of_run (by decide) rfl (run_Fp12Square' g std) (by unfold E_Fp12Square; oks [ok_DAddNCN (ok_DblAddNC g ra), ok_Dbl2 (ok_DblAdd g ra), ok_Dbl2 (ok_DblSub g ra), ok_MulXi2, ok_Mod2, ok_gamma (by decide), ok_xi (by decide), ok_Fp2Add g ra, ok_Fp2Sub g ra, ok_Fp2AddNC g ra, ok_MulOpt2 g ra, ok_Fp6DblMul g ra, ok_Fp6Mul g ra, ok_Fp6Add g ra, ok_Fp6Sub g ra, ok_DblMod g ra, ok_Fp2Square g ra, ok_Fp2Mul g ra, ok_Fp2DivBy2 g ra, ok_DblSquare g ra, ok_FpMul g ra, ok_neg2]) (by kcode g)
theorem en_Fp12Mul : SatFn g ra .Fp12Mul ((B_Fp12Mul std).frame 10 291) :=
  frame_of_run (by decide) rfl (run_Fp12Mul' g std) (by
    unfold E_Fp12Mul
    refine ok_append (by oks [ok_DAddNCN (ok_DblAddNC g ra), ok_Dbl2 (ok_DblAdd g ra), ok_Dbl2 (ok_DblSub g ra), ok_MulXi2, ok_Mod2, ok_gamma (by decide), ok_xi (by decide), ok_Fp2Add g ra, ok_Fp2Sub g ra, ok_Fp2AddNC g ra, ok_MulOpt2 g ra, ok_Fp6DblMul g ra, ok_Fp6Mul g ra, ok_Fp6Add g ra, ok_Fp6Sub g ra, ok_DblMod g ra, ok_Fp2Square g ra, ok_Fp2Mul g ra, ok_Fp2DivBy2 g ra, ok_DblSquare g ra, ok_FpMul g ra, ok_neg2]) (ok_flatMap fun i => ?_)
    split <;> oks [ok_DblMod g ra]) (by kcode g)
theorem en_Fp12DblMulFp2_024 : SatFn g ra .Fp12DblMulFp2_024 ((B_Fp12DblMulFp2_024 std).frame 10 128) :=
  frame_of_run (by decide) rfl (run_Fp12DblMulFp2_024' g std) (by unfold E_Fp12DblMulFp2_024; oks [ok_DAddNCN (ok_DblAddNC g ra), ok_Dbl2 (ok_DblAdd g ra), ok_Dbl2 (ok_DblSub g ra), ok_MulXi2, ok_Mod2, ok_gamma (by decide), ok_xi (by decide), ok_Fp2Add g ra, ok_Fp2Sub g ra, ok_Fp2AddNC g ra, ok_MulOpt2 g ra, ok_Fp6DblMul g ra, ok_Fp6Mul g ra, ok_Fp6Add g ra, ok_Fp6Sub g ra, ok_DblMod g ra, ok_Fp2Square g ra, ok_Fp2Mul g ra, ok_Fp2DivBy2 g ra, ok_DblSquare g ra, ok_FpMul g ra, ok_neg2]) (by kcode g)
theorem en_PointDblLineEvalWithoutP : SatFn g ra .PointDblLineEvalWithoutP ((B_PointDblLineEvalWithoutP std).frame 10 96) :=
  frame_of_run (by decide) rfl (run_PointDblLineEvalWithoutP' g std) (by unfold E_PointDblLineEvalWithoutP; oks [ok_DAddNCN (ok_DblAddNC g ra), ok_Dbl2 (ok_DblAdd g ra), ok_Dbl2 (ok_DblSub g ra), ok_MulXi2, ok_Mod2, ok_gamma (by decide), ok_xi (by decide), ok_Fp2Add g ra, ok_Fp2Sub g ra, ok_Fp2AddNC g ra, ok_MulOpt2 g ra, ok_Fp6DblMul g ra, ok_Fp6Mul g ra, ok_Fp6Add g ra, ok_Fp6Sub g ra, ok_DblMod g ra, ok_Fp2Square g ra, ok_Fp2Mul g ra, ok_Fp2DivBy2 g ra, ok_DblSquare g ra, ok_FpMul g ra, ok_neg2]) (by kcode g)
theorem en_PointDblLineEval : SatFn g ra .PointDblLineEval ((B_PointDblLineEval std).frame 10 96) :=
  frame_of_run (by decide) rfl (run_PointDblLineEval' g std) (by
    unfold E_PointDblLineEval E_PointDblLineEvalWithoutP
    oks [ok_DAddNCN (ok_DblAddNC g ra), ok_Dbl2 (ok_DblAdd g ra), ok_Dbl2 (ok_DblSub g ra), ok_MulXi2, ok_Mod2, ok_gamma (by decide), ok_xi (by decide), ok_Fp2Add g ra, ok_Fp2Sub g ra, ok_Fp2AddNC g ra, ok_MulOpt2 g ra, ok_Fp6DblMul g ra, ok_Fp6Mul g ra, ok_Fp6Add g ra, ok_Fp6Sub g ra, ok_DblMod g ra, ok_Fp2Square g ra, ok_Fp2Mul g ra, ok_Fp2DivBy2 g ra, ok_DblSquare g ra, ok_FpMul g ra, ok_neg2]) (by kcode g)
end

end Jit
end Verif
