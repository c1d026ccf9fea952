import Verif.X64.Machine

/-! The routines generated by class `Code` of `src/zm.cpp` (lines 195-553), for the calling convention of Linux:
arguments in rdi, rsi, rdx, rcx, result in rax.  `align` only inserts no-operations and is left out. -/

namespace Verif
namespace X64

open Reg

/-- `mov(d, ptr [b + 8 * k])` -/
def ld (d b : Reg) (k : ℕ) : Op := .mov d (.m { base := b, disp := 8 * k })
/-- `mov(ptr [b + 8 * k], d)` -/
def sto (b : Reg) (k : ℕ) (d : Reg) : Op := .st { base := b, disp := 8 * k } d
/-- `o(d, ptr [b + 8 * k])` -/
def alum (o : Alu) (d b : Reg) (k : ℕ) : Op := .alu o d (.m { base := b, disp := 8 * k })

/-- `add` or `sub` -/
def as (isAdd : Bool) : Alu := if isAdd then .add else .sub
/-- `adc` or `sbb` -/
def cas (isAdd : Bool) : Alu := if isAdd then .adc else .sbb

/-- zm.cpp:224-230, 283-289: one word -/
def words1 (isAdd : Bool) : List Op :=
  [ld rax rsi 0, alum (as isAdd) rax rdx 0, sto rdi 0 rax]

/-- zm.cpp:238-248, 298-308: two words -/
def words2 (isAdd : Bool) : List Op :=
  [ld rax rsi 0, ld r8 rsi 1,
   alum (as isAdd) rax rdx 0, alum (cas isAdd) r8 rdx 1,
   sto rdi 0 rax, sto rdi 1 r8]

/-- zm.cpp:254-268, 315-329: three words -/
def words3 (isAdd : Bool) : List Op :=
  [ld rax rsi 0, ld r8 rsi 1, ld r9 rsi 2,
   alum (as isAdd) rax rdx 0, alum (cas isAdd) r8 rdx 1, alum (cas isAdd) r9 rdx 2,
   sto rdi 0 rax, sto rdi 1 r8, sto rdi 2 r9]

/-- zm.cpp:335-354: four words, with the carry coming in -/
def words4 (isAdd : Bool) : List Op :=
  [ld rax rsi 0, ld r8 rsi 1, ld r9 rsi 2, ld r10 rsi 3,
   alum (cas isAdd) rax rdx 0, alum (cas isAdd) r8 rdx 1, alum (cas isAdd) r9 rdx 2, alum (cas isAdd) r10 rdx 3,
   sto rdi 0 rax, sto rdi 1 r8, sto rdi 2 r9, sto rdi 3 r10]

/-- `lea(x, ptr [x + 8 * k]); lea(y, ptr [y + 8 * k]); lea(out, ptr [out + 8 * k])` -/
def advance (k : ℕ) : List Op :=
  [.lea rsi { base := rsi, disp := 8 * k }, .lea rdx { base := rdx, disp := 8 * k }, .lea rdi { base := rdi, disp := 8 * k }]

/-- `mov(a, 0); setc(al)` -/
def carryOut : List Op := [.mov rax (.i 0), .setc]

/-- `genAddSub` (zm.cpp:197-367).  Labels: 0 `.main`, 1 `.lp`, 2-5 the anonymous labels `@@` in order. -/
def genAddSub (isAdd : Bool) : List Ins :=
  ([.alu .cmp rcx (.i 4)] : List Op).map .op ++ (.jcc .ge 0 ::
  (([.alu .cmp rcx (.i 1)] : List Op).map .op ++ (.jcc .nz 2 ::
  ((words1 isAdd ++ carryOut).map .op ++ (.ret :: .lab 2 ::
  (([.alu .cmp rcx (.i 2)] : List Op).map .op ++ (.jcc .nz 3 ::
  ((words2 isAdd ++ carryOut).map .op ++ (.ret :: .lab 3 ::
  ((words3 isAdd ++ carryOut).map .op ++ (.ret :: .lab 0 ::
  (([.mov rax (.r rcx), .shr rcx 2, .alu .and rax (.i 3)] : List Op).map .op ++ (.jcc .z 1 ::
  (([.alu .cmp rax (.i 1)] : List Op).map .op ++ (.jcc .nz 4 ::
  ((words1 isAdd ++ advance 1).map .op ++ (.jmp 1 :: .lab 4 ::
  (([.alu .cmp rax (.i 2)] : List Op).map .op ++ (.jcc .nz 5 ::
  ((words2 isAdd ++ advance 2).map .op ++ (.jmp 1 :: .lab 5 ::
  ((words3 isAdd ++ advance 3).map .op ++ (.lab 1 ::
  ((words4 isAdd ++ advance 4 ++ [Op.dec rcx]).map .op ++ (.jcc .nz 1 ::
  (carryOut.map .op ++ [.ret]))))))))))))))))))))))))))

/-- zm.cpp:383-402: the part before the loop of `genAddSub1` -/
def head1 (isAdd : Bool) : List Op :=
  [.mov r10 (.r rcx), .mov rcx (.r rdx),
   .lea rdi { base := rdi, idx := some rcx }, .lea rsi { base := rsi, idx := some rcx }, .alu .xor rax (.r rax), .neg rcx,
   .mov r8 (.m { base := rsi, idx := some rcx }), .alu (as isAdd) r8 (.r r10), .st { base := rdi, idx := some rcx } r8,
   .inc rcx]

/-- zm.cpp:405-412: the loop body of `genAddSub1` -/
def loop1 (isAdd : Bool) : List Op :=
  [.mov r8 (.m { base := rsi, idx := some rcx }), .alu (cas isAdd) r8 (.r rax), .st { base := rdi, idx := some rcx } r8,
   .inc rcx]

/-- `genAddSub1` (zm.cpp:369-417).  Labels: 0 `.exit`, 1 `.lp`. -/
def genAddSub1 (isAdd : Bool) : List Ins :=
  (head1 isAdd).map .op ++ (.jcc .z 0 :: .lab 1 :: ((loop1 isAdd).map .op ++ (.jcc .nz 1 :: .lab 0 ::
  (([.setc] : List Op).map .op ++ [.ret]))))

/-- zm.cpp:446-454 -/
def mulBody : List Op :=
  [.mov r11 (.r rdx), ld rax rsi 0, .mul rcx, .alu .add r11 (.r rax), .alu .adc rdx (.i 0), sto rdi 0 r11,
   .alu .add rsi (.i 8), .alu .add rdi (.i 8), .alu .sub r10 (.i 1)]

/-- `genMul` (zm.cpp:419-459) -/
def genMul : List Ins :=
  ([.mov r10 (.r rdx), .alu .xor rdx (.r rdx)] : List Op).map .op ++ (.lab 0 :: (mulBody.map .op ++ (.jcc .nz 0 ::
  (([sto rdi 0 rdx] : List Op).map .op ++ [.ret]))))

/-- zm.cpp:488-493 -/
def divBody : List Op :=
  [ld rax rsi 0, .div rcx, sto rdi 0 rax, .alu .sub rsi (.i 8), .alu .sub rdi (.i 8), .alu .sub r10 (.i 1)]

/-- `genDiv` (zm.cpp:461-498); the displacement is −8 mod 2^64 -/
def genDiv : List Ins :=
  ([.mov r10 (.r rdx), .lea rsi { base := rsi, idx := some r10, disp := 18446744073709551608 },
    .lea rdi { base := rdi, idx := some r10, disp := 18446744073709551608 }, .alu .xor rdx (.r rdx)] : List Op).map .op ++
  (.lab 0 :: (divBody.map .op ++ (.jcc .nz 0 :: (([.mov rax (.r rdx)] : List Op).map .op ++ [.ret]))))

/-- zm.cpp:523-527 -/
def modBody : List Op :=
  [ld rax rdi 0, .div r10, .alu .sub rdi (.i 8), .alu .sub rsi (.i 1)]

/-- `genMod` (zm.cpp:499-533); the displacement is −8 mod 2^64 -/
def genMod : List Ins :=
  ([.mov r10 (.r rdx), .lea rdi { base := rdi, idx := some rsi, disp := 18446744073709551608 }, .alu .xor rdx (.r rdx)] : List Op).map .op ++
  (.lab 0 :: (modBody.map .op ++ (.jcc .nz 0 :: (([.mov rax (.r rdx)] : List Op).map .op ++ [.ret]))))

end X64
end Verif
