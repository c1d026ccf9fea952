import Verif.Cpp.Comp

/-!
C53 for the tower: the portable C++ routines of `Fp2T`, `Fp2T::Dbl`, `Fp6T`, `Fp6T::Dbl`, `Fp12T` and `CompressT`
on objects in memory.  For each routine: for all contents of memory and all arguments — the result object may be one
of the operands unless stated otherwise — the result object afterwards holds what the generated routine of that name
stores, and no other object of the caller has changed.
-/

namespace Verif.Cpp
open Jit (r2 r6 r12 l2 l6 l12)

theorem exec_append (p q : List Stmt) (m : Mem) : exec (p ++ q) m = exec q (exec p m) := by
  induction p generalizing m with
  | nil => rfl
  | cons s p ih => exact ih _

theorem l12_inj {a b : R12} (h : l12 a = l12 b) : a = b := by
  rcases a with ⟨⟨⟨a1, a2⟩, ⟨a3, a4⟩, ⟨a5, a6⟩⟩, ⟨a7, a8⟩, ⟨a9, a10⟩, ⟨a11, a12⟩⟩
  rcases b with ⟨⟨⟨b1, b2⟩, ⟨b3, b4⟩, ⟨b5, b6⟩⟩, ⟨b7, b8⟩, ⟨b9, b10⟩, ⟨b11, b12⟩⟩
  have h : [a1, a2, a3, a4, a5, a6, a7, a8, a9, a10, a11, a12] = [b1, b2, b3, b4, b5, b6, b7, b8, b9, b10, b11, b12] := h
  injection h with e1 h; injection h with e2 h; injection h with e3 h; injection h with e4 h
  injection h with e5 h; injection h with e6 h; injection h with e7 h; injection h with e8 h
  injection h with e9 h; injection h with e10 h; injection h with e11 h; injection h with e12 h
  rw [e1, e2, e3, e4, e5, e6, e7, e8, e9, e10, e11, e12]

/-- n times the same statements -/
def times (p : List Stmt) : ℕ → List Stmt
  | 0 => []
  | n + 1 => p ++ times p n

theorem squareN_eq (z : Loc) (n : ℕ) : CompressC.squareN z n = times (CompressC.square z) n := by
  induction n with
  | zero => rfl
  | succ n ih => rw [CompressC.squareN, ih, times]

theorem comp_setComp (w : R12) (c : RC) : comp (setComp w c) = c := by cases c; rfl
theorem setComp_comp (w : R12) : setComp w (comp w) = w := rfl
theorem setComp_setComp (w : R12) (c d : RC) : setComp (setComp w c) d = setComp w d := rfl

theorem times_result {p : List Stmt} {z : Loc} {f : RC → RC} {C : RC → Prop}
    (h : ∀ m : Mem, C (comp (m.r12 z)) → Result m (exec p m) z (l12 (setComp (m.r12 z) (f (comp (m.r12 z))))))
    (hf : ∀ c, C c → C (f c)) (m : Mem) (hc : C (comp (m.r12 z))) (n : ℕ) :
    Result m (exec (times p n) m) z (l12 (setComp (m.r12 z) (f^[n] (comp (m.r12 z))))) := by
  induction n generalizing m with
  | zero => exact ⟨o12.rd_eq m z, fun _ _ _ => rfl⟩
  | succ n ih =>
    have h1 := h m hc
    have e : (exec p m).r12 z = setComp (m.r12 z) (f (comp (m.r12 z))) :=
      l12_inj ((o12.rd_eq _ z).symm.trans h1.1)
    have h2 := ih (exec p m) (by rw [e, comp_setComp]; exact hf _ hc)
    rw [e, comp_setComp, ← Function.iterate_succ_apply, setComp_setComp] at h2
    rw [times, exec_append]
    exact ⟨h2.1, fun l hl hi => (h2.2 l hl hi).trans (h1.2 l hl hi)⟩

local syntax "cun" term:max term:max term:max "[" ident,* "]" : term
local macro_rules
  | `(cun $o $f $p [$is,*]) => `(un $o (f := $f) (prog := $p) (by intros; rfl) (by rfl) (by crun [$is,*]) (by intros; rfl) (by rfl) (by crun [$is,*]))
local syntax "cbin" term:max term:max term:max "[" ident,* "]" : term
local macro_rules
  | `(cbin $o $f $p [$is,*]) => `(bin $o (f := $f) (prog := $p) (by intros; rfl) (by rfl) (by crun [$is,*]) (by intros; rfl) (by rfl) (by crun [$is,*]) (by intros; rfl) (by rfl) (by crun [$is,*]) (by intros; rfl) (by rfl) (by crun [$is,*]))
local syntax "cmk2" term:max term:max term:max term:max "[" ident,* "]" : term
local macro_rules
  | `(cmk2 $o $o' $f $p [$is,*]) => `(mk2 $o $o' (f := $f) (prog := $p) (by intros; rfl) (by rfl) (by crun [$is,*]))
local syntax "cmk3" term:max term:max term:max term:max term:max "[" ident,* "]" : term
local macro_rules
  | `(cmk3 $o $o' $o'' $f $p [$is,*]) => `(mk3 $o $o' $o'' (f := $f) (prog := $p) (by intros; rfl) (by rfl) (by crun [$is,*]))

/-- memory for the examples: all cells different -/
def mEx : Mem := fun l => 100 * l.o + l.i + 1

section
variable (m : Mem) {z x y : Loc} (hz : Ext z) (hx : Ext x) (hy : Ext y)
include hz hx

/-- **C53** `Fp2T::divBy2C`; the pointer-free `neg` and `divBy4` -/
theorem C53_fp2_un (h : Same z x 2) :
    Result m (exec (Fp2C.divBy2 z x) m) z (l2 (Fp2.divBy2 (m.r2 x))) ∧
    Result m (exec (Fp2C.neg z x) m) z (l2 (Fp2.neg (m.r2 x))) ∧
    Result m (exec (Fp2C.divBy4 z x) m) z (l2 (Fp2.divBy4 (m.r2 x))) :=
  ⟨(cun o2 Fp2.divBy2 Fp2C.divBy2 [Fp2C.divBy2, Fp2.divBy2]) m z x hz hx h,
   (cun o2 Fp2.neg Fp2C.neg [Fp2C.neg, Fp2.neg]) m z x hz hx h,
   (cun o2 Fp2.divBy4 Fp2C.divBy4 [Fp2C.divBy4, Fp2.divBy4]) m z x hz hx h⟩

omit hz hx in
/-- in place, and the result is not the operand -/
example : Ext ⟨1, 4⟩ ∧ Same ⟨1, 4⟩ ⟨1, 4⟩ 2 ∧ rd (exec (Fp2C.divBy2 ⟨1, 4⟩ ⟨1, 4⟩) mEx) ⟨1, 4⟩ 2 ≠ rd mEx ⟨1, 4⟩ 2 ∧
    exec (Fp2C.divBy2 ⟨1, 4⟩ ⟨1, 4⟩) mEx ⟨1, 6⟩ = 107 :=
  ⟨Nat.one_ne_zero, Or.inl rfl, by decide +kernel, by decide +kernel⟩

include hy in
/-- **C53** `Fp2T::addC`, `addNC_C`, `subC`, `subNC_C`, `mulC` -/
theorem C53_fp2_bin (h : Same z x 2) (h' : Same z y 2) :
    Result m (exec (Fp2C.add z x y) m) z (l2 (Fp2.add (m.r2 x) (m.r2 y))) ∧
    Result m (exec (Fp2C.addNC z x y) m) z (l2 (Fp2.addNC (m.r2 x) (m.r2 y))) ∧
    Result m (exec (Fp2C.sub z x y) m) z (l2 (Fp2.sub (m.r2 x) (m.r2 y))) ∧
    Result m (exec (Fp2C.subNC z x y) m) z [Fp.subNC (m x) (m y), Fp.subNC (m (x.plus 1)) (m (y.plus 1))] ∧
    Result m (exec (Fp2C.mul z x y) m) z (l2 (Fp2.mul (m.r2 x) (m.r2 y))) :=
  ⟨(cbin o2 Fp2.add Fp2C.add [Fp2C.add, Fp2.add]) m z x y hz hx hy h h',
   (cbin o2 Fp2.addNC Fp2C.addNC [Fp2C.addNC, Fp2.addNC]) m z x y hz hx hy h h',
   (cbin o2 Fp2.sub Fp2C.sub [Fp2C.sub, Fp2.sub]) m z x y hz hx hy h h',
   (cbin o2 (fun u v => ⟨Fp.subNC u.a v.a, Fp.subNC u.b v.b⟩) Fp2C.subNC [Fp2C.subNC]) m z x y hz hx hy h h',
   (cbin o2 Fp2.mul Fp2C.mul [Fp2C.mul, Fp2.mul]) m z x y hz hx hy h h'⟩

omit hz hx in
/-- x = y = z, and y inside the same array as z: neighbours are apart -/
example : Same ⟨1, 0⟩ ⟨1, 0⟩ 2 ∧ Same ⟨1, 0⟩ ⟨1, 2⟩ 2 ∧ ¬ Same ⟨1, 0⟩ ⟨1, 1⟩ 2 ∧
    rd (exec (Fp2C.mul ⟨1, 0⟩ ⟨1, 0⟩ ⟨1, 2⟩) mEx) ⟨1, 0⟩ 2 ≠ rd mEx ⟨1, 0⟩ 2 ∧
    rd (exec (Fp2C.mul ⟨1, 0⟩ ⟨1, 0⟩ ⟨1, 2⟩) mEx) ⟨1, 2⟩ 2 = [103, 104] := by
  refine ⟨Or.inl rfl, Or.inr (Or.inr (Or.inl (le_refl _))), ?_, by decide +kernel, by decide +kernel⟩
  rintro (h | h | h | h)
  · simp at h
  · simp at h
  · simp at h
  · simp at h

include hy in
/-- **C53** `Fp2T::Dbl::addC`, `addNC_C`, `subC`, `subNC_C` -/
theorem C53_fp2dbl_bin (h : Same z x 2) (h' : Same z y 2) :
    Result m (exec (Fp2C.dAdd z x y) m) z (l2 (Fp2.dAdd (m.r2 x) (m.r2 y))) ∧
    Result m (exec (Fp2C.dAddNC z x y) m) z (l2 (Fp2.dAddNC (m.r2 x) (m.r2 y))) ∧
    Result m (exec (Fp2C.dSub z x y) m) z (l2 (Fp2.dSub (m.r2 x) (m.r2 y))) ∧
    Result m (exec (Fp2C.dSubNC z x y) m) z [Fp.dblSubNC (m x) (m y), Fp.dblSubNC (m (x.plus 1)) (m (y.plus 1))] :=
  ⟨(cbin o2 Fp2.dAdd Fp2C.dAdd [Fp2C.dAdd, Fp2.dAdd]) m z x y hz hx hy h h',
   (cbin o2 Fp2.dAddNC Fp2C.dAddNC [Fp2C.dAddNC, Fp2.dAddNC]) m z x y hz hx hy h h',
   (cbin o2 Fp2.dSub Fp2C.dSub [Fp2C.dSub, Fp2.dSub]) m z x y hz hx hy h h',
   (cbin o2 (fun u v => ⟨Fp.dblSubNC u.a v.a, Fp.dblSubNC u.b v.b⟩) Fp2C.dSubNC [Fp2C.dSubNC]) m z x y hz hx hy h h'⟩

omit hz hx in
example : rd (exec (Fp2C.dSub ⟨1, 0⟩ ⟨2, 0⟩ ⟨1, 0⟩) mEx) ⟨1, 0⟩ 2 = [100, 100] ∧ Same ⟨1, 0⟩ ⟨2, 0⟩ 2 :=
  ⟨by decide +kernel, Or.inr (Or.inl (by simp))⟩

/-- **C53** `Fp2T::Dbl::negC` (double-width operand and result) -/
theorem C53_fp2dbl_neg (h : Same z x 2) :
    Result m (exec (Fp2C.dNeg z x) m) z [Fp.dblNeg (m x), Fp.dblNeg (m (x.plus 1))] :=
  (cun o2 (fun u => ⟨Fp.dblNeg u.a, Fp.dblNeg u.b⟩) Fp2C.dNeg [Fp2C.dNeg]) m z x hz hx h

omit hz hx in
example : rd (exec (Fp2C.dNeg ⟨1, 0⟩ ⟨1, 0⟩) mEx) ⟨1, 0⟩ 2 ≠ rd mEx ⟨1, 0⟩ 2 := by decide +kernel

/-- **C53** `Fp2T::Dbl::squareC` and `modC`: operand and result are objects of different types -/
theorem C53_fp2dbl_square_mod (h : Apart z 2 x 2) :
    Result m (exec (Fp2C.dSquare z x) m) z (l2 (Fp2.dSquare (m.r2 x))) ∧
    Result m (exec (Fp2C.dMod z x) m) z (l2 (Fp2.dMod (m.r2 x))) :=
  ⟨(cmk2 o2 o2 Fp2.dSquare Fp2C.dSquare [Fp2C.dSquare, Fp2.dSquare]) m z x hz hx h,
   (cmk2 o2 o2 Fp2.dMod Fp2C.dMod [Fp2C.dMod, Fp2.dMod]) m z x hz hx h⟩

omit hz hx in
/-- (101 + 102u)²: the real part is formed as (101 + 102) (101 + p - 102) -/
example : rd (exec (Fp2C.dSquare ⟨2, 0⟩ ⟨1, 0⟩) mEx) ⟨2, 0⟩ 2 = [203 * (Fp.p - 1), 2 * 101 * 102] := by decide +kernel

include hy in
/-- **C53** `Fp2T::Dbl::mulOpt1C`, `mulOpt2C`: the operands are `Fp2`, the result is an `Fp2Dbl` -/
theorem C53_fp2dbl_mulOpt (h : Apart z 2 x 2) (h' : Apart z 2 y 2) :
    Result m (exec (Fp2C.mulOpt1 z x y) m) z (l2 (Fp2.mulOpt1 (m.r2 x) (m.r2 y))) ∧
    Result m (exec (Fp2C.mulOpt2 z x y) m) z (l2 (Fp2.mulOpt2 (m.r2 x) (m.r2 y))) :=
  ⟨(cmk3 o2 o2 o2 Fp2.mulOpt1 Fp2C.mulOpt1 [Fp2C.mulOpt1, Fp2C.mulOpt, Fp2.mulOpt1]) m z x y hz hx hy h h',
   (cmk3 o2 o2 o2 Fp2.mulOpt2 Fp2C.mulOpt2 [Fp2C.mulOpt2, Fp2C.mulOpt, Fp2.mulOpt2]) m z x y hz hx hy h h'⟩

omit hz hx in
/-- (101 + 102u) (201 + 202u) -/
example : (rd (exec (Fp2C.mulOpt2 ⟨3, 0⟩ ⟨1, 0⟩ ⟨2, 0⟩) mEx) ⟨3, 0⟩ 2).getD 1 0 = 101 * 202 + 102 * 201 := by decide +kernel

/-- **C53** `Fp2T::mul_xiC` and `Fp2T::Dbl::mul_xiC`, result apart from the operand -/
theorem C53_fp2_mul_xi (h : Apart z 2 x 2) :
    Result m (exec (Fp2C.mulXi z x) m) z (l2 (Fp2.mulXi (m.r2 x))) ∧
    Result m (exec (Fp2C.dMulXi z x) m) z (l2 (Fp2.dMulXi (m.r2 x))) :=
  ⟨(cmk2 o2 o2 Fp2.mulXi Fp2C.mulXi [Fp2C.mulXi, Fp2.mulXi]) m z x hz hx h,
   (cmk2 o2 o2 Fp2.dMulXi Fp2C.dMulXi [Fp2C.dMulXi, Fp2.dMulXi]) m z x hz hx h⟩

omit hz hx in
example : rd (exec (Fp2C.mulXi ⟨2, 0⟩ ⟨1, 0⟩) mEx) ⟨2, 0⟩ 2 = [Fp.p - 1, 203] := by decide +kernel

include hy in
/-- **C53** `Fp2T::mul_Fp_0C`: the `Fp` must not be part of the result -/
theorem C53_fp2_mul_Fp_0 (h : Same z x 2) (h' : Apart z 2 y 1) :
    Result m (exec (Fp2C.mulFp0 z x y) m) z (l2 (Fp2.mulFp0 (m.r2 x) (m y))) :=
  bin' o2 o1 (f := Fp2.mulFp0) (prog := Fp2C.mulFp0) (by intros; rfl) (by rfl) (by crun [Fp2C.mulFp0, Fp2.mulFp0])
    (by intros; rfl) (by rfl) (by crun [Fp2C.mulFp0, Fp2.mulFp0]) m z x y hz hx hy h h'

omit hz hx in
/-- in place, the factor right behind the object -/
example : Apart ⟨1, 0⟩ 2 ⟨1, 2⟩ 1 ∧ rd (exec (Fp2C.mulFp0 ⟨1, 0⟩ ⟨1, 0⟩ ⟨1, 2⟩) mEx) ⟨1, 0⟩ 2 ≠ rd mEx ⟨1, 0⟩ 2 :=
  ⟨Or.inr (Or.inl (le_refl _)), by decide +kernel⟩

/-- **C53** `Fp2T::squareC` stores `Fp2.squareC`, which is not the square (`C53_fp2_squareC_wrong`). -/
theorem C53_fp2_squareC_stores (h : Same z x 2) :
    Result m (exec (Fp2C.square z x) m) z (l2 (Fp2.squareC (m.r2 x))) :=
  (cun o2 Fp2.squareC Fp2C.square [Fp2C.square, Fp2.squareC]) m z x hz hx h

omit hz hx in
example : rd (exec (Fp2C.square ⟨1, 0⟩ ⟨1, 0⟩) mEx) ⟨1, 0⟩ 2 ≠ l2 (Fp2.square (mEx.r2 ⟨1, 0⟩)) := by decide +kernel

include hy in
/-- **C53** `Fp6T::addC`, `subC`, `mulC`, and `Fp6T::Dbl::add`, `sub` -/
theorem C53_fp6_bin (h : Same z x 6) (h' : Same z y 6) :
    Result m (exec (Fp6C.add z x y) m) z (l6 (Fp6.add (m.r6 x) (m.r6 y))) ∧
    Result m (exec (Fp6C.sub z x y) m) z (l6 (Fp6.sub (m.r6 x) (m.r6 y))) ∧
    Result m (exec (Fp6C.mul z x y) m) z (l6 (Fp6.mul (m.r6 x) (m.r6 y))) ∧
    Result m (exec (Fp6C.dAdd z x y) m) z (l6 (Fp6.dAdd (m.r6 x) (m.r6 y))) ∧
    Result m (exec (Fp6C.dSub z x y) m) z (l6 (Fp6.dSub (m.r6 x) (m.r6 y))) :=
  ⟨(cbin o6 Fp6.add Fp6C.add [Fp6C.add, Fp6.add]) m z x y hz hx hy h h',
   (cbin o6 Fp6.sub Fp6C.sub [Fp6C.sub, Fp6.sub]) m z x y hz hx hy h h',
   (cbin o6 Fp6.mul Fp6C.mul [Fp6C.mul, Fp6.mul, Fp6.dMod, Fp6C.dMod]) m z x y hz hx hy h h',
   (cbin o6 Fp6.dAdd Fp6C.dAdd [Fp6C.dAdd, Fp6.dAdd]) m z x y hz hx hy h h',
   (cbin o6 Fp6.dSub Fp6C.dSub [Fp6C.dSub, Fp6.dSub]) m z x y hz hx hy h h'⟩

omit hz hx in
example : rd (exec (Fp6C.add ⟨1, 0⟩ ⟨1, 0⟩ ⟨1, 6⟩) mEx) ⟨1, 0⟩ 7 = [208, 210, 212, 214, 216, 218, 107] ∧
    rd (exec (Fp6C.mul ⟨1, 0⟩ ⟨1, 0⟩ ⟨1, 0⟩) mEx) ⟨1, 0⟩ 6 ≠ rd mEx ⟨1, 0⟩ 6 := by
  refine ⟨by decide +kernel, by decide +kernel⟩

include hy in
/-- **C53** `Fp6T::Dbl::mulC`: the operands are `Fp6`, the result is an `Fp6Dbl` -/
theorem C53_fp6dbl_mul (h : Apart z 6 x 6) (h' : Apart z 6 y 6) :
    Result m (exec (Fp6C.dMul z x y) m) z (l6 (Fp6.dMul (m.r6 x) (m.r6 y))) :=
  (cmk3 o6 o6 o6 Fp6.dMul Fp6C.dMul [Fp6C.dMul, Fp6.dMul, Fp2C.dMulXi, Fp2.dMulXi]) m z x y hz hx hy h h'

omit hz hx in
/-- the result depends on the operands -/
example : rd (exec (Fp6C.dMul ⟨3, 0⟩ ⟨1, 0⟩ ⟨2, 0⟩) mEx) ⟨3, 0⟩ 6 ≠ rd (exec (Fp6C.dMul ⟨3, 0⟩ ⟨1, 0⟩ ⟨1, 0⟩) mEx) ⟨3, 0⟩ 6 := by
  decide +kernel

/-- **C53** `pointDblLineEvalWithoutPC(l, R)`: l and R are different objects; x stands for R -/
theorem C53_dblLineWithoutP (h : Apart z 6 x 6) :
    Results m (exec (Fp6C.pointDblLineEvalWithoutP z x) m)
      (let e := Verif.pointDblLineEvalWithoutP (m.r2 x) (m.r2 (x.plus 2)) (m.r2 (x.plus 4))
       [(z, l6 e.l), (x, l2 e.x ++ l2 e.y ++ l2 e.z)]) :=
  mk2w o6 o6 (f := fun _ X => (Verif.pointDblLineEvalWithoutP X.a X.b X.c).l)
    (g := fun _ X => let e := Verif.pointDblLineEvalWithoutP X.a X.b X.c; ⟨e.x, e.y, e.z⟩)
    (prog := Fp6C.pointDblLineEvalWithoutP) (by intros; rfl) (by rfl)
    (by crun [Fp6C.pointDblLineEvalWithoutP, Verif.pointDblLineEvalWithoutP, Fp2C.mulXi, Fp2.mulXi, Fp2C.neg, Fp2.neg])
    (by crun [Fp6C.pointDblLineEvalWithoutP, Verif.pointDblLineEvalWithoutP, Fp2C.mulXi, Fp2.mulXi, Fp2C.neg, Fp2.neg])
    m z x hz hx h

omit hz hx in
example : Apart ⟨1, 0⟩ 6 ⟨1, 6⟩ 6 ∧
    rd (exec (Fp6C.pointDblLineEvalWithoutP ⟨1, 0⟩ ⟨1, 6⟩) mEx) ⟨1, 6⟩ 6 ≠ rd mEx ⟨1, 6⟩ 6 :=
  ⟨Or.inr (Or.inl (le_refl _)), by decide +kernel⟩

include hy in
/-- **C53** `pointDblLineEvalC(l, R, P)`: three different objects; y stands for `Fp P[2]` -/
theorem C53_dblLine (h : Apart z 6 x 6) (h' : Apart z 6 y 2) (h'' : Apart x 6 y 2) :
    Results m (exec (Fp6C.pointDblLineEval z x y) m)
      (let e := Verif.pointDblLineEval (m.r2 x) (m.r2 (x.plus 2)) (m.r2 (x.plus 4)) (m y) (m (y.plus 1))
       [(z, l6 e.l), (x, l2 e.x ++ l2 e.y ++ l2 e.z)]) :=
  mk3w o6 o6 o2 (f := fun _ X P => (Verif.pointDblLineEval X.a X.b X.c P.a P.b).l)
    (g := fun _ X P => let e := Verif.pointDblLineEval X.a X.b X.c P.a P.b; ⟨e.x, e.y, e.z⟩)
    (prog := Fp6C.pointDblLineEval) (by intros; rfl) (by rfl)
    (by crun [Fp6C.pointDblLineEval, Verif.pointDblLineEval, Fp6C.mulFp6_24_Fp_01, Verif.mulFp6_24_Fp_01, Fp2C.mulFp0, Fp2.mulFp0,
      Fp6C.pointDblLineEvalWithoutP, Verif.pointDblLineEvalWithoutP, Fp2C.mulXi, Fp2.mulXi, Fp2C.neg, Fp2.neg])
    (by crun [Fp6C.pointDblLineEval, Verif.pointDblLineEval, Fp6C.mulFp6_24_Fp_01, Verif.mulFp6_24_Fp_01, Fp2C.mulFp0, Fp2.mulFp0,
      Fp6C.pointDblLineEvalWithoutP, Verif.pointDblLineEvalWithoutP, Fp2C.mulXi, Fp2.mulXi, Fp2C.neg, Fp2.neg])
    m z x y hz hx hy h h' h''

omit hz hx in
/-- the point P matters for l -/
example : rd (exec (Fp6C.pointDblLineEval ⟨1, 0⟩ ⟨2, 0⟩ ⟨3, 0⟩) mEx) ⟨1, 0⟩ 6 ≠
    rd (exec (Fp6C.pointDblLineEval ⟨1, 0⟩ ⟨2, 0⟩ ⟨4, 0⟩) mEx) ⟨1, 0⟩ 6 := by
  decide +kernel

include hy in
/-- **C53** `Fp12T::mulC` -/
theorem C53_fp12_mul (h : Same z x 12) (h' : Same z y 12) :
    Result m (exec (Fp12C.mul z x y) m) z (l12 (Fp12.mul (m.r12 x) (m.r12 y))) :=
  (cbin o12 Fp12.mul Fp12C.mul [Fp12C.mul, Fp12.mul, Fp6C.dAdd, Fp6.dAdd, Fp6C.dSub, Fp6.dSub, Fp6C.dMulGammaAdd,
    Fp6.dMulGammaAdd, Fp6C.dMod, Fp6.dMod, Fp2C.dMulXi, Fp2.dMulXi]) m z x y hz hx hy h h'

omit hz hx in
/-- z = x = y: the three-address routine squares in place -/
example : Same ⟨1, 0⟩ ⟨1, 0⟩ 12 ∧ rd (exec (Fp12C.mul ⟨1, 0⟩ ⟨1, 0⟩ ⟨1, 0⟩) mEx) ⟨1, 0⟩ 12 =
    rd (exec (Fp12C.square ⟨1, 0⟩) mEx) ⟨1, 0⟩ 12 :=
  ⟨Or.inl rfl, by decide +kernel⟩

omit hx in
/-- **C53** `Fp12T::squareC` (in place) -/
theorem C53_fp12_square :
    Result m (exec (Fp12C.square z) m) z (l12 (Fp12.square (m.r12 z))) :=
  mk1 o12 (f := Fp12.square) (prog := Fp12C.square) (by intros; rfl) (by rfl)
    (by crun [Fp12C.square, Fp12.square, Fp6C.mulGammaAdd, Fp6.mulGammaAdd, Fp2C.mulXi, Fp2.mulXi]) m z hz

omit hz hx in
example : rd (exec (Fp12C.square ⟨1, 0⟩) mEx) ⟨1, 0⟩ 12 ≠ rd mEx ⟨1, 0⟩ 12 := by decide +kernel

/-- **C53** `Fp12T::Dbl::mul_Fp2_024C` -/
theorem C53_fp12_mul024 (h : Apart z 12 x 6) :
    Result m (exec (Fp12C.mul024 z x) m) z (l12 (Fp12.mul024 (m.r12 z) (m.r6 x))) :=
  mk2i o12 o6 (f := Fp12.mul024) (prog := Fp12C.mul024) (by intros; rfl) (by rfl)
    (by crun [Fp12C.mul024, Fp12.mul024, Fp2C.dMulXi, Fp2.dMulXi]) m z x hz hx h

omit hz hx in
/-- the line may sit right behind the value -/
example : Apart ⟨1, 0⟩ 12 ⟨1, 12⟩ 6 ∧ rd (exec (Fp12C.mul024 ⟨1, 0⟩ ⟨1, 12⟩) mEx) ⟨1, 0⟩ 12 ≠ rd mEx ⟨1, 0⟩ 12 :=
  ⟨Or.inr (Or.inl (le_refl _)), by decide +kernel⟩

omit hx in
/-- `CompressT::squareC` on any buffers -/
theorem comp_square :
    Result m (exec (CompressC.square z) m) z (l12 (setComp (m.r12 z) (compSquareC (comp (m.r12 z))))) :=
  mk1 o12 (f := fun w => setComp w (compSquareC (comp w))) (prog := CompressC.square) (by intros; rfl) (by rfl)
    (by crun [CompressC.square, CompressC.z3x2, compSquareC, compSquareW, comp, setComp, z3x2C, g4C, Fp2C.mulXi, Fp2.mulXi,
      Fp2C.dMulXi, Fp2.dMulXi]) m z hz

omit hx in
/-- **C53** `CompressT::square_nC(z, n)`: on canonical members n passes of the generated squaring; the other two `Fp2`
of the `Fp12` keep their values -/
theorem C53_compress_square_n (hc : (comp (m.r12 z)).Canon) (n : ℕ) :
    Result m (exec (CompressC.squareN z n) m) z (l12 (setComp (m.r12 z) (compSquare^[n] (comp (m.r12 z))))) := by
  rw [squareN_eq]
  refine times_result (C := RC.Canon) (fun m hc => ?_) (fun c hc => (compSquare_den hc).1) m hc n
  have h1 := comp_square m hz
  rwa [compSquareC_eq hc] at h1

omit hz hx in
/-- canonical members; two passes differ from one; `z0` is left alone -/
example : (comp (mEx.r12 ⟨1, 0⟩)).Canon ∧
    rd (exec (CompressC.squareN ⟨1, 0⟩ 2) mEx) ⟨1, 0⟩ 12 ≠ rd (exec (CompressC.squareN ⟨1, 0⟩ 1) mEx) ⟨1, 0⟩ 12 ∧
    rd (exec (CompressC.squareN ⟨1, 0⟩ 2) mEx) ⟨1, 0⟩ 2 = [101, 102] := by
  refine ⟨⟨by decide +kernel, by decide +kernel, by decide +kernel, by decide +kernel⟩, by decide +kernel, by decide +kernel⟩

end

/-! ### What goes wrong with other arguments -/

/-- **C53** `mul_xiC(x, x)` does not multiply by ξ: the real part is overwritten before the imaginary part is computed.
(The assertion `&z != &x` is not compiled with NDEBUG.) -/
theorem C53_mul_xiC_in_place_wrong : ∃ (m : Mem) (x : Loc), Ext x ∧ (m.r2 x).Canon ∧
    rd (exec (Fp2C.mulXi x x) m) x 2 ≠ l2 (Fp2.mulXi (m.r2 x)) := by
  refine ⟨fun l => l.i + 1, ⟨1, 0⟩, Nat.one_ne_zero, by decide +kernel, by decide +kernel⟩

/-- **C53** `mul_Fp_0C(z, x, z.a_)` multiplies the second component by the new value of `z.a_`. -/
theorem C53_mul_Fp_0C_in_place_wrong : ∃ (m : Mem) (x : Loc), Ext x ∧ (m.r2 x).Canon ∧
    rd (exec (Fp2C.mulFp0 x x x) m) x 2 ≠ l2 (Fp2.mulFp0 (m.r2 x) (m x)) := by
  refine ⟨fun l => l.i + 5, ⟨1, 0⟩, Nat.one_ne_zero, by decide +kernel, by decide +kernel⟩

end Verif.Cpp
