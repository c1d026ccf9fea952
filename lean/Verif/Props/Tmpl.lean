import Verif.Cpp.Tmpl

/-!
C73: the routines of include/bn.h above the function pointers, on objects in memory.  For each routine: for all contents
of memory and all arguments that satisfy the stated separation, the written objects afterwards hold the value of the
function of C29-C35 and no other object of the caller has changed.
-/

namespace Verif.Cpp
open Jit (l2 l6 l12)

/-! ### On buffers -/

section
variable (m : Mem) {z x y w : Loc} (hz : Ext z) (hx : Ext x) (hy : Ext y) (hw : Ext w)
include hz hx hy

/-- **C73** `pointAddLineEvalWithoutP(l, R, Q)`; z, x, y stand for l, R, Q -/
theorem C73_addLineWithoutP (h : Apart z 6 x 6) (h' : Apart z 6 y 4) (h'' : Apart x 6 y 4) :
    Results m (exec (Fp6C.pointAddLineEvalWithoutP z x y) m)
      (let e := pointAddLineEvalWithoutP (m.r2 x) (m.r2 (x.plus 2)) (m.r2 (x.plus 4)) (m.r2 y) (m.r2 (y.plus 2))
       [(z, l6 e.l), (x, l2 e.x ++ l2 e.y ++ l2 e.z)]) :=
  mk3w o6 o6 o4 (f := fun _ X Q => (pointAddLineEvalWithoutP X.a X.b X.c Q.1 Q.2).l)
    (g := fun _ X Q => let e := pointAddLineEvalWithoutP X.a X.b X.c Q.1 Q.2; ⟨e.x, e.y, e.z⟩)
    (prog := Fp6C.pointAddLineEvalWithoutP) (by intros; rfl) (by rfl)
    (by crun [Fp6C.pointAddLineEvalWithoutP, Verif.pointAddLineEvalWithoutP])
    (by crun [Fp6C.pointAddLineEvalWithoutP, Verif.pointAddLineEvalWithoutP])
    m z x y hz hx hy h h' h''

include hw in
/-- **C73** `pointAddLineEval(l, R, Q, P)`; z, x, y, w stand for l, R, Q, P -/
theorem C73_addLine (h1 : Apart z 6 x 6) (h2 : Apart z 6 y 4) (h3 : Apart z 6 w 2) (h4 : Apart x 6 y 4) (h5 : Apart x 6 w 2) :
    Results m (exec (Fp6C.pointAddLineEval z x y w) m)
      (let e := pointAddLineEval (m.r2 x) (m.r2 (x.plus 2)) (m.r2 (x.plus 4)) (m.r2 y) (m.r2 (y.plus 2)) (m w) (m (w.plus 1))
       [(z, l6 e.l), (x, l2 e.x ++ l2 e.y ++ l2 e.z)]) :=
  mk4w o6 o6 o4 o2 (f := fun _ X Q P => (pointAddLineEval X.a X.b X.c Q.1 Q.2 P.a P.b).l)
    (g := fun _ X Q P => let e := pointAddLineEval X.a X.b X.c Q.1 Q.2 P.a P.b; ⟨e.x, e.y, e.z⟩)
    (prog := Fp6C.pointAddLineEval) (by intros; rfl) (by rfl)
    (by crun [Fp6C.pointAddLineEval, Verif.pointAddLineEval, Fp6C.pointAddLineEvalWithoutP, Verif.pointAddLineEvalWithoutP,
      Fp6C.mulFp6_24_Fp_01, Verif.mulFp6_24_Fp_01, Fp2C.mulFp0, Fp2.mulFp0])
    (by crun [Fp6C.pointAddLineEval, Verif.pointAddLineEval, Fp6C.pointAddLineEvalWithoutP, Verif.pointAddLineEvalWithoutP,
      Fp6C.mulFp6_24_Fp_01, Verif.mulFp6_24_Fp_01, Fp2C.mulFp0, Fp2.mulFp0])
    m z x y w hz hx hy hw h1 h2 h3 h4 h5

include hw in
/-- **C73** `sq_Fp4UseDbl(z0, z1, x0, x1)`; z, x, y, w stand for z0, z1, x0, x1 -/
theorem C73_sqFp4 (h1 : Apart z 2 x 2) (h2 : Apart z 2 y 2) (h3 : Apart z 2 w 2) (h4 : Apart x 2 y 2) (h5 : Apart x 2 w 2) :
    Results m (exec (Fp12C.sqFp4 z x y w) m)
      [(z, l2 (Fp12.sqFp4 (m.r2 y) (m.r2 w)).1), (x, l2 (Fp12.sqFp4 (m.r2 y) (m.r2 w)).2)] :=
  mk4w o2 o2 o2 o2 (f := fun _ _ Y W => (Fp12.sqFp4 Y W).1) (g := fun _ _ Y W => (Fp12.sqFp4 Y W).2)
    (prog := Fp12C.sqFp4) (by intros; rfl) (by rfl) (by crun [Fp12C.sqFp4, Fp12.sqFp4]) (by crun [Fp12C.sqFp4, Fp12.sqFp4])
    m z x y w hz hx hy hw h1 h2 h3 h4 h5

/-- **C73** `mul_Fp2_024_Fp2_024(z, cv2, cv3)` -/
theorem C73_mul024_024 (h : Apart z 12 x 6) (h' : Apart z 12 y 6) :
    Result m (exec (Fp12C.mul024_024 z x y) m) z (l12 (Fp12.mul024_024 (m.r6 x) (m.r6 y))) :=
  mk3 o12 o6 o6 (f := Fp12.mul024_024) (prog := Fp12C.mul024_024) (by intros; rfl) (by rfl)
    (by crun [Fp12C.mul024_024, Fp12.mul024_024]) m z x y hz hx hy h h'

omit hx hy in
/-- **C73** `Fp2T::mul_x()` in place -/
theorem C73_mul_x : Result m (exec (Fp2C.mulX z) m) z [Fp.neg (m (z.plus 1)), m z] :=
  mk1 o2 (f := fun x => ⟨Fp.neg x.b, x.a⟩) (prog := Fp2C.mulX) (by intros; rfl) (by rfl) (by crun [Fp2C.mulX]) m z hz

omit hy in
/-- **C73** `Fp2T::mul_Fp_1(z, y_b)`; x stands for y_b -/
theorem C73_mul_Fp_1 (h : Apart z 2 x 1) :
    Result m (exec (Fp2C.mulFp1 z x) m) z [Fp.neg (Fp.mul (m (z.plus 1)) (m x)), Fp.mul (m z) (m x)] :=
  mk2i o2 o1 (f := fun z x => ⟨Fp.neg (Fp.mul z.b x), Fp.mul z.a x⟩) (prog := Fp2C.mulFp1) (by intros; rfl) (by rfl)
    (by crun [Fp2C.mulFp1]) m z x hz hx h

end

/-- memory for the examples: all cells different -/
def mExR : Mem := fun l => 100 * l.o + l.i + 1

/-- R and l change, Q and P do not -/
example : rd (exec (Fp6C.pointAddLineEval ⟨1, 0⟩ ⟨2, 0⟩ ⟨3, 0⟩ ⟨4, 0⟩) mExR) ⟨2, 0⟩ 6 ≠ rd mExR ⟨2, 0⟩ 6 ∧
    rd (exec (Fp6C.pointAddLineEval ⟨1, 0⟩ ⟨2, 0⟩ ⟨3, 0⟩ ⟨4, 0⟩) mExR) ⟨1, 0⟩ 6 ≠
      rd (exec (Fp6C.pointAddLineEval ⟨1, 0⟩ ⟨2, 0⟩ ⟨3, 0⟩ ⟨5, 0⟩) mExR) ⟨1, 0⟩ 6 ∧
    rd (exec (Fp6C.pointAddLineEval ⟨1, 0⟩ ⟨2, 0⟩ ⟨3, 0⟩ ⟨4, 0⟩) mExR) ⟨3, 0⟩ 4 = [301, 302, 303, 304] := by
  decide +kernel
/-- with z0 = z1 the first result is lost -/
example : rd (exec (Fp12C.sqFp4 ⟨1, 0⟩ ⟨1, 0⟩ ⟨2, 0⟩ ⟨3, 0⟩) mExR) ⟨1, 0⟩ 2 ≠
    l2 (Fp12.sqFp4 (mExR.r2 ⟨2, 0⟩) (mExR.r2 ⟨3, 0⟩)).1 := by
  decide +kernel
/-- with cv2 in the first half of z the product is wrong -/
example : rd (exec (Fp12C.mul024_024 ⟨1, 0⟩ ⟨1, 0⟩ ⟨2, 0⟩) mExR) ⟨1, 0⟩ 12 ≠
    l12 (Fp12.mul024_024 (mExR.r6 ⟨1, 0⟩) (mExR.r6 ⟨2, 0⟩)) := by
  decide +kernel

/-! ### On canonical elements -/

open Tm

/-- the inverses as functions with a name -/
def invF2 (x : F2) : F2 := x⁻¹
def invF6 (x : F6) : F6 := x⁻¹
def invF12 (x : F12) : F12 := x⁻¹
theorem invF2_eq (x : F2) : invF2 x = x⁻¹ := rfl
theorem invF6_eq (x : F6) : invF6 x = x⁻¹ := rfl
theorem invF12_eq (x : F12) : invF12 x = x⁻¹ := rfl

/-- **C73** `Fp2T::inverse()`, `Fp6T::inverse()`, `Fp12T::inverse()` in place -/
theorem C73_inverse (m : FMem) {z : Loc} (hz : Ext z) :
    Result m (exec (inv2 z) m) z (e2 (m.f2 z)⁻¹) ∧
    Result m (exec (inv6 z) m) z (e6 (m.f6 z)⁻¹) ∧
    Result m (exec (inv12 z) m) z (e12 (m.f12 z)⁻¹) := by
  have h2 : ∀ m z, Ext z → Result m (exec (inv2 z) m) z (e2 (invF2 (m.f2 z))) :=
    mk1 k2 (f := invF2) (prog := inv2) (by intros; rfl) (by rfl) (by trun [inv2, invF2, F2.instInv])
  have h6 : ∀ m z, Ext z → Result m (exec (inv6 z) m) z (e6 (invF6 (m.f6 z))) :=
    mk1 k6 (f := invF6) (prog := inv6) (by intros; rfl) (by rfl) (by trun [inv6, invF6, F6.instInv])
  have h12 : ∀ m z, Ext z → Result m (exec (inv12 z) m) z (e12 (invF12 (m.f12 z))) :=
    mk1 k12 (f := invF12) (prog := inv12) (by intros; rfl) (by rfl) (by trun [inv12, invF12, F12.instInv])
  simp only [invF2_eq, invF6_eq, invF12_eq] at h2 h6 h12
  exact ⟨h2 m z hz, h6 m z hz, h12 m z hz⟩

/-- **C73** `Fp6T::square(z, x)`; the code asserts that z is not x -/
theorem C73_fp6_square (m : FMem) {z x : Loc} (hz : Ext z) (hx : Ext x) (h : Apart z 6 x 6) :
    Result m (exec (sq6 z x) m) z (e6 (m.f6 x).square) :=
  mk2 k6 k6 (f := F6.square) (prog := sq6) (by intros; rfl) (by rfl) (by trun [sq6, F6.square]) m z x hz hx h

/-- **C73** `Fp12T::sqru()`, and `sqru(zz)` also for zz = *this -/
theorem C73_sqru (m : FMem) {z x : Loc} (hz : Ext z) (hx : Ext x) (h : Same z x 12) :
    Result m (exec (sqru z) m) z (e12 (m.f12 z).sqru) ∧
    Result m (exec (sqruTo z x) m) z (e12 (m.f12 x).sqru) :=
  ⟨mk1 k12 (f := F12.sqru) (prog := sqru) (by intros; rfl) (by rfl) (by trun [sqru, F12.sqru, Tm.sqFp4]) m z hz,
   un k12 (f := F12.sqru) (prog := sqruTo) (by intros; rfl) (by rfl) (by trun [sqruTo, c12, p12])
    (by intros; rfl) (by rfl) (by trun [sqruTo, c12, p12]) m z x hz hx h⟩

theorem beq_refl (z : Loc) : z.beq z = true := beq_iff.2 rfl
theorem beq_apart {z x : Loc} {n k : ℕ} (h : Apart z n x k) (hn : 0 < n) (hk : 0 < k) : z.beq x = false := by
  rw [Bool.eq_false_iff]
  intro e
  obtain rfl := beq_iff.1 e
  rcases h with h | h | h
  · exact h rfl
  · omega
  · omega

/-- a routine with a test `&z != this` -/
theorem unIf {f : F12 → F12} {p q : Loc → Loc → List FStmt} {prog : Loc → Loc → List FStmt}
    (e : ∀ z x, prog z x = bif z.beq x then p z x else q z x)
    (n1 : ∀ z x, q z x = ren [z, x] (q (nm 1) (nm 2)))
    (k1 : ok [12, 12] [0] (q (nm 1) (nm 2)) = true)
    (r1 : ∀ loc Z X, rd (exec (q (nm 1) (nm 2)) (seen loc [e12 Z, e12 X])) (nm 1) 12 = e12 (f X))
    (n2 : ∀ z, p z z = ren [z] (p (nm 1) (nm 1)))
    (o2 : ok [12] [0] (p (nm 1) (nm 1)) = true)
    (r2 : ∀ loc Z, rd (exec (p (nm 1) (nm 1)) (seen loc [e12 Z])) (nm 1) 12 = e12 (f Z)) :
    ∀ m z x, Ext z → Ext x → Same z x 12 → Result m (exec (prog z x) m) z (e12 (f (m.f12 x))) := by
  intro m z x hz hx h
  rw [e]
  rcases h with rfl | h
  · rw [beq_refl, cond_true]
    exact mk1 k12 (prog := fun z => p z z) n2 o2 r2 m x hz
  · rw [beq_apart h (by omega) (by omega), cond_false]
    exact mk2 k12 k12 n1 k1 r1 m z x hz hx h

/-- **C73** `Frobenius(z)`, `Frobenius2(z)`, `Frobenius3(z)`, also for z = *this -/
theorem C73_frobenius (m : FMem) {z x : Loc} (hz : Ext z) (hx : Ext x) (h : Same z x 12) :
    Result m (exec (frob z x) m) z (e12 (m.f12 x).frobenius) ∧
    Result m (exec (frob2 z x) m) z (e12 (m.f12 x).frobenius2) ∧
    Result m (exec (frob3 z x) m) z (e12 (m.f12 x).frobenius3) :=
  ⟨unIf (f := F12.frobenius) (prog := frob) (fun _ _ => rfl)
    (by intros; rfl) (by rfl) (by trun [frobTail, negIm, F12.frobenius]) (by intros; rfl) (by rfl)
    (by trun [frobTail, negIm, F12.frobenius]) m z x hz hx h,
   unIf (f := F12.frobenius2) (prog := frob2) (fun _ _ => rfl)
    (by intros; rfl) (by rfl) (by trun [frob2Tail, F12.frobenius2]) (by intros; rfl) (by rfl)
    (by trun [frob2Tail, F12.frobenius2]) m z x hz hx h,
   un k12 (f := F12.frobenius3) (prog := frob3)
    (by intros; rfl) (by rfl) (by trun [frob3, copyRe, negIm, F12.frobenius3]) (by intros; rfl) (by rfl)
    (by trun [frob3, copyRe, negIm, F12.frobenius3]) m z x hz hx h⟩

/-- what `mapToCyclo` leaves in *this -/
def cycloThis (x : F12) : F12 := ((⟨x.a, -x.b⟩ : F12) * x⁻¹).frobenius2

/-- **C73** `x.mapToCyclo(z)` for z apart from x: the result, and what is left in x -/
theorem C73_mapToCyclo (m : FMem) {z x : Loc} (hz : Ext z) (hx : Ext x) (h : Apart z 12 x 12) :
    Results m (exec (mapToCyclo z x) m) [(z, e12 (m.f12 x).mapToCyclo), (x, e12 (cycloThis (m.f12 x)))] :=
  mk2w k12 k12 (f := fun _ x => F12.mapToCyclo x) (g := fun _ x => cycloThis x) (prog := mapToCyclo)
    (by intros; rfl) (by rfl) (by trun [mapToCyclo, F12.mapToCyclo]) (by trun [mapToCyclo, cycloThis]) m z x hz hx h

/-- what `x.mapToCyclo(x)` leaves -/
def cycloAlias (x : F12) : F12 :=
  let z : F12 := ⟨x.a, -x.b⟩
  let z := z⁻¹
  let z := z * z
  let z := z.frobenius2
  z * z
theorem C73_mapToCyclo_self (m : FMem) {z : Loc} (hz : Ext z) :
    Result m (exec (mapToCyclo z z) m) z (e12 (cycloAlias (m.f12 z))) :=
  mk1 k12 (f := cycloAlias) (prog := fun z => mapToCyclo z z) (by intros; rfl) (by rfl) (by trun [mapToCyclo, cycloAlias]) m z hz

/-- the object `CompressT` on the `Fp12` x -/
theorem getC_eq (m : FMem) (z : Loc) : getC m z = Cp.ofF12 (m.f12 z) := rfl

/-- **C73** the constructors of `CompressT`: the four members are copied, g0 and g1 stay -/
theorem C73_compress (m : FMem) {z x : Loc} (hz : Ext z) (hx : Ext x) (h : Same z x 12) :
    Result m (exec (ctor z x) m) z (e12 ⟨⟨(m.f12 z).a.a, (m.f12 x).a.b, (m.f12 x).a.c⟩, ⟨(m.f12 x).b.a, (m.f12 z).b.b, (m.f12 x).b.c⟩⟩) := by
  rcases h with rfl | h
  · exact mk1 k12 (f := fun x => x) (prog := fun z => ctor z z) (by intros; rfl) (by rfl) (by trun [ctor]) m x hz
  · exact mk2i k12 k12 (f := fun z x => ⟨⟨z.a.a, x.a.b, x.a.c⟩, ⟨x.b.a, z.b.b, x.b.c⟩⟩) (prog := ctor) (by intros; rfl) (by rfl)
      (by trun [ctor]) m z x hz hx h

/-- the two numerators -/
def numeZ (x : F12) : F2 := (x.a.b + x.a.b) * x.b.c
def numeE (x : F12) : F2 :=
  let nume := x.a.b.square
  let t := nume - x.a.c
  let t := t + t
  let t := t + nume
  (x.b.c.square.mulXi + t).divBy4
theorem before_zero {m : FMem} {z : Loc} (h : (m.f2 (z.plus 6)).isZero = true) :
    (getC m z).decompressBeforeInv = (numeZ (m.f12 z), (m.f12 z).a.c) := by
  unfold Cp.decompressBeforeInv
  exact if_pos h
theorem before_else {m : FMem} {z : Loc} (h : ¬ (m.f2 (z.plus 6)).isZero = true) :
    (getC m z).decompressBeforeInv = (numeE (m.f12 z), (m.f12 z).b.a) := by
  unfold Cp.decompressBeforeInv
  exact if_neg h

/-- **C73** `c.decompressBeforeInv(nume, denomi)` on the `Fp12` z; the code asserts that nume is not denomi -/
theorem C73_beforeInv (m : FMem) {n d z : Loc} (hn : Ext n) (hd : Ext d) (hz : Ext z) (h1 : Apart n 2 d 2) (h2 : Apart n 2 z 12)
    (h3 : Apart d 2 z 12) :
    Results m (exec (beforeInv m n d z) m)
      [(n, e2 (getC m z).decompressBeforeInv.1), (d, e2 (getC m z).decompressBeforeInv.2)] := by
  unfold beforeInv
  by_cases hc : (m.f2 (z.plus 6)).isZero = true
  · rw [if_pos hc, before_zero hc]
    dsimp only
    exact mk3w k2 k2 k12 (f := fun _ _ z => numeZ z) (g := fun _ _ z => z.a.c) (prog := beforeZero)
      (by intros; rfl) (by rfl) (by trun [beforeZero, numeZ]) (by trun [beforeZero]) m n d z hn hd hz h1 h2 h3
  · rw [if_neg hc, before_else hc]
    dsimp only
    exact mk3w k2 k2 k12 (f := fun _ _ z => numeE z) (g := fun _ _ z => z.b.a) (prog := beforeElse)
      (by intros; rfl) (by rfl) (by trun [beforeElse, numeE]) (by trun [beforeElse]) m n d z hn hd hz h1 h2 h3

/-- **C73** `c.decompressAfterInv()`: g0 is completed from g1 -/
theorem C73_afterInv (m : FMem) {z : Loc} (hz : Ext z) :
    Result m (exec (afterInv z) m) z (e12 ((getC m z).decompressAfterInv (m.f2 (z.plus 8)))) :=
  mk1 k12 (f := fun x => (Cp.ofF12 x).decompressAfterInv x.b.b) (prog := afterInv) (by intros; rfl) (by rfl)
    (by trun [afterInv, Cp.ofF12, Cp.decompressAfterInv]) m z hz

/-- `decompress` with the members written out -/
def decompF (x : F12) : F12 :=
  let c : Cp := ⟨x.b.a, x.a.c, x.a.b, x.b.c⟩
  let g1 := c.decompressBeforeInv.1 * c.decompressBeforeInv.2⁻¹
  ⟨⟨(c.decompressAfterInv g1).a.a, x.a.b, x.a.c⟩, ⟨x.b.a, g1, x.b.c⟩⟩
theorem after_mk (c : Cp) (g : F2) : c.decompressAfterInv g = ⟨⟨(c.decompressAfterInv g).a.a, c.g4, c.g3⟩, ⟨c.g2, g, c.g5⟩⟩ := rfl
theorem decompF_eq (m : FMem) (z : Loc) : decompF (m.f12 z) = (getC m z).decompress := by
  have e : getC m z = ⟨(m.f12 z).b.a, (m.f12 z).a.c, (m.f12 z).a.b, (m.f12 z).b.c⟩ := rfl
  rw [e]
  unfold Cp.decompress
  rw [after_mk]
  unfold decompF
  dsimp only

/-- **C73** `CompressT::decompress()` -/
theorem C73_decompress (m : FMem) {z : Loc} (hz : Ext z) :
    Result m (exec (decompress z) m) z (e12 (getC m z).decompress) := by
  rw [← decompF_eq]
  exact mk1 k12 (f := decompF) (prog := decompress) (by intros; rfl) (by rfl)
    (by trun [decompress, callBefore, callAfter, decompF]) m z hz

/-- **C73** `CompressT::fixed_power(z, x)`; the code asserts that z is not x -/
theorem C73_fixedPower (m : FMem) {z x : Loc} (hz : Ext z) (hx : Ext x) (h : Apart z 12 x 12) :
    Result m (exec (fixedPower z x) m) z (e12 (m.f12 x).fixedPower) :=
  mk2 k12 k12 (f := F12.fixedPower) (prog := fixedPower) (by intros; rfl) (by rfl)
    (by trun [fixedPower, F12.fixedPower, ctor, squareN, callBefore, callAfter, Cp.ofF12, Cp.decompressAfterInv]) m z x hz hx h

/-- what `fixed_power(z, z)` leaves: the factor x is the overwritten z -/
def fixedPowerAlias (x : F12) : F12 :=
  let c55 := (Cp.ofF12 x).squareN 55
  let nd55 := c55.decompressBeforeInv
  let c62 := c55.squareN (62 - 55)
  let nd62 := c62.decompressBeforeInv
  let acc := nd55.2 * nd62.2
  let acc := acc⁻¹
  let z := c55.decompressAfterInv (nd55.1 * (acc * nd62.2))
  let d62 := c62.decompressAfterInv (nd62.1 * (acc * nd55.2))
  z * z * d62
theorem C73_fixedPower_self (m : FMem) {z : Loc} (hz : Ext z) :
    Result m (exec (fixedPower z z) m) z (e12 (fixedPowerAlias (m.f12 z))) :=
  mk1 k12 (f := fixedPowerAlias) (prog := fun z => fixedPower z z) (by intros; rfl) (by rfl)
    (by trun [fixedPower, fixedPowerAlias, ctor, squareN, callBefore, callAfter, Cp.ofF12, Cp.decompressAfterInv]) m z hz

/-- **C73** `Fp12T::final_exp()` in place -/
theorem C73_finalExp (m : FMem) {z : Loc} (hz : Ext z) :
    Result m (exec (finalExp z) m) z (e12 (m.f12 z).finalExp) :=
  mk1 k12 (f := F12.finalExp) (prog := finalExp) (by intros; rfl) (by rfl)
    (by trun [finalExp, mapToCyclo, F12.mapToCyclo, F12.finalExp, F12.hardPart]) m z hz

/-! ### Aliased calls -/

/-- memory for the examples: all cells different -/
def mF : FMem := fun l => ⟨(100 * l.o + l.i + 1) % Fp.p, Nat.mod_lt _ Fp.p_pos⟩

/-- **C73** `Fp6::square(z, z)` is not the square -/
theorem C73_fp6_square_self_wrong :
    ∃ (m : FMem) (z : Loc), Ext z ∧ rd (exec (sq6 z z) m) z 6 ≠ e6 (m.f6 z).square :=
  ⟨mF, ⟨1, 0⟩, Nat.one_ne_zero, by decide +kernel⟩
/-- **C73** `x.mapToCyclo(x)` is not the projection -/
theorem C73_mapToCyclo_self_wrong :
    ∃ (m : FMem) (z : Loc), Ext z ∧ ¬ Result m (exec (mapToCyclo z z) m) z (e12 (m.f12 z).mapToCyclo) := by
  refine ⟨mF, ⟨1, 0⟩, Nat.one_ne_zero, fun h => ?_⟩
  have h' := (C73_mapToCyclo_self mF (z := ⟨1, 0⟩) Nat.one_ne_zero).1
  have e : e12 (cycloAlias (mF.f12 ⟨1, 0⟩)) = e12 ((mF.f12 ⟨1, 0⟩).mapToCyclo) := h'.symm.trans h.1
  have := congrArg (fun l => g12 l 0) e
  exact absurd this (by show cycloAlias (mF.f12 ⟨1, 0⟩) ≠ (mF.f12 ⟨1, 0⟩).mapToCyclo; decide +kernel)
/-- **C73** `fixed_power(z, z)` is not the power -/
theorem C73_fixedPower_self_wrong :
    ∃ (m : FMem) (z : Loc), Ext z ∧ ¬ Result m (exec (fixedPower z z) m) z (e12 (m.f12 z).fixedPower) := by
  refine ⟨mF, ⟨1, 0⟩, Nat.one_ne_zero, fun h => ?_⟩
  have h' := (C73_fixedPower_self mF (z := ⟨1, 0⟩) Nat.one_ne_zero).1
  have e : e12 (fixedPowerAlias (mF.f12 ⟨1, 0⟩)) = e12 ((mF.f12 ⟨1, 0⟩).fixedPower) := h'.symm.trans h.1
  have := congrArg (fun l => g12 l 0) e
  exact absurd this (by show fixedPowerAlias (mF.f12 ⟨1, 0⟩) ≠ (mF.f12 ⟨1, 0⟩).fixedPower; decide +kernel)

/-- the in-place routines change their object -/
example : rd (exec (inv2 ⟨1, 0⟩) mF) ⟨1, 0⟩ 2 ≠ rd mF ⟨1, 0⟩ 2 := by decide +kernel
example : exec (frob ⟨1, 0⟩ ⟨1, 0⟩) mF ⟨1, 2⟩ ≠ mF ⟨1, 2⟩ := by decide +kernel
example : exec (mapToCyclo ⟨1, 0⟩ ⟨2, 0⟩) mF ⟨1, 2⟩ ≠ mF ⟨2, 2⟩ := by decide +kernel
/-- arguments as in `final_exp`: two locals of a caller and an object -/
example : Same (⟨1, 0⟩ : Loc) ⟨1, 0⟩ 12 ∧ Same (⟨1, 0⟩ : Loc) ⟨1, 12⟩ 12 ∧ ¬ Same (⟨1, 0⟩ : Loc) ⟨1, 6⟩ 12 := by
  refine ⟨Or.inl rfl, Or.inr (Or.inr (Or.inl (by decide))), ?_⟩
  rintro (h | h | h | h)
  · exact absurd h (by decide)
  · exact h rfl
  · exact absurd h (by decide)
  · exact absurd h (by decide)

end Verif.Cpp
