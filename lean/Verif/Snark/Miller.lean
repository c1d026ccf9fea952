import Verif.Snark.Final
import Verif.Init.Model

/-!
Miller loop and pairing of the SNARK build on buffers.  As in `Final.lean` the flag is `false` for the code and `true` for
the checked run, which stops (`throw`) at the first general product or square of Fp12 whose bound fails (C68, C69).
-/

namespace Verif.Snark

open scoped Verif

/-- `largest_c = 6 * z + 2`, bn.h:226, as words -/
def sixZ2V : List ℕ := [11347224129447541672, 1]
theorem sixZ2V_run : (do
    let m ← Sint.setInt64 (fun _ => ⟨[0], false⟩) 0 4965661367192848881
    let six ← Sint.ofInt 6
    let two ← Sint.ofInt 2
    let c ← Init.sMul six (m 0)
    Init.sAdd c two : Res Sint) = .ok ⟨sixZ2V, false⟩ := by decide +kernel
theorem sixZ2V_val : Verif.val sixZ2V = 6 * z + 2 := by decide +kernel

/-- `Param::siTbl`, bn.h:259 -/
def siTbl : List ℤ :=
  [1, 1, 0, 1, 0, 0, 0, -1, 0, -1, 0, 0, 0, -1, 0, 1, 0, -1, 0, 0, -1, 0, 0, 0, 0, 0, 1, 0, 0, -1, 0, 1, 0, 0, -1, 0,
   0, 0, 0, -1, 0, 1, 0, 0, 0, -1, 0, -1, 0, 0, 1, 0, 0, 0, -1, 0, 0, -1, 0, 1, 0, 1, 0, 0, 0]
/-- `useNAF = util::getGoodRepl(siTbl, largest_c.abs())` -/
theorem siTbl_run : Naf.goodRepl sixZ2V = .ok (true, siTbl) := by decide +kernel

/-- `FrobEndOnTwist_1`, bn.h:2649-2675, SNARK branch -/
def frobTwist1 (Q : R2 × R2) : R2 × R2 := (S2.mul (S12.cj Q.1) (gammar 1), S2.mul (S12.cj Q.2) (gammar 2))
/-- `FrobEndOnTwist_2`, bn.h:2678-2691, SNARK branch -/
def frobTwist2 (Q : R2 × R2) : R2 × R2 := frobTwist1 (frobTwist1 Q)
/-- `FrobEndOnTwist_8`, bn.h:2693-2708, SNARK branch: `FrobEndOnTwist_2` four times -/
def frobTwist8 (Q : R2 × R2) : R2 × R2 := frobTwist2 (frobTwist2 (frobTwist2 (frobTwist2 Q)))

/-- `Fp2 T[3]` -/
structure T3 where
  x : R2
  y : R2
  z : R2

/-- what the line routines read besides their arguments: the variant generated for b = 82, and `b_invxi` -/
structure Cfg where
  b82 : Bool
  binv : R2

/-- the lines "at 1." of `opt_atePairing`, bn.h:2726-2741 -/
def start (g : Cfg) (Q : R2 × R2) (P : ℕ × ℕ) : Res (R12 × T3) := do
  let d ← pointDblLineEval g.b82 g.binv Q.1 Q.2 ⟨montR, 0⟩ P.1 P.2
  let e ← pointAddLineEval d.x d.y d.z Q.1 Q.2 P.1 P.2
  pure (S12.mul024_024 d.l e.l, ⟨e.x, e.y, e.z⟩)

/-- one doubling of the loop, bn.h:2747-2751 -/
def stepDbl (k : Bool) (g : Cfg) (P : ℕ × ℕ) (st : R12 × T3) : Res (R12 × T3) := do
  let l ← pointDblLineEval g.b82 g.binv st.2.x st.2.y st.2.z P.1 P.2
  let f ← S12.squareK k st.1
  pure (S12.mul024 f l.l, ⟨l.x, l.y, l.z⟩)

/-- one addition of the loop, bn.h:2756-2757, 2760-2761 -/
def stepAdd (Q : R2 × R2) (P : ℕ × ℕ) (st : R12 × T3) : Res (R12 × T3) := do
  let l ← pointAddLineEval st.2.x st.2.y st.2.z Q.1 Q.2 P.1 P.2
  pure (S12.mul024 st.1 l.l, ⟨l.x, l.y, l.z⟩)

/-- the branches of bn.h:2753-2762; `Qneg` is bn.h:2730-2734 -/
def stepDigit (Q : R2 × R2) (P : ℕ × ℕ) (s : ℤ) (st : R12 × T3) : Res (R12 × T3) :=
  if s > 0 then stepAdd Q P st else if s < 0 then stepAdd (Q.1, S2.neg Q.2) P st else .ok st

/-- the loop of bn.h:2745-2763 -/
def millerLoop (k : Bool) (g : Cfg) (Q : R2 × R2) (P : ℕ × ℕ) : List ℤ → R12 × T3 → Res (R12 × T3)
  | [], st => .ok st
  | s :: t, st => do
    let st ← stepDbl k g P st
    let st ← stepDigit Q P s st
    millerLoop k g Q P t st

/-- the two last additions, bn.h:2765-2782, SNARK branch -/
def finish (k : Bool) (Q : R2 × R2) (P : ℕ × ℕ) (st : R12 × T3) : Res R12 := do
  let Q1 := frobTwist1 Q
  let Q2 := frobTwist2 Q
  let d ← pointAddLineEval st.2.x st.2.y st.2.z Q1.1 Q1.2 P.1 P.2
  let e ← pointAddLineEval d.x d.y d.z Q2.1 (S2.neg Q2.2) P.1 P.2
  S12.mulK k st.1 (S12.mul024_024 d.l e.l)

/-- `opt_atePairing` up to the final exponentiation -/
def miller (k : Bool) (g : Cfg) (Q : R2 × R2) (P : ℕ × ℕ) : Res R12 := do
  let st ← start g Q P
  let st ← millerLoop k g Q P (siTbl.drop 2) st
  finish k Q P st

/-- `opt_atePairing`, bn.h:2719-2785 -/
def optAte (k : Bool) (g : Cfg) (Q : R2 × R2) (P : ℕ × ℕ) : Res R12 := do
  let f ← miller k g Q P
  S12.finalExp k f

end Verif.Snark
