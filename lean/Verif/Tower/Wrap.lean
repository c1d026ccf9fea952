import Verif.Tower.Cyclo

/-! Object-level names for the sparse multiplications, and the C version of the Fp2 square. -/

namespace Verif
open Fp

/-- `Fp12::Dbl::mul_Fp2_024`, zm2.cpp:2697-2960 (generated), on objects. -/
def F12.mul024 (z : F12) (x : F6) : F12 :=
  F12.ofRaw (Fp12.mul024 z.raw x.raw) (Fp12.mul024_den z.raw_canon x.raw_canon).1
/-- `Fp12::Dbl::mul_Fp2_024_Fp2_024`, bn.h:2065-2110, on objects. -/
def F12.mul024_024 (x y : F6) : F12 :=
  F12.ofRaw (Fp12.mul024_024 x.raw y.raw) (Fp12.mul024_024_den x.raw_canon y.raw_canon).1

theorem F12.mul024_eq (z : F12) (x : F6) : z.mul024 x = z * x.line := by
  unfold F12.mul024
  rw [F12.ofRaw_eq, (Fp12.mul024_den z.raw_canon x.raw_canon).2, F12.den_raw, F6.den_raw]
theorem F12.mul024_024_eq (x y : F6) : F12.mul024_024 x y = x.line * y.line := by
  unfold F12.mul024_024
  rw [F12.ofRaw_eq, (Fp12.mul024_024_den x.raw_canon y.raw_canon).2, F6.den_raw, F6.den_raw]

/-- `Fp2T::squareC`, bn.h:486-500 (the non-SNARK branch), with the C operator sequence as written:
the comment says a + b, the code adds a to itself. Installed until `PairingCode` replaces it. -/
def Fp2.squareC (x : R2) : R2 :=
  let t := Fp.addNC x.b x.b
  let t := Fp.mul t x.a
  let tt := Fp.sub x.a x.b
  let za := Fp.addNC x.a x.a
  let za := Fp.mul za tt
  ⟨za, t⟩

end Verif
