import Verif.Java.Model
import Verif.Ec.Points
import Verif.Ec.History

/-!
The mathematical reading of the Java calls: integers, field elements, and points of the two curves as group
elements.  `none` for a point object means that it holds no known point (not yet set, or left behind by a `set`
that threw).  A call is given no meaning (`none`) when it uses such an object, a negative exponent or scalar, the
modulus 0, an `int` of INT_MIN, or an integer beyond GMP's size limit.
-/

namespace Verif.Java

structure AState (G1 G2 : Type) where
  mpz : ℕ → ℤ
  fp : ℕ → Fe
  fp2 : ℕ → F2
  fp12 : ℕ → F12
  ec1 : ℕ → Option G1
  ec2 : ℕ → Option G2

section
open Classical

noncomputable def aMpzPut (m : ℕ → ℤ) (a : ℕ) (z : ℤ) : Option ((ℕ → ℤ) × Out) :=
  if Fits z then some (Function.update m a z, .unit) else none

noncomputable def aMpz (m : ℕ → ℤ) : MpzCall → Option ((ℕ → ℤ) × Out)
  | .set a z => aMpzPut m a z
  | .add a b => aMpzPut m a (m a + m b)
  | .sub a b => aMpzPut m a (m a - m b)
  | .mul a b => aMpzPut m a (m a * m b)
  | .mod a b => if m b = 0 then none else aMpzPut m a ((m a).tmod (m b))
  | .equals a b => some (m, .bool (decide (m a = m b)))
  | .compareTo a b => some (m, .int (m a - m b).sign)

noncomputable def aField {K : Type} [Field K] (z : ℕ → ℤ) (m : ℕ → K) : FCall → Option ((ℕ → K) × Out)
  | .copy a b => some (Function.update m a (m b), .unit)
  | .add a b => some (Function.update m a (m a + m b), .unit)
  | .sub a b => some (Function.update m a (m a - m b), .unit)
  | .mul a b => some (Function.update m a (m a * m b), .unit)
  | .power a k => if z k < 0 then none else some (Function.update m a (m a ^ z k), .unit)
  | .equals a b => some (m, .bool (decide (m a = m b)))

variable {K : Type} [Field K] [DecidableEq K] (b : K)

/-- the point with the given Jacobian coordinates, if they satisfy the equation of the curve -/
noncomputable def jacPoint (x y z : K) : Option (curve b).Point :=
  if z = 0 then some 0
  else if h : (curve b).Nonsingular (x / z ^ 2) (y / z ^ 3) then some (.some _ _ h)
  else none

/-- the effect of `set` -/
noncomputable def aSet (m : ℕ → Option (curve b).Point) (a : ℕ) (P : Option (curve b).Point) :
    (ℕ → Option (curve b).Point) × Out :=
  (Function.update m a P, if P = none then .thrown else .unit)

noncomputable def aEc (z : ℕ → ℤ) (f : ℕ → K) (m : ℕ → Option (curve b).Point) :
    EcCall → Option ((ℕ → Option (curve b).Point) × Out)
  | .copy a c => some (Function.update m a (m c), .unit)
  | .set2 a x y => some (aSet b m a (jacPoint b (f x) (f y) 1))
  | .set3 a x y w => some (aSet b m a (jacPoint b (f x) (f y) (f w)))
  | .clear a => some (Function.update m a (some 0), .unit)
  | .dbl a => (m a).map fun A => (Function.update m a (some (A + A)), .unit)
  | .neg a => (m a).map fun A => (Function.update m a (some (-A)), .unit)
  | .add a c => (m a).bind fun A => (m c).map fun C => (Function.update m a (some (A + C)), .unit)
  | .sub a c => (m a).bind fun A => (m c).map fun C => (Function.update m a (some (A - C)), .unit)
  | .mul a k => if z k < 0 then none else (m a).map fun A => (Function.update m a (some (z k • A)), .unit)
  | .equals a c => (m a).bind fun A => (m c).map fun C => (m, .bool (decide (A = C)))
  | .isZero a => (m a).map fun A => (m, .bool (decide (A = 0)))
  | .isValid a => (m a).map fun _ => (m, .bool true)
  | .toString a => (m a).map fun _ => (m, .unit)

/-- One call; `b1`, `b2` are the coefficients of the curves and `e` is the pairing of points. -/
noncomputable def aStep (b1 : Fe) (b2 : F2) (e : (curve b2).Point → (curve b1).Point → F12)
    (t : AState (curve b1).Point (curve b2).Point) : Call → Option (AState (curve b1).Point (curve b2).Point × Out)
  | .mpz c => (aMpz t.mpz c).map fun r => ({ t with mpz := r.1 }, r.2)
  | .fp c => (aField t.mpz t.fp c).map fun r => ({ t with fp := r.1 }, r.2)
  | .fpInt a i =>
    if -2 ^ 31 < i ∧ i < 2 ^ 31 then some ({ t with fp := Function.update t.fp a (i : Fe) }, .unit) else none
  | .fp2 c => (aField t.mpz t.fp2 c).map fun r => ({ t with fp2 := r.1 }, r.2)
  | .fp2Pair a x y => some ({ t with fp2 := Function.update t.fp2 a ⟨t.fp x, t.fp y⟩ }, .unit)
  | .fp12 c => (aField t.mpz t.fp12 c).map fun r => ({ t with fp12 := r.1 }, r.2)
  | .fp12Int a i =>
    if -2 ^ 31 < i ∧ i < 2 ^ 31 then some ({ t with fp12 := Function.update t.fp12 a (i : F12) }, .unit) else none
  | .pairing a q p => (t.ec2 q).bind fun B => (t.ec1 p).map fun A =>
    ({ t with fp12 := Function.update t.fp12 a (e B A) }, .unit)
  | .ec1 c => (aEc b1 t.mpz t.fp t.ec1 c).map fun r => ({ t with ec1 := r.1 }, r.2)
  | .ec2 c => (aEc b2 t.mpz t.fp2 t.ec2 c).map fun r => ({ t with ec2 := r.1 }, r.2)

noncomputable def aRun (b1 : Fe) (b2 : F2) (e : (curve b2).Point → (curve b1).Point → F12) :
    AState (curve b1).Point (curve b2).Point → List Call →
      Option (AState (curve b1).Point (curve b2).Point × List Out)
  | t, [] => some (t, [])
  | t, c :: cs => (aStep b1 b2 e t c).bind fun r => (aRun b1 b2 e r.1 cs).map fun r' => (r'.1, r.2 :: r'.2)

end
end Verif.Java
