import Verif.Vuint.DivModel
import Verif.Text.Model

/-! `VsintT` (zm.h:959-1158): sign and magnitude.

The operations are written statement by statement on a memory of objects, so that any arguments may be the same
object; a call of a `Vuint` routine reads its operands before it stores its result. -/

namespace Verif

/-- `VsintT` (zm.h:965-966) -/
structure Sint where
  v : List ℕ
  neg : Bool
  deriving DecidableEq, Repr

namespace Sint

/-- objects by address -/
abbrev Mem := ℕ → Sint

/-- `out.v_ = v` -/
def setV (m : Mem) (i : ℕ) (v : List ℕ) : Mem := Function.update m i { m i with v := v }

/-- `out.isNeg_ = b` -/
def setNeg (m : Mem) (i : ℕ) (b : Bool) : Mem := Function.update m i { m i with neg := b }

/-- `VsintT(int)` (zm.h:968-972); `abs(INT_MIN)` is undefined -/
def ofInt (x : ℤ) : Res Sint :=
  if -2 ^ 31 < x ∧ x < 2 ^ 31 then .ok ⟨Vuint.ofUnit x.natAbs, x < 0⟩ else .ub

/-- `VsintT(const V&)`, `set(const V&)` (zm.h:977-981, 991-995) -/
def ofV (x : List ℕ) : Sint := ⟨x, false⟩

/-- `set(value_type)` (zm.h:982-985) -/
def setUnit (m : Mem) (i : ℕ) (x : ℕ) : Mem := setV m i (Vuint.ofUnit x)

/-- `set(int64_t)` (zm.h:986-990); negating INT64_MIN is undefined -/
def setInt64 (m : Mem) (i : ℕ) (x : ℤ) : Res Mem :=
  if -2 ^ 63 < x ∧ x < 2 ^ 63 then
    let m := setNeg m i (x < 0)
    .ok (setV m i (Vuint.ofUnit (if (m i).neg then -x else x).toNat))
  else .ub

/-- `set(const uint64_t*, size_t)` (zm.h:996) -/
def setUnits (m : Mem) (i : ℕ) (x : List ℕ) : Res Mem := do
  let v ← Vuint.setUnits x
  pure (setV m i v)

/-- `clear` (zm.h:999) -/
def clear (m : Mem) (i : ℕ) : Mem :=
  let m := setV m i (Vuint.ofUnit 0)
  setNeg m i false

/-- `isZero` (zm.h:1031) -/
def isZero (x : Sint) : Bool := Vuint.isZero x.v

/-- `isNegative` (zm.h:1032) -/
def isNegative (x : Sint) : Bool := x.neg && !isZero x

/-- `compare` (zm.h:1020-1029) -/
def compare (x y : Sint) : ℤ :=
  if x.neg ^^ y.neg then
    if isZero x && isZero y then 0
    else if x.neg then -1 else 1
  else Vuint.compare x.v y.v * (if x.neg then -1 else 1)

/-- `add` (zm.h:1033-1049) -/
def add (m : Mem) (out x y : ℕ) : Res Mem :=
  if ((m x).neg ^^ (m y).neg) = false then do
    let v ← Vuint.add (m x).v (m y).v
    let m := setV m out v
    pure (setNeg m out (m x).neg)
  else
    let r := Vuint.compare (m x).v (m y).v
    if r ≥ 0 then do
      let v ← Vuint.sub (m x).v (m y).v
      let m := setV m out v
      pure (setNeg m out (m x).neg)
    else do
      let v ← Vuint.sub (m y).v (m x).v
      let m := setV m out v
      pure (setNeg m out (m y).neg)

/-- `sub` (zm.h:1050-1067) -/
def sub (m : Mem) (out x y : ℕ) : Res Mem :=
  if (m x).neg ^^ (m y).neg then do
    let v ← Vuint.add (m x).v (m y).v
    let m := setV m out v
    pure (setNeg m out (m x).neg)
  else
    let r := Vuint.compare (m x).v (m y).v
    if r ≥ 0 then do
      let v ← Vuint.sub (m x).v (m y).v
      let m := setV m out v
      pure (setNeg m out (m x).neg)
    else do
      let v ← Vuint.sub (m y).v (m x).v
      let m := setV m out v
      pure (setNeg m out (!(m y).neg))

/-- `mul` (zm.h:1068-1072) -/
def mul (m : Mem) (out x y : ℕ) : Res Mem := do
  let v ← Vuint.mul (m x).v (m y).v
  let m := setV m out v
  pure (setNeg m out ((m x).neg ^^ (m y).neg))

/-- `div` (zm.h:1073-1107); the pointer q may be null.  `false` is returned with unchanged objects.  Equal q and r
violate the assert of `VuintT::div`. -/
def div (m : Mem) (q : Option ℕ) (r x y : ℕ) : Res (Bool × Mem) :=
  if q = some r then .ub
  else do
    let yy := (m y).v
    let d ← Vuint.div (m x).v (m y).v
    match d with
    | none => pure (false, m)
    | some d =>
      let m := match q with
        | none => m
        | some q => setV m q d.1
      let m := setV m r d.2
      let qsign := (m x).neg ^^ (m y).neg
      let m ←
        if Vuint.isZero (m r).v then pure (setNeg m r false)
        else do
          let m ←
            if qsign then do
              let m ← match q with
                | none => pure m
                | some q => do
                  let v ← Vuint.add32 (m q).v 1
                  pure (setV m q v)
              let v ← Vuint.sub yy (m r).v
              pure (setV m r v)
            else pure m
          pure (setNeg m r (m y).neg)
      match q with
      | none => pure (true, m)
      | some q => pure (true, setNeg m q qsign)

/-- `neg` (zm.h:1108-1112) -/
def negate (m : Mem) (out x : ℕ) : Mem :=
  let m := setV m out (m x).v
  setNeg m out (!(m x).neg)

/-- `shl` (zm.h:1125-1129) -/
def shl (m : Mem) (out x n : ℕ) : Res Mem := do
  let v ← Vuint.shl (m x).v n
  let m := setV m out v
  pure (setNeg m out (m x).neg)

/-- `shr` (zm.h:1130-1142) -/
def shr (m : Mem) (out x n : ℕ) : Res Mem :=
  if isZero (m x) then .ok (clear m out)
  else if (m x).neg then .exit
  else do
    let v ← Vuint.shr (m x).v n
    let m := setV m out v
    pure (setNeg m out false)

/-- `toString` (zm.h:1000-1004) -/
def toString (x : Sint) (base : ℕ) : Res (List Char) :=
  if x.neg then do
    let s ← Text.toString x.v base
    pure ('-' :: s)
  else Text.toString x.v base

/-- `set(const std::string&, int base = 10)` (zm.h:1005-1014); `&str[1]` is a C string -/
def setStr (s : List Char) (base : ℕ := 10) : Res Sint :=
  match s with
  | '-' :: r => do
    let v ← Text.set (r.takeWhile (· ≠ '\x00')) base
    pure ⟨v, true⟩
  | s => do
    let v ← Text.set s base
    pure ⟨v, false⟩

/-- `operator>>` (zm.h:1118-1124) -/
def read (s : Text.Stream) : Res (Sint × Text.Stream) := do
  let r := Text.getDigits s true
  let x ← setStr r.1
  pure (x, r.2)

/-! ### specification -/

/-- the integer an object stands for -/
def toInt (x : Sint) : ℤ := if x.neg then -(val x.v : ℤ) else val x.v

end Sint
end Verif
