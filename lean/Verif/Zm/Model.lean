import Verif.Vuint.DivModel
import Verif.Text.Model

/-! `ZmZ` (zm.h:1169-1339): residues modulo the static member `m_`.

`M` is the value of `m_`, `s` the memory of `ZmZ` objects (their member `v_`); arguments may be the same object.  Release
build: the asserts of `inv` are not compiled. -/

namespace Verif
namespace Zm

/-- objects by address -/
abbrev Mem := ℕ → List ℕ

/-- `v_ %= m_` (zm.h:1181-1184, 150): `div(0, v_, v_, m_)`; nothing happens for `m_ = 0` -/
def modulo (M v : List ℕ) : Res (List ℕ) := do
  match ← Vuint.div v M with
  | none => pure v
  | some d => pure d.2

/-- `set(int)`, `ZmZ(int)` (zm.h:1186-1189, 1200-1213); `m_ < -x` and `v_ -= -x` convert `-x` to `V` -/
def setInt (M : List ℕ) (x : ℤ) : Res (List ℕ) :=
  if x = 0 then .ok (Vuint.ofUnit 0)
  else if x > 0 then .ok (Vuint.ofUnit x.toNat)
  else if x = -2147483647 - 1 ∨ Vuint.compare M (Vuint.ofUnit (-x).toNat) < 0 then .exit
  else Vuint.sub M (Vuint.ofUnit (-x).toNat)

/-- `ZmZ(const V&)`, `set(const V&)` (zm.h:1194-1198, 1229-1233) -/
def setV (M x : List ℕ) : Res (List ℕ) := modulo M x

/-- `ZmZ(const std::string&)`, `set(const std::string&)` (zm.h:1190-1193, 1214-1218) -/
def setStr (M : List ℕ) (s : List Char) : Res (List ℕ) := do
  let v ← Text.set s
  modulo M v

/-- `set(const uint32_t*, size_t)` (zm.h:1219-1223) -/
def setUnits32 (M x : List ℕ) : Res (List ℕ) := do
  let v ← Vuint.setUnits32 x
  modulo M v

/-- `set(const uint64_t*, size_t)` (zm.h:1224-1228) -/
def setUnits (M x : List ℕ) : Res (List ℕ) := do
  let v ← Vuint.setUnits x
  modulo M v

/-- `add` (zm.h:1238-1244) -/
def add (M : List ℕ) (s : Mem) (out x y : ℕ) : Res Mem := do
  let v ← Vuint.add (s x) (s y)
  let s := Function.update s out v
  if Vuint.compare (s out) M < 0 then pure s
  else do
    let v ← Vuint.sub (s out) M
    pure (Function.update s out v)

/-- `sub` (zm.h:1245-1258) -/
def sub (M : List ℕ) (s : Mem) (out x y : ℕ) : Res Mem :=
  if Vuint.compare (s x) (s y) < 0 then
    if out ≠ y then do
      let v ← Vuint.add (s x) M
      let s := Function.update s out v
      let v ← Vuint.sub (s out) (s y)
      pure (Function.update s out v)
    else do
      let t ← Vuint.add (s x) M
      let v ← Vuint.sub t (s y)
      pure (Function.update s out v)
  else do
    let v ← Vuint.sub (s x) (s y)
    pure (Function.update s out v)

/-- `neg` (zm.h:1259-1266) -/
def neg (M : List ℕ) (s : Mem) (out x : ℕ) : Res Mem :=
  if Vuint.isZero (s x) then .ok (Function.update s out (s x))
  else do
    let v ← Vuint.sub M (s x)
    pure (Function.update s out v)

/-- `mul` (zm.h:1267-1283) -/
def mul (M : List ℕ) (s : Mem) (out x y : ℕ) : Res Mem := do
  let v ← Vuint.mul (s x) (s y)
  let s := Function.update s out v
  let v ← modulo M (s out)
  pure (Function.update s out v)

/-- `x -= y` on different objects (zm.h:137) -/
def subAssign (M x y : List ℕ) : Res (List ℕ) := do
  let s ← sub M (fun i => if i = 0 then x else y) 0 0 1
  pure (s 0)

/-- `x * y` (zm.h:141), result in a new object -/
def times (M x y : List ℕ) : Res (List ℕ) := do
  let s ← mul M (fun i => if i = 0 then Vuint.ofUnit 0 else if i = 1 then x else y) 0 1 2
  pure (s 0)

/-- `-x` (zm.h:158), result in a new object -/
def minus (M x : List ℕ) : Res (List ℕ) := do
  let s ← neg M (fun i => if i = 0 then Vuint.ofUnit 0 else x) 0 1
  pure (s 0)

/-- `V::div(&q, r, x, y)`; both objects keep their values when it returns false -/
def divStep (q r x y : List ℕ) : Res (List ℕ × List ℕ) := do
  match ← Vuint.div x y with
  | none => pure (q, r)
  | some d => pure d

/-- the loop of `inv` (zm.h:1308-1322); the fuel only serves to write it as a total function -/
def invLoop (M : List ℕ) : ℕ → List ℕ → List ℕ → List ℕ → List ℕ → List ℕ → Res (List ℕ)
  | 0, _, _, _, _, _ => .diverge
  | n + 1, a, b, q, s, t => do
    let (q, s) ← divStep q s s t
    if Vuint.isZero s then pure b
    else do
      let bq ← times M b q
      let a ← subAssign M a bq
      let (q, t) ← divStep q t t s
      if Vuint.isZero t then pure a
      else do
        let aq ← times M a q
        let b ← subAssign M b aq
        invLoop M n a b q s t

/-- `inv` (zm.h:1292-1323); the locals are new objects and `out` is assigned last -/
def inv (M x : List ℕ) : Res (List ℕ) := do
  let a := Vuint.ofUnit 1
  if Vuint.compare a x = 0 then pure a
  else do
    let (q, t) ← divStep (Vuint.ofUnit 0) (Vuint.ofUnit 0) M x
    let b ← minus M q
    invLoop M (val x + 1) a b q x t

/-- `x / y` (zm.h:172): `inv(out, y); out *= x` -/
def divide (M x y : List ℕ) : Res (List ℕ) := do
  let i ← inv M y
  let s ← mul M (fun j => if j = 0 then i else x) 0 0 1
  pure (s 0)

end Zm
end Verif
