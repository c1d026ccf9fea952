import Verif.Vuint.DivModel

/-!
A client program: a finite sequence of `Vuint` operations on numbered objects.  Used for the
"every reachable object" property (C07).
-/

namespace Verif

/-- Operations of the public interface (zm.h:318-848 and the operator mix-ins zm.h:138-167). Object
numbers may coincide. -/
inductive VOp where
  | setU (d w : ℕ)                 -- `d = w`, `VuintT(T)`, `clear()`
  | setWords (d : ℕ) (ws : List ℕ) -- `d.set(const uint64_t*, n)`
  | setWords32 (d : ℕ) (ws : List ℕ) -- `d.set(const uint32_t*, n)`
  | assign (d x : ℕ)
  | add (d x y : ℕ)
  | add32 (d x w : ℕ)
  | sub (d x y : ℕ)
  | mul (d x y : ℕ)
  | mul1 (d x w : ℕ)
  | div (q r x y : ℕ)              -- `div(&q, r, x, y)`, `q != r`
  | mod (r x y : ℕ)                -- `div(0, r, x, y)`, `r = x % y`
  | div1 (q x w : ℕ)
  | shl (d x n : ℕ)
  | shr (d x n : ℕ)

/-- Argument ranges of the C++ types. -/
def VOp.argsOk : VOp → Prop
  | .setU _ w => w < 2 ^ 64
  | .setWords _ ws => ∀ w ∈ ws, w < 2 ^ 64
  | .setWords32 _ ws => ∀ w ∈ ws, w < 2 ^ 32
  | .add32 _ _ w => w < 2 ^ 32
  | .mul1 _ _ w => w < 2 ^ 64
  | .div1 _ _ w => w < 2 ^ 64
  | .div q r _ _ => q ≠ r
  | _ => True

abbrev VState := ℕ → List ℕ

def VState.put (s : VState) (d : ℕ) (v : List ℕ) : VState := fun i => if i = d then v else s i

/-- One operation of the modelled code.  A zero divisor leaves the outputs unchanged
(zm.h:669: `return false`). -/
def VOp.exec (s : VState) : VOp → Res VState
  | .setU d w => .ok (s.put d (Vuint.ofUnit w))
  | .setWords d ws => do let v ← Vuint.setUnits ws; pure (s.put d v)
  | .setWords32 d ws => do let v ← Vuint.setUnits32 ws; pure (s.put d v)
  | .assign d x => .ok (s.put d (s x))
  | .add d x y => do let v ← Vuint.add (s x) (s y); pure (s.put d v)
  | .add32 d x w => do let v ← Vuint.add32 (s x) w; pure (s.put d v)
  | .sub d x y => do let v ← Vuint.sub (s x) (s y); pure (s.put d v)
  | .mul d x y => do let v ← Vuint.mul (s x) (s y); pure (s.put d v)
  | .mul1 d x w => do let v ← Vuint.mulUnit (s x) w; pure (s.put d v)
  | .div q r x y => do
      let v ← Vuint.div (s x) (s y)
      match v with
      | none => pure s
      | some (a, b) => pure ((s.put q a).put r b)
  | .mod r x y => do
      let v ← Vuint.div (s x) (s y)
      match v with
      | none => pure s
      | some (_, b) => pure (s.put r b)
  | .div1 q x w => do let v ← Vuint.divUnit (s x) w; pure (s.put q v.1)
  | .shl d x n => do let v ← Vuint.shl (s x) n; pure (s.put d v)
  | .shr d x n => do let v ← Vuint.shr (s x) n; pure (s.put d v)

def runV : List VOp → VState → Res VState
  | [], s => .ok s
  | o :: os, s => do let s' ← o.exec s; runV os s'

/-! Specification: the same program on natural numbers. -/

abbrev NState := ℕ → ℕ

def NState.put (s : NState) (d v : ℕ) : NState := fun i => if i = d then v else s i

/-- little-endian value of digits in base `B` -/
def digitsVal (B : ℕ) : List ℕ → ℕ
  | [] => 0
  | w :: ws => w + B * digitsVal B ws

/-- Meaning of one operation on unbounded natural numbers. -/
def VOp.spec (s : NState) : VOp → NState
  | .setU d w => s.put d w
  | .setWords d ws => s.put d (digitsVal (2 ^ 64) ws)
  | .setWords32 d ws => s.put d (digitsVal (2 ^ 32) ws)
  | .assign d x => s.put d (s x)
  | .add d x y => s.put d (s x + s y)
  | .add32 d x w => s.put d (s x + w)
  | .sub d x y => s.put d (s x - s y)
  | .mul d x y => s.put d (s x * s y)
  | .mul1 d x w => s.put d (s x * w)
  | .div q r x y => if s y = 0 then s else (s.put q (s x / s y)).put r (s x % s y)
  | .mod r x y => if s y = 0 then s else s.put r (s x % s y)
  | .div1 q x w => s.put q (s x / w)
  | .shl d x n => s.put d (s x * 2 ^ n)
  | .shr d x n => s.put d (s x / 2 ^ n)

def runN : List VOp → NState → NState
  | [], s => s
  | o :: os, s => runN os (o.spec s)

/-- Operations whose precondition can be violated: subtraction of a larger number and division by
the word 0. -/
def VOp.defined (s : NState) : VOp → Prop
  | .sub _ x y => s y ≤ s x
  | .div1 _ _ w => w ≠ 0
  | _ => True

def definedN : List VOp → NState → Prop
  | [], _ => True
  | o :: os, s => o.defined s ∧ definedN os (o.spec s)

end Verif
