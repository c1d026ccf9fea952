import Verif.Base

/-!
Model of `mie::power` (zm.h:1384-1412), for any type with a multiplication and a unit.  Blocks of the
exponent are naturals below 2^W where W = `sizeof(value_type) * 8`.
-/

namespace Verif

variable {T : Type} [Mul T] [One T]

/-- zm.h:1398-1402: number of significant bits of the last block, `while (m > 0 && !(v & (1 << (m - 1)))) m--`. -/
def powTop (v : ℕ) : ℕ → ℕ
  | 0 => 0
  | m + 1 => if v.testBit m then m + 1 else powTop v m

/-- zm.h:1403-1408: `n` passes of the bit loop starting at bit `j`; returns (out, t). -/
def powInner (v : ℕ) : ℕ → ℕ → T → T → T × T
  | 0, _, out, t => (out, t)
  | n + 1, j, out, t => powInner v n (j + 1) (if v.testBit j then out * t else out) (t * t)

/-- zm.h:1394-1409: the block loop. -/
def powBlocks (W : ℕ) : List ℕ → T → T → T
  | [], out, _ => out
  | [v], out, t => (powInner v (powTop v W) 0 out t).1
  | v :: w :: vs, out, t =>
    powBlocks W (w :: vs) (powInner v W 0 out t).1 (powInner v W 0 out t).2

/-- `power(x, y)` for a `Vuint` y given by its words, zm.h:1387-1411 (`T out = 1`). -/
def power (x : T) (y : List ℕ) : T := powBlocks 64 y 1 x

/-- `power(x, y)` for a non-negative `int` (`IntTag<int>`, one 32-bit block). -/
def powerInt (x : T) (y : ℕ) : T := powBlocks 32 [y] 1 x

/-- `power(x, y)` for a `size_t` (`IntTag<size_t>`, one 64-bit block). -/
def powerSize (x : T) (y : ℕ) : T := powBlocks 64 [y] 1 x

end Verif
