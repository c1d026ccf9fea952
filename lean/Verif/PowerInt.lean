import Verif.Power

/-! Exponents of the remaining values accepted by `mie::power`: negative `int`. -/

namespace Verif

/-- `power(x, y)` with an `int` y of any sign, zm.h:1387-1411 with `IntTag<int>`, zm.h:1358-1369: one block; `v & (1 << j)` reads
bit j of the two's complement word of v, bit 31 included (`1 << 31` is what compilers implement, implementation-defined in C++14). -/
def powerIntZ {T : Type} [Mul T] [One T] (x : T) (y : ℤ) : T := powerInt x (y % 2 ^ 32).toNat

end Verif
