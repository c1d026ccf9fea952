# Formal model of herumi/ate-pairing: design

Everything is in Lean 4 (4.33.0) with Mathlib, under `lean/Verif/`.  This file is
written before the proofs and kept current; the status of each property is in
`MANIFEST.json`.

## 1. What is modelled

The default build (`x86_64`, `MIE_USE_UNIT64`, `MIE_USE_X64ASM`, `-DNDEBUG`, curve
`CurveFp254BNb`, no `BN_SUPPORT_SNARK`); C65-C72, C75-C80 and parts of C81, C82 are about the build with `BN_SUPPORT_SNARK`.

| Layer | Code | Model |
|---|---|---|
| words | `src/zm.cpp` C primitives and JIT code | lists of 64-bit words (naturals `< 2^64`), carry chains word by word; again on flat memory (`Mem/Prim.lean`); generated code on an x64 machine (`X64/`) |
| `Vuint` | `include/zm.h` 183-956 | word list with explicit outcomes `ok / exit / throw / ub` |
| `Vsint`, `ZmZ`, `power` | `include/zm.h` 959-1412 | sign + `Vuint`; loop with termination proof; power over any monoid |
| `Fp`, `Fp::Dbl` | `include/zm2.h`, `src/zm2.cpp` | four (eight) words, carry chains of the generated code, Montgomery reduction |
| tower | `include/bn.h` `Fp2T`, `Fp6T`, `Fp12T`, `CompressT` | structures over `Fp`; lazy reduction on 512-bit values with wrap-around |
| generated field code | `src/zm2.cpp` `PairingCode` 428-3573 | generator functions as lists of instructions, run on an x64 machine (`Jit/`) |
| choice of code variants | `src/zm2.cpp` 225-312 | `CpuExt`, `detectCpu` on the answers of the processor (`Jit/Cpu.lean`) |
| curve | `include/bn.h` `ecop`, `EcT` | Jacobian triples over a field, as the C++ templates are |
| Java classes | `java/bn254_if.hpp` | object stores, calls, call sequences (`Java/`) |
| portable tower code and the routines above it on memory | `include/bn.h` `...C` functions, Frobenius, inverses, compressed squaring, final exponentiation, `opt_atePairing` | programs over objects with aliasing (`Cpp/`) |
| SNARK build | `src/zm2.cpp`, `include/bn.h` with `BN_SUPPORT_SNARK` | the same word and buffer functions with the other modulus and the SNARK branches (`Snark/`) |
| pairing | `include/bn.h` `opt_atePairing*`, `components` | Miller loop driven by `siTbl`, final exponentiation |

Each definition in a model file cites file and lines.  Model files and property files
are separate: `Verif/<Area>/Model.lean` (code), `.../Lemmas.lean` (helpers),
`.../Props.lean` (the property theorems, each with an `example` showing that the
hypotheses are met by a concrete case).

## 2. Outcomes

C++ outcomes other than a value are explicit: `exit` (`errExit`/`exit(1)`), `throw`
(an exception), `ub` (violated `assert` or undefined behaviour; the release build has
asserts compiled out, so an operation whose assert is violated has no specified result).
Theorems say when each outcome occurs.

## 3. Trusted base

* Lean's kernel; axioms `propext`, `Classical.choice`, `Quot.sound` only.
* The transcription of the C++/assembler text to Lean (by hand, with line citations).
* x86-64 instruction semantics as used in the carry-chain models (add/adc/sub/sbb/mul/div/shift/cmov) and in the two
  machines (`X64/`, `Jit/Machine.lean`).
* Generated code, its tables, the stack and the operands do not overlap (hypotheses of C57-C64).
* IEEE-754 double semantics (round to nearest even) as used in the `Vuint` division model.

Not modelled: xbyak itself (instruction encoding), memory protection, OS, threads,
allocation failure, iostream formatting flags beyond those used, GMP's own routines, the code SWIG generates,
MSVC/32-bit builds, timing/side channels; of the SNARK build only what C65-C72 and C75-C82 name.

## 4. Properties

C01-C07 (Vuint arithmetic).  Word-list model; `val : List Nat -> Nat` radix 2^64; each
primitive is proved by induction over the words, for all lengths.  C04: the double
estimate is modelled by exact rational arithmetic with a round-to-nearest-even function;
invariants of the loop: estimate <= true digit, `x_top < 2^64 y`, quotient digits add up.
C07: induction over a list of API operations.

C08-C10 (text of `Vuint`).  `Text/Model.lean`: lists of characters; the chunk loops of `set` and `toString` with
`strtol`, `strtoul`, formatted output of unsigned integers and formatted input of characters in their standard meaning
("C" locale).  Streams are the unread text and the fail flag; `getDigits` is followed character by character.  Texts of
2^31 and more characters (conversion of the length to `int`) count as `ub`.  Output is compared with the core function
`Nat.toDigits`, input with `Nat.ofDigits`.  `set` is shown to give the number denoted or to exit, exactly when; what it
accepts beyond numerals is recorded in `C10_lenient`, what it rejects in `C10_reject*`.

C11 (bits).  `Util/Bits.lean`; `bitLen` goes through the exponent of a double.  C10, C11 are violated by the code on some
inputs: the negation is proved with a witness and the property is proved on the characterised domain.

C12 (aliasing).  `Mem/Prim.lean` has the C routines of `zm.cpp:16-185` word by word on one flat memory, `Mem/Vuint.lean` the
methods of `VuintT` on objects that are places in this memory (nine words and the size); the copies the methods make (`xt`, `yt`,
`qt`, `rt`, the buffer `t`, the scratch words of the raw `mul`) lie on a stack from `sp` on.  The theorems (`Props/Alias.lean`)
give value, normal form, unchanged rest of memory and the exit / undefined cases for `add`, `add32`, `sub`, `mul1`, `mul`, `div`
(with and without quotient object), `shl`, `shr`, leaving open which of the objects are the same; the only separation assumed is
that two different objects have no word in common, and for `div` that q and r are different (the `assert`).  Proof: each method
leaves what the list function of C01-C05 gives (`Mem/VuintLemmas*.lean`).  The index check of `operator[]` is left out: all
indices are below a size allocated before.  `compare` and `GetApp`, which only read, are applied to the words read.

C13 (x64 word routines).  `X64/Machine.lean`: the fragment of x86-64 the generators in `zm.cpp` use, as a small-step
interpreter on registers, the flags CF, ZF and SF≠OF, and a memory of 64-bit words.  Unaligned access, reading a flag the
architecture leaves undefined and a divide fault are `ub`.  `X64/ZmCode.lean`: the emitted instruction lists, System V
argument registers (the Win64 variant of the generators differs in the registers only and is not modelled); the encoding of
instructions into bytes by Xbyak is trusted.  `Mem/Prim.lean`: the C routines on the same memory, so output and operands may
overlap.  The theorems say that the code returns, keeps the callee-saved registers, writes the output words only, and leaves
the numeric result as well as exactly what the C routine leaves.  n = 0 is outside the precondition of both versions
(`assert(n > 0)` in C; the generated addN would process three words).

C14, C15, C56 (`Vsint`).  `Sint/Model.lean`: objects are sign flag and word list in a memory addressed by number; each
routine is the sequence of its assignments, so arguments may coincide in any way.  Compared with `Int` arithmetic; -0
denotes 0.  Division is compared with the floor of the rational quotient.

C16, C17 (`ZmZ`).  `Zm/Model.lean`: residues are `Vuint` objects in a memory addressed by number, so output and operands
may coincide; the modulus is a parameter.  Results are compared with the ring `ZMod m`, with the exact conditions under
which the 9-word buffer makes the program exit.  `inv` is the extended Euclidean loop with its Bezout invariant.

C18 (power).  `Power.lean` models the block loop of `power` (zm.h:1388-1412) over any type with `*` and
`1`; proved equal to `Monoid.npow` in any monoid by induction over the exponent words.

C19.  Pocklington certificates checked by kernel evaluation (`Fp/Prime.lean`).  `Init/Model.lean` follows `Fp::setModulo`
(with `setTablesForDiv`) and `ParamT::init` on the modelled `Vuint`, `Vsint`, `ZmZ` and field code; the constants used by
all other models are proved to be the ones these compute (`C19_consts`, `C19_init`).  Not modelled there: generation of the
machine code, the assignment of function pointers (the choice of `mulx` code by CPU feature is C86).

C20-C28 (Fp).  `Fp/Word.lean` transcribes the generated code (carry chains, conditional moves, Montgomery
rounds, the almost-inverse loop) on four or eight words.  `Fp/WordLemmas`, `WordMul`, `WordInv` prove each
equal to natural-number arithmetic.  `Fp/Model.lean` gives the API on buffers; `Fp/Spec.lean` the decoding
map `x -> x / 2^256` into `ZMod p`.  `Fp/Field.lean` shows that canonical values with the code's own
operations form a `Field`.  Values outside the canonical range (NC operations, `Dbl` values) have theorems
with explicit ranges (C27, C28).

C29-C35 (tower).  `Tower/Raw.lean` transcribes the generated tower routines and the C++ formulas on raw
buffers (256-bit and 512-bit naturals with wrap-around).  `Den*.lean`, `F2`, `F6`, `F12`, `Sparse`, `Comp` prove
for every chain of lazy operations that each intermediate stays in its buffer and below p*2^256 where a
reduction needs it, and that the result is the field value.  `F2`, `F6`, `F12` carry the code's own operations and
are shown to be fields (xi = 1+u is neither a square nor a cube: kernel-evaluated powers of 2).  `Frob.lean`:
the gamma tables are computed by the modelled `power`; Frobenius maps equal p-powers.  `Cyclo.lean`: from
x^(p^4-p^2+1) = 1 eight coordinate relations are derived; they give the cyclotomic square, the compressed square
and the decompression, including the exceptional denominators (only x = 1 has both g2 = g3 = 0).
`final_exp` is followed exponent by exponent.  In-place calls (`z` aliasing `x`) are modelled as values; the
generated code reads its operands before overwriting them, which the transcription follows line by line.

C36-C40, C42 (curve).  `Ec/Model.lean` transcribes `ecop` and `EcT` once for any field, as the C++ templates do;
the property theorems instantiate it at the modelled Fp and Fp2 with the code's own operations.  `Rep b P A`
relates a Jacobian triple to a point of Mathlib's `WeierstrassCurve` group.  `Ec/Mem.lean` has the statement-by-
statement memory forms for aliased arguments (C42), `Ec/History.lean` call sequences (C40).  Local variables of a
routine (the triple in `sub` and `ScalarMult`) live at a fresh address.  Left shift of the `int` scalar into the
sign bit (undefined before C++20) is modelled as two's complement wrap.  `Ec/Const.lean`: twist constants and
`FrobEndOnTwist_*` (rest of C33).

C43-C50, C54 (pairing).  `Pairing/Line.lean` and `Pairing/Model.lean` transcribe the line routines on raw words, the
Miller loop, `opt_atePairing*` and `components`.  The proof of bilinearity does not use divisors:
* `Line`, `Steps`: with the lazy-reduction bounds the routines compute the homogeneous formulas over Fp2, hence the
  group law of the twist and a non-zero multiple of the line through the points.
* `Gamma`, `Cocycle`: the value of final_exp on the evaluated line through A, B is a symmetric 2-cocycle gamma(A,B) of
  the twist with values in Fp12 units (polynomial identity for three chords).  A cocycle makes a group extension `Ext`;
  the Miller loop computes a multiple in it (`Loop`, `rel_prefix`).
* `Count`, `Order`, `Eval`: point counts.  E' has at most 2p^2+1 points and contains points of the four prime orders
  dividing r(2p-r), which fixes the order; kernel evaluation of a few scalar multiples.  The orders show that no
  addition in the loop is exceptional, for any point of the twist.
* `Ate`: in the extension the pairing becomes (6z+2) + phi - phi^2 applied to a lift, corrected by Frobenius; on the
  r-torsion this is additive.
* `Recip`, `Bilinear`: reciprocity for two lines (one on the curve, one on the twist, resultant identity) gives
  additivity in P.
* `NonDeg`: one pairing evaluated in the kernel piece by piece (`Light`: the scalar multiples on plain residues); with the orders it gives non-degeneracy for all points.
C47 is read off the same loop relation; the line statements from `Recip.chord`.
C46: `Comp.lean`, induction on the digit table.  At infinity the precomputed form deviates (section 5).  For P at infinity
(`Infinity.lean`) every line is its coefficient `a_`, so the loop stays in Fp2 and the result is 1, or 0 if some `a_` is zero; that
no `a_` is zero for the generator is checked by the kernel on plain residues (`LineRun.lean`).  Whether a point of order r with a
zero `a_` exists is not settled.
`RepH b T A` relates homogeneous coordinates (X/Z, Y/Z) to a point, as the line routines use them.
`Param.siTbl` is a literal in the model; C51 derives it from the recoding.

C22 (text part), C41, C55.  `Text/Elem.lean`: printing and reading of field elements, of the extension fields and of
points; a character variable that stays uninitialised because the stream failed is `ub` when compared.  Proved on top
of C08, C09 by following the readers through the printed text, for arbitrary surrounding text.  `C55_accept` goes the
other way, by inversion of the reader: what is read as an element of Fp2 has the form [a,b].

C51.  `Util/Naf.lean`: lists of digits; induction on the recoding loop with the carried value as invariant.

C52.  `Java/Model.lean`: stores of Mpz, Fp, Fp2, Fp12, Ec1, Ec2 objects, one constructor of a call type per method, `step`
and `run` with what each call hands back; the point methods run on the memory forms of the curve routines (output
and operand the same object), `equals`, `toString` and `pairing` normalise their arguments in place, an exception leaves the
object as `set` had written it, and `power` and `mul` read GMP's `_mp_size` and `_mp_d` as the code does.
`Java/Spec.lean` reads the same calls mathematically.  `C52_calls`: simulation for all call sequences, by cases on the
call and induction on the sequence.  An `mpz_class` is an integer (GMP's own arithmetic is not modelled); text methods are
left to C08-C10, C22, C41, C55; writing through `getA()`, `getX()` etc. is modelled only for arguments of `set`.

C53.  `Fp/Fallback.lean`: the C fallback routines of `Fp` and `FpDbl`.  Found: `Fp_subC` subtracts p once more in its
no-borrow branch (`C53_subC_wrong`), and `Fp_mulC` calls `get()`, which calls the installed `Fp::mul`, so it
does not terminate when it is itself the installed routine (`C53_mulC_diverges`).  `C53_agree` covers the
others.
`Cpp/Lang.lean`: straight-line C++ code as a list of calls on memory cells (one cell per `Fp` or `FpDbl`), arguments are
references, local variables are object 0.  `Cpp/Code.lean`: the portable tower routines of include/bn.h statement by
statement; a called routine reads its operands, then writes what the generated routine of that name computes
(`Fp/Model.lean`, `Tower/Raw.lean`) - so this is about each C routine on top of the installed ones, not about a build
in which all fallbacks are installed together; `mul_xi` and `mul_Fp_0` are expanded because their order of writes matters.
Proof: the routine is run once per pattern of equal arguments on symbolic object names and values (`crun`, a kernel
computation with the called routines as variables), and `Cpp/Lang.lean: run` carries the run over to all references and adds
that nothing else changes.  The compressed squaring differs from the generated one in two steps; `compSquareC_eq` shows them
equal on canonical operands, `square_nC` is by induction on the count.

C57-C64 (the generated field code).  `Jit/Machine.lean`: an x64 machine - sixteen general registers, the low halves of the
xmm registers, carry and zero flag, memory as 64-bit words at addresses divisible by 8 - with the instructions that
`PairingCode` (src/zm2.cpp:428-3573) emits, jumps, calls (the return address is stored on the stack and compared at `ret`) and
`ret`.  Misaligned access, use of an undefined flag, a jump to a missing label, a wrong return address and running off the
end are `ub`.  `Jit/Code.lean`: the generator functions as Lean functions that return lists of instructions, for the 44
routines of `init` and their subroutines; `Cfg` has the two switches the generator looks at (`interleaveLoad`,
`useMulx`) and the addresses of its tables, all arbitrary in the theorems.  `MakeStackFrame`, `storeReg` and `restoreReg`
(zm2.cpp:326-341, 3257-3305, Linux branch) are `frame`.
Proof: symbolic execution of straight-line pieces gives for every block the natural-number function of `Fp/Word.lean` and
`Tower/Raw.lean` (`Ops`, `Prims`, `Mul`, `Mod`, `Field`, ...); a routine made of blocks and calls is then run on abstract operand
values and compared with the raw tower function by one kernel computation for symbolic values (`Run`, `Progs`, `Fp2Code`,
`Fp6Code`, `Entries`); `Frame`, `Api`, `Calls` restate this from the caller's side; loops (`Inv`, `Compress`) by induction with an
invariant.  `Jit/Spec.lean` has the value side: the tower written out in coordinates over ZMod p, and what it means that
memory holds an element.  `Jit/Demo.lean`: the states used in the examples.
`Tables` (the contents `s_pTbl`, `halfTbl_`, `pNTbl_[2]`) is a hypothesis of C57-C64; `C57_tables` proves it from the `Data`
object that `setModulo` stores (`Props/JitInit.lean`), at any address.
C63: the C++ type of the count is `int` but the code reads the whole of rsi, so the theorem speaks of the 64-bit count; the
upper half of the register is not specified by the calling convention, and a count of 0 runs 2^64 rounds.
C64: the wrong aliased calls are shown by running the machine in the kernel.

C65-C72 (the SNARK build).  `Snark/Word.lean`, `Snark/Model.lean`: the word functions that mention p, with p =
0x30644e72...fd47; the others are shared with the default build.  `Snark/MulXi.lean`: `in_Fp_mul_xi_addsub` (quotient estimate
with `pRev`, table `s_pTbl` of ten multiples; an index of 10 or more is `ub`).  `Snark/Raw.lean`: the tower routines on
buffers with the SNARK branches.  `Snark/Ring.lean`: the rings G2, G6, G12 over ZMod p, not built from the code.  `Den`, `Den6`,
`Den12`, `Sparse`, `Line`: the lazy reductions, bound by bound.  The bounds of the default curve (6p^2 < p 2^256) fail here:
`Fp6Dbl::mul` leaves one coordinate below 1.2 p 2^256, which `Fp12::mul` and `Fp12::square` then treat as reduced; hence the
hypotheses `Fits` of C68, C69 and the witnesses in `Witness.lean` (checked in the kernel by running the model on them and
comparing with integers).  `Modp`: C70.  `Curve`: Fp2 as a field, the line routines against Mathlib's group law on the twist.
`Init`: the statics `b`, `b_invxi` and the branch `b == 82` (zm2.cpp:3074) taken when the code is generated; `setModulo`
returns at once on every later call (zm2.cpp:3607), so the branch belongs to the first curve (C72).
Not modelled in the SNARK build: `Compress`, parsing, the generated code as instructions.

C73 (template routines on memory).  `Cpp/Tmpl.lean`, in the language of C53: first the routines that work on buffers, then, with
one canonical `Fp` per cell, those above the installed routines.  A call inside a routine is one statement whose value is the
function proved for the callee; local variables of a callee are not visible in the caller.  `&z != this` is a test on the
references; the branch in `decompressBeforeInv` is taken on the memory before the call.  Proof as for C53 (`trun` runs the
routine on symbolic values, `mk1`..`mk4w` of `Cpp/Spec.lean` carry it over to all arguments); the wrong aliased calls are
computed.

C74 (`opt_atePairing` on memory).  `Cpp/Ate.lean`, same language; the program depends on the digit table, so the proof is an
invariant over the loop (f, T, Q, P and, with NAF, Qneg hold the values of the function) and a run of each piece of straight-line
code.  The line evaluations, `final_exp` and `normalize` are single statements (on memory: C53, C73; `Ec` routines: `Ec/Mem.lean`).

C75 (SNARK final exponentiation).  `Snark/Field.lean`: p is prime (Lucas certificate), G2, G6, G12 are fields, Frobenius, the
subgroup of order p^4 - p^2 + 1 and its squaring relations.  `Snark/Final.lean`: the routines on buffers, with
`gammar` computed by `mie::power` as in `ParamT::init`.  They call `Fp6::mul` and `Fp12::mul`, which are right only within the
bounds of C68, C69; whether an intermediate product meets its bound cannot be read off the operand.  So every routine carries a
flag: `false` is the code, `true` is the same run with a `throw` at the first product out of bounds (`C75_checked`).  The
theorems say: a checked run that ends gives the result of the code, canonical and right (`FinalDen.lean`).  `FinalRun.lean`: a
run within the bounds, and an operand on which `mapToCyclo` and `final_exp` are wrong (`C75_wrong`); it was found by choosing the
b-halves of the factors conj(x) and 1/x of the first product of `mapToCyclo` close to p and solving for x.  The long runs are evaluated in the kernel with
a second definition in plain arithmetic mod p, proved equal.

C76 (SNARK pairing).  `Snark/Miller.lean`: `opt_atePairing` with the SNARK branches, on buffers, with the flag of C75 for
`Fp12::square` and `Fp12::mul`.  `Pairing/Abs.lean`, `Pairing/AbsNondeg.lean`: the optimal ate pairing over any data
(Fp, Fp2, Fp12, twist, z, r) that satisfies the stated relations, with bilinearity and non-degeneracy from one non-trivial value
(the argument of C49, C50 without the constants).  `Gamma.lean`, `Phi.lean`: the two SNARK curves are such data; every step of the loop
keeps the relation between buffers and the Miller function.  `Order.lean`: r^2 does not divide the order of the twist
(it is odd, divisible by 10069 and at most 2p^2+1), so the r-torsion is cyclic and rQ = 0 implies the eigenvalue relation of Frobenius.  `MillerRun.lean`, `PairRun.lean`: the checked run on one
pair of points of each curve, evaluated in the kernel through an equal definition in plain arithmetic; it gives the non-trivial
value.  `PairWrong.lean`: two runs after init(SNARK2), init(SNARK1).
The theorem speaks of runs whose products stay in range (`optAte true` ends); whether there are points for which they do not and
the pairing is wrong is open: single operands of `final_exp` are known (C75), points that lead to one are not.

C77 (SNARK groups).  `EcT` and `ecop` are templates, so the model is `Ec/Model.lean` at the types `C1`, `C2` of canonical buffers
with the SNARK operations (`Snark/Ec.lean`).  `Ec/Hom.lean`: every routine commutes with a map that respects the field
operations and the three tests; the maps are `residue` and `sden`, so the theorems over the fields (C36-C39) carry over.
The inverse of the model takes the value of the `Res` result; `C1.inv_eq`, `C2.inv_eq` say that there always is one (0 for 0).
The write-back of the normalised coordinates in opt_atePairing(f, Ec2, Ec1) is in C81 (and C74 for the default build).

C78 (SNARK precomputation).  `Snark/Comp.lean`: the three routines with the vector of coefficients as a list; reading past the end
is `ub`.  The equality with the loop of C76 is proved by induction on the digits for arbitrary buffers (`preLoop_ok`).
`CompVal.lean`: the value of each coefficient at each point P is the line function of C76 (`Ln`), and `millerLoop2` multiplies two
such sequences.  `CompRun.lean`: a checked run of `millerLoop2` on the generators, evaluated as in C76.  `CompInf.lean`:
`precomputeG2` ends on all canonical buffers; on (0, 0) all lines after the second are 0.
`CompInfP.lean`: with P at infinity a line is its coefficient `a_`, the accumulator stays in Fp2, where no product leaves its range, and
the final exponentiation gives 1 on all elements of Fp2 but 0.

C79 (SNARK square root, text, set).  `Snark/Text.lean`: the routines of C22, C26, C41, C55 with the `set` and `get` of this build;
text of a `Vuint` and the reader of points do not depend on p and are shared (`Text/Model.lean`, `Text/Elem.lean` at `C1`, `C2`).
`EcT::set` is modelled by its result; the coordinates that stay in the object after the exception are in C40.

C80 (SNARK `mul_xi` on the machine).  `Snark/Jit.lean` and `Snark/JitDbl.lean`: the generator functions of zm2.cpp:1467-1541, 1634-1638
and 2063-2085 as instruction lists on the machine of C58-C64 (which has `shld` for this).  The table entry read at `rax - 32 + rdx` is an
address computation that wraps; that it stays in the table is proved for canonical operands.  The other generated routines of the
SNARK build are modelled word by word as functions (C65-C72), not on the machine.

C81 (sequences).  `Ec/Session.lean`: calls on a memory of objects for any field type with the operations (so for both builds), with
the write-back of `==`, `normalize` and `opt_atePairing(f, Ec2, Ec1)`; `Call.spec` and `Ses.Agrees` say what a sequence means in a pair of
groups with a map e.  One call is proved in `Call.step_spec` through `Ec/Hom.lean`, the sequence by induction.  That the points of the
twist stay of order r is proved along the way.  `sub` and `mul` use a local triple and are modelled by their result (C42).  The default
build uses the pairing of C49, C50 on field values (words: C74); the SNARK build that of C77, for runs with products in range.

C82 (products).  `Props/Product.lean`: the calls of C46 and C78 for a list of pairs with `f *= t` in between, as a user of `components`
writes them (there is no such routine in the library itself; `millerLoop2` is the case of two with shared squarings).  Induction over
the list; `final_exp` is multiplicative (`fe_mul`, `acc_mul`).  `Snark/ProdRun.lean`: a checked run on the generators.

C83 (debugging aid).  `Jit/Debug.lean`: zm2.cpp:2310-2334 on the machine of C58; `push` and `pop` are a store or load and a `lea` on rsp, which
set no flags either.  Induction over n for the unrolled loop.  An address formed with rdx is excluded: rdx is overwritten before the
address is taken.  `debug_count_inc`, `begin_clock` and `end_clock` use 32-bit operands and `rdtsc`, which the machine does not have.

C84 (GMP conversion).  `Fp/Gmp.lean`: zm2.h:283-297 on word lists, with the documented meaning of `mpz_import` and `mpz_export` for the
arguments used (GMP itself is trusted; a store past the four words is `ub`).  Proved through the base-2^64 digits of |z| and an
induction on the zero-fill loop; `C84_toMpz_value_iff` needs only 2^256 ≠ 1 modulo p.

C85 (sequences in the three groups).  `Props/GtSession.lean` extends the calls of C81 by objects of class `Fp12` (default build).  A call stores
the value of the function on the old contents, which C61 and C73 prove for the code on memory, also for coinciding objects.  Induction on
the sequence; the invariant is that each `Fp12` object has order r, so that C34 applies to `sqru` and `fixed_power` (r divides p^4 - p^2 + 1).

C86 (code variants).  `Jit/Cpu.lean`: `CpuExt` and `detectCpu`, zm2.cpp:225-312; a processor is the three answers the code asks for (Intel,
BMI2, eax of cpuid leaf 1), Xbyak's own detection is not modelled.  `C86_mulx`: the generated lists of every routine are evaluated in the
kernel with the `mulx` switch off, for both load variants and symbolic table addresses; none contains `mulx`, so none can appear on a
processor without BMI2.  `C86_needed` shows that the switch matters.  `C86_ext` and `C86_interleave` state the bit fields and the rule for the load
variant with division and remainder.  `C86_tables` joins this to C57: the theorems on generated code hold whatever was chosen.  For
the SNARK build the instruction lists that replace those of the default build (multiplication by ξ and its conjugate, at all addresses, and
`p_Fp2Dbl_mul_xi`) are checked; the routines that inline them are not generated a second time.

## 5. Places where the code breaks a property

* `FpDbl::neg(0)` of the generated code stores p*2^256, not 0 (`C27_neg_zero_not_reduced`).
* `Fp2::mul_xi` and `Fp2Dbl::mul_xi` with the result on top of the operand, `Fp2::mul_Fp_0` with the factor inside the
  result: wrong (`C64_mul_xi_alias`, `C64_dbl_mul_xi_alias`, `C64_mul_Fp_0_alias`).  The generated `FpDbl::neg` tests the
  result pointer instead of the words (`C58_neg_zero`).
* `Fp_subC`, `Fp_mulC`: see C53.
* `power` and `mul` with a negative GMP integer read limbs out of range: `M_blockSize` (bn.h:25-28) returns the negative
  `_mp_size` as a `size_t` (`C52_negative_ub`).
* `P.set(P.getY(), P.getX())` through the Java references stores (y, y) (`C52_set_own_coordinate`).
* `mul_xiC(x, x)` and `mul_Fp_0C(x, x, x.a_)`: wrong, the assertions are not compiled with NDEBUG
  (`C53_mul_xiC_in_place_wrong`, `C53_mul_Fp_0C_in_place_wrong`).
* `Fp2T::squareC` (bn.h:496) adds a to a where its comment says a + b (`C53_fp2_squareC_wrong`).
* `ScalarMult` with a negative `int` m multiplies by 2^32 + m (`C38_negative_int`, `C38_negative_int_wrong`); since both
  group orders are odd the result is wrong for every finite point (`C38_negative_int_iff`).  `power` with a negative `int` likewise
  (`C18_int`, `C18_negative_iff`, `C18_negative_wrong`).
* `EcT::set` with verification assigns before it checks: after a caught exception the object holds the rejected,
  off-curve coordinates (`C40_throw_keeps_rejected`).
* `components::precomputeG2` on a point at infinity goes on with (0, 0, 1); `millerLoop` and `final_exp` then give 0
  where `opt_atePairing` gives 1 (`C46_infinity_wrong`); with P at infinity it gives 0 if a line of Q goes through (0, 0)
  (`C46_infinity_P`); in a product the other pairings are lost (`C82_infinity_wrong`).  `opt_atePairing` on an off-curve triple can be 0
  (`C45_invalid_zero`).
* `Vuint::bitLen` is one too large when the top word rounds up to a power of two as a double (`C11_bitLen_wrong`), so
  from 2^54-1 on; `testBit` beyond the stored words reads outside (`C11_testBit_outside`).
* `Vuint::set(string)` takes "-5" as 4294967291, "1 23456789" as 1023456789 and "0x0x12" as 18 (`C10_lenient`); "012"
  ends the program (`C10_zero`).  The decimal text of a 9-word number may make the reader exit (`C08_round`).
* `operator>>` for points does not check the curve equation (`C41_unchecked`).
* `convertToNAF` reads outside its vector for 0 and 1 (`C51_small`, `C51_binary_ub`) and its output can have adjacent
  non-zero digits (`C51_adjacent`).
* `VsintT::set(value_type)` and `set(words, size)` keep the old sign (`C14_set_keeps_sign`); the smallest `int` and
  `int64_t` are undefined (`C14_set`).  `Vsint` prints negative numbers in base 16 as "-0x.." and exits when reading it
  (`C56_hex_exits`).
* `ZmZ(int)` does not reduce a non-negative argument, so with a modulus below 2^31 it creates unreduced objects on which
  `add` gives unreduced results (`C16_int_unreduced`); a negative one below -m, or the smallest `int`, exits (`C16_set_int`).
  `ZmZ::inv` of an element without inverse returns a number that is not one (`C17_not_coprime`).
* `Fp6::square(z, z)`, `x.mapToCyclo(x)` and `fixed_power(z, z)` give wrong results; the first and the last are excluded only
  by an assertion (`C73_fp6_square_self_wrong`, `C73_mapToCyclo_self_wrong`, `C73_fixedPower_self_wrong`).
* SNARK build: `Fp6::mul` can return an unreduced component (`C68_unreduced`); `Fp12::mul` and `Fp12::square` are wrong for some
  canonical operands (`C69_mul_wrong`, `C69_square_wrong`), and so are `mapToCyclo` and `final_exp` (`C75_wrong`); `fast_modp` is wrong on part of its range, so
  `Fp::_2z_add_3x` and with it `Compress::square_n` are (`C70_wrong`); `Param::init` with SNARK2 and later with SNARK1 leaves
  a doubling step for the wrong curve (`C72_factor`, `C72_dbl`), and the pairing is then not bilinear (`C76_wrong_init`); the
  precomputed form is 0 for Q at infinity (`C78_infinity_wrong`), and for P at infinity if a line goes through (0, 0) (`C78_infinity_P`); points are read without a check (`C79_unchecked`);
  `Fp2::mul_xi(x, x)` is wrong unless b = 8a (`C80_in_place`).
* `debug_save_buf` restores rbx from the operand instead of the saved value (`C83_rbx_wrong`); it is not called anywhere.
* `Fp::toMpz` returns the Montgomery form instead of the value (`C84_toMpz_value_iff`, `C84_one_wrong`); `Fp::fromMpz` ignores the sign
  (`C84_sign`) and writes past the buffer from 2^256 on (`C84_fromMpz`).  Neither is called in the repository.
