{"id": "C01", "title": "Vuint addition is exact or stops the program", "statement": "For two well-formed Vuint values, x + y returns a well-formed Vuint (no leading zero word) whose numeric value is the sum; the only other outcome is the program exit for exceeding the 576-bit capacity, and it happens exactly when the sum does not fit. The same holds for x + uint32. No silent wrap-around or truncation.", "quantifier": "all pairs of well-formed Vuint values of any word length up to the capacity, and all 32-bit addends", "why_tests_cant": "2^1152 operand pairs; carry propagation across words has an exponential number of patterns", "anchors": [{"file": "/repo/include/zm.h", "symbols": ["VuintT::add", "VuintT::add_in", "FixedBuffer::alloc"]}, {"file": "/repo/src/zm.cpp", "symbols": ["in_addN", "in_add"]}]}
{"id": "C02", "title": "Vuint subtraction is exact or stops the program", "statement": "For well-formed x, y: x - y returns the well-formed exact difference when y <= x. When y > x and y has no more words than x the program exits with the message \"can't sub\"; when y has more words than x the precondition assert (undefined in release builds) is violated. A wrong difference is never returned when y <= x.", "quantifier": "all pairs of well-formed Vuint values", "why_tests_cant": "borrow chains of every length and position have to be covered", "anchors": [{"file": "/repo/include/zm.h", "symbols": ["VuintT::sub", "VuintT::sub_in"]}, {"file": "/repo/src/zm.cpp", "symbols": ["in_subN", "in_sub"]}]}
{"id": "C03", "title": "Vuint multiplication is exact or stops the program", "statement": "x * y returns the well-formed exact product whenever the word counts add up to at most 9; otherwise the program exits. The word-by-word accumulation never loses a carry.", "quantifier": "all pairs of well-formed Vuint values", "why_tests_cant": "the accumulated carries depend on all words of both operands", "anchors": [{"file": "/repo/include/zm.h", "symbols": ["VuintT::mul", "VuintT::mul1"]}, {"file": "/repo/src/zm.cpp", "symbols": ["in_mul", "mulUnit"]}]}
{"id": "C04", "title": "Vuint division computes floor quotient and remainder and terminates", "statement": "Vuint::div(q, r, x, y) with y != 0 terminates and yields well-formed q, r with x = q*y + r and 0 <= r < y; with y == 0 it returns false. The only exception is the capacity exit, which happens exactly when y has 9 words and x > y. The floating-point digit estimate never exceeds the true quotient digit (so no borrow is lost), never overflows a 64-bit word (no undefined double-to-integer conversion), and no quotient word overflows.", "quantifier": "all pairs of well-formed Vuint values, any word lengths, every iteration of the estimation loop", "why_tests_cant": "the correctness relies on rounding of IEEE doubles at 53 bits against 64-bit words; failing operands would be about 2^-50 rare", "anchors": [{"file": "/repo/include/zm.h", "symbols": ["VuintT::div", "VuintT::GetApp", "VuintT::div1", "VuintT::operator/", "VuintT::operator%"]}, {"file": "/repo/src/zm.cpp", "symbols": ["in_div", "in_mod", "divUnit"]}]}
{"id": "C05", "title": "Vuint shifts multiply and floor-divide by powers of two", "statement": "x << n is the well-formed value x * 2^n or the program exits because the word buffer would overflow; x >> n is the well-formed value floor(x / 2^n).", "quantifier": "all well-formed Vuint values and all shift amounts", "why_tests_cant": "every combination of word shift, bit shift and top-word pattern matters", "anchors": [{"file": "/repo/include/zm.h", "symbols": ["VuintT::shl", "VuintT::shr", "VuintT::shlUnit", "VuintT::shlBit", "VuintT::shrUnit", "VuintT::shrBit"]}]}
{"id": "C06", "title": "Vuint comparison operators are the numeric order", "statement": "For well-formed values the sign of compare(x, y) is the sign of x - y as integers; hence ==, !=, <, <=, >, >= are the numeric relations and == holds only for identical word vectors.", "quantifier": "all pairs of well-formed Vuint values", "why_tests_cant": "needs the absence of leading zero words on every reachable value, an invariant over all histories of operations", "anchors": [{"file": "/repo/include/zm.h", "symbols": ["PrimitiveFunction::compare", "VuintT::compare", "comparable", "VuintT::trim"]}]}
{"id": "C07", "title": "Every reachable Vuint is well formed", "statement": "Starting from any constructor and applying any finite sequence of the arithmetic, shift, division and assignment operations, every Vuint object has between 1 and 9 words and no leading zero word unless it is the value 0 with exactly one word; the numeric values computed agree with the same sequence run on natural numbers unless the program exited.", "quantifier": "all finite sequences of API calls", "why_tests_cant": "unbounded histories", "anchors": [{"file": "/repo/include/zm.h", "symbols": ["VuintT", "VuintT::trim", "VuintT::set"]}]}
{"id": "C08", "title": "Decimal output then input returns the same Vuint", "statement": "For every well-formed x, x.toString(10) is the canonical decimal numeral of x (no leading zeros), and set() of that string returns x whenever x has at most 8 words; otherwise it returns x or exits for capacity, and exits exactly when floor(x/10^9) needs more than 8 words. Streams: white space before and any non-digit after the numeral are handled.", "quantifier": "all well-formed Vuint values", "why_tests_cant": "the 9-digit chunking with zero padding has a corner case at each multiple of 10^9", "anchors": [{"file": "/repo/include/zm.h", "symbols": ["VuintT::toString", "VuintT::set(const std::string&)", "VuintT::operator<<", "VuintT::operator>>"]}]}
{"id": "C09", "title": "Hexadecimal output then input returns the same Vuint", "statement": "For every well-formed x, x.toString(16) is \"0x\" followed by the canonical lower-case hexadecimal numeral, and set() of that string returns x.", "quantifier": "all well-formed Vuint values", "why_tests_cant": "word padding and the 8-digit chunking of the parser interact at every length", "anchors": [{"file": "/repo/include/zm.h", "symbols": ["VuintT::toString", "VuintT::set(const std::string&)"]}]}
{"id": "C10", "title": "Parsing of digit strings yields the denoted number", "statement": "set(s) for a non-empty string of decimal digits without a leading zero (or \"0\"), or 0x followed by hexadecimal digits, yields the number the string denotes, or exits for capacity. A numeral with a superfluous leading zero such as \"012\" makes the program exit. Text that is not a numeral is rejected; where this is false for the code (signs and blanks inside a chunk are accepted) the negation is recorded.", "quantifier": "all strings", "why_tests_cant": "infinitely many strings; chunk boundaries", "anchors": [{"file": "/repo/include/zm.h", "symbols": ["VuintT::set(const std::string&)", "getDigits"]}]}
{"id": "C11", "title": "bitLen and testBit describe the binary expansion", "statement": "bitLen() is the number of significant bits and testBit(i) is the i-th binary digit for every i below 64*size(). The code's bitLen goes through a double and is one too large when the top word rounds up to a power of two; the exact set of values on which it is right is characterised.", "quantifier": "all well-formed Vuint values and bit positions", "why_tests_cant": "the failing top words are within 2^-54 relative distance of a power of two", "anchors": [{"file": "/repo/include/zm.h", "symbols": ["VuintT::bitLen", "VuintT::testBit"]}]}
{"id": "C12", "title": "Vuint arithmetic tolerates aliased arguments", "statement": "add, sub, mul, div, shl, shr give the same result when the output object is the same object as one or both inputs (for div also when q or r coincide with x or y) as when all objects are distinct.", "quantifier": "all operand values and all aliasing patterns the interface allows", "why_tests_cant": "in-place loops overwrite operands word by word; failure depends on word values and lengths", "anchors": [{"file": "/repo/include/zm.h", "symbols": ["VuintT::add", "VuintT::sub", "VuintT::mul", "VuintT::div", "VuintT::shl", "VuintT::shr"]}, {"file": "/repo/src/zm.cpp", "symbols": ["in_addN", "in_subN", "in_mul", "in_div"]}]}
{"id": "C13", "title": "The generated x64 word-vector routines compute the same as the C routines", "statement": "The run-time generated code for addN, subN, add1, mul1, div1 and mod1 stores the same words and returns the same carry or remainder as the C routines for every length n >= 1 and every contents, and touches only its output words.", "quantifier": "all vector lengths n >= 1, all word contents, in-place or not", "why_tests_cant": "unrolled-by-four loops with prologue for n mod 4; unbounded n", "anchors": [{"file": "/repo/src/zm.cpp", "symbols": ["Code::genAddSub", "Code::genAddSub1", "Code::genMul", "Code::genDiv", "Code::genMod"]}]}
{"id": "C14", "title": "Vsint ring operations are integer arithmetic", "statement": "add, sub, mul, neg, shl and compare on Vsint agree with the integers (a negative zero compares equal to zero and behaves as zero in all operations), up to the capacity exit.", "quantifier": "all Vsint values including negative zero", "why_tests_cant": "sign-case analysis times magnitude comparison for unbounded magnitudes", "anchors": [{"file": "/repo/include/zm.h", "symbols": ["VsintT::add", "VsintT::sub", "VsintT::mul", "VsintT::neg", "VsintT::compare", "VsintT::shl"]}]}
{"id": "C15", "title": "Vsint division is floor division", "statement": "Vsint::div with y != 0 gives q = floor(x / y) and r = x - q*y, i.e. r is 0 or has the sign of y and |r| < |y| (Python semantics).", "quantifier": "all Vsint values x and all non-zero y", "why_tests_cant": "unbounded operands, four sign cases, exact-multiple corner", "anchors": [{"file": "/repo/include/zm.h", "symbols": ["VsintT::div"]}]}
{"id": "C16", "title": "ZmZ arithmetic is arithmetic modulo m", "statement": "For a modulus m >= 1 of at most 4 words, +, -, unary -, * on reduced ZmZ values return the reduced representative of the result modulo m; construction from Vuint or string reduces.", "quantifier": "all moduli and all reduced operands", "why_tests_cant": "unbounded operands", "anchors": [{"file": "/repo/include/zm.h", "symbols": ["ZmZ::add", "ZmZ::sub", "ZmZ::neg", "ZmZ::mul", "ZmZ::set"]}]}
{"id": "C17", "title": "ZmZ inverse", "statement": "For a prime modulus p and x not 0 mod p, ZmZ::inv terminates and returns y reduced with x*y = 1 mod p; x / y is x times the inverse.", "quantifier": "all primes p and all non-zero residues", "why_tests_cant": "the extended Euclid loop has an input-dependent number of steps", "anchors": [{"file": "/repo/include/zm.h", "symbols": ["ZmZ::inv", "inversible"]}]}
{"id": "C18", "title": "power computes the mathematical power", "statement": "mie::power(x, y) returns x^y for every Vuint exponent y (any word count) and for every non-negative int / size_t exponent, in every structure with associative multiplication and unit; power(x, 0) = 1.  A negative int y is used as 2^32 + y, which in a group is the y-th power exactly if x^(2^32) = 1.", "quantifier": "all monoid elements, all exponents", "why_tests_cant": "unbounded exponents; the top-block trimming has a case for zero blocks", "anchors": [{"file": "/repo/include/zm.h", "symbols": ["power", "IntTag"]}]}
{"id": "C19", "title": "The field modulus and group order are the advertised primes", "statement": "For the default curve the values Param::p, Param::r and Param::t computed by initialisation from z = -(2^62+2^55+1) are 36z^4+36z^3+24z^2+6z+1, 36z^4+36z^3+18z^2+6z+1 and 6z^2+1, r = p + 1 - t, both p and r are prime, p = 3 mod 4, p < 2^254, and the decimal constants in the documentation and the Java interface equal them.", "quantifier": "a closed statement about two 254-bit numbers (all their potential divisors)", "why_tests_cant": "primality cannot be established by trying inputs", "anchors": [{"file": "/repo/include/bn.h", "symbols": ["ParamT::init", "ParamT::eval"]}, {"file": "/repo/java/bn254_if.hpp", "symbols": ["GetParamR"]}, {"file": "/repo/readme.md", "symbols": ["Parameters"]}]}
{"id": "C20", "title": "Fp addition, subtraction and negation are exact modulo p and stay canonical", "statement": "For canonical field elements (stored value < p), Fp::add, Fp::sub and Fp::neg store a canonical element representing the sum, difference or negative modulo p. Holds for the generated x64 code.", "quantifier": "all canonical operands (p^2 pairs)", "why_tests_cant": "conditional correction is triggered on a boundary of measure ~2^-254", "anchors": [{"file": "/repo/src/zm2.cpp", "symbols": ["PairingCode::in_Fp_add_modp", "PairingCode::in_Fp_sub_modp", "PairingCode::in_Fp_neg"]}, {"file": "/repo/include/zm2.h", "symbols": ["Fp::add", "Fp::sub", "Fp::neg"]}]}
{"id": "C21", "title": "Fp multiplication is multiplication modulo p", "statement": "Fp::mul of canonical elements stores the canonical element representing the product modulo p; the word-level Montgomery reduction never loses a carry and the single final subtraction suffices.", "quantifier": "all canonical operands", "why_tests_cant": "carry chains in the 4x4-word Montgomery product", "anchors": [{"file": "/repo/src/zm2.cpp", "symbols": ["PairingCode::Fp_mul", "PairingCode::mul4x1", "PairingCode::montgomery1"]}, {"file": "/repo/include/zm2.h", "symbols": ["Fp::mul"]}]}
{"id": "C22", "title": "Fp set and get are inverse", "statement": "Fp(x).get() = x for every integer 0 <= x < p, Fp(i).get() = i mod p for every int i other than INT_MIN, and Fp(a).get() is below p for every canonical a; printing and parsing a field element returns the same element.", "quantifier": "all x < p, all ints, all canonical elements", "why_tests_cant": "2^254 values", "anchors": [{"file": "/repo/include/zm2.h", "symbols": ["Fp::set", "Fp::get", "Fp::toMont", "Fp::fromMont", "Fp::toString", "Fp::operator>>"]}]}
{"id": "C23", "title": "Fp equality is equality of residues", "statement": "On canonical elements Fp::operator== (word comparison) holds exactly when the represented residues modulo p are equal, and isZero exactly for residue 0.", "quantifier": "all pairs of canonical elements", "why_tests_cant": "a non-canonical representative anywhere in the library would make equal values compare different", "anchors": [{"file": "/repo/include/zm2.h", "symbols": ["Fp::compare", "Fp::isZero"]}]}
{"id": "C24", "title": "Fp inverse", "statement": "For canonical x != 0, Fp::inv stores canonical y with x*y = 1; the almost-inverse loop terminates with an exponent inside the 512-entry table; Fp::inv(0) stores 0; x / y is x times inverse of y.", "quantifier": "all canonical x", "why_tests_cant": "data-dependent loop of 254 to 508 steps; each value takes a different path", "anchors": [{"file": "/repo/include/zm2.h", "symbols": ["Fp::inv", "Fp::invTbl_", "inversible"]}, {"file": "/repo/src/zm2.cpp", "symbols": ["PairingCode::make_Fp_preInv", "Fp::setTablesForDiv", "Fp::setModulo"]}]}
{"id": "C25", "title": "Fp halving and quartering", "statement": "divBy2 and divBy4 of a canonical element store the canonical element representing x/2 and x/4 modulo p.", "quantifier": "all canonical x", "why_tests_cant": "table-driven by low bits; upper bound depends on the full value", "anchors": [{"file": "/repo/include/zm2.h", "symbols": ["Fp::divBy2", "Fp::divBy4"]}, {"file": "/repo/src/zm2.cpp", "symbols": ["Fp::setTablesForDiv", "PairingCode::sub_Fp_divBy2"]}]}
{"id": "C26", "title": "Fp square root", "statement": "Fp::squareRoot(y, x) returns true exactly when x is a square modulo p, and then y^2 = x; when it returns false y is unchanged.", "quantifier": "all canonical x", "why_tests_cant": "2^254 values", "anchors": [{"file": "/repo/include/zm2.h", "symbols": ["Fp::squareRoot"]}]}
{"id": "C27", "title": "Double-width reduction is exact", "statement": "Fp::Dbl::mod maps every double-width value X < p*2^256 to the canonical element X*2^-256 mod p; Dbl::mul is the exact 512-bit product of any two 256-bit operands; Dbl::add and Dbl::sub keep values below p*2^256 and are exact modulo p*2^256.", "quantifier": "all 512-bit values below p*2^256", "why_tests_cant": "carry chains across 8 words", "anchors": [{"file": "/repo/src/zm2.cpp", "symbols": ["PairingCode::mul4x4", "PairingCode::mont_mod", "PairingCode::in_FpDbl_add", "PairingCode::sub_FpDbl_sub"]}, {"file": "/repo/include/zm2.h", "symbols": ["Fp::Dbl"]}]}
{"id": "C28", "title": "Fast reduction of small multiples", "statement": "fast_modp maps any 256-bit z < 6p to z mod p; 2z+3x helper used by cyclotomic squaring returns the canonical value of 2z+3x for canonical z, x.", "quantifier": "all z below 6p", "why_tests_cant": "the quotient estimate from the top 3 bits is tight at multiples of p", "anchors": [{"file": "/repo/include/zm2.h", "symbols": ["Fp::fast_modp", "Fp::_2z_add_3x", "Fp::_3z_add_2xC"]}, {"file": "/repo/src/zm2.cpp", "symbols": ["PairingCode::fast_modp", "PairingCode::in_Fp_2z_add_3x"]}]}
{"id": "C29", "title": "Fp2 is the quadratic extension by u^2 = -1", "statement": "Fp2 add, sub, neg, mul, square, mul_xi, mul_Fp_0, mul_Fp_1, divBy2, divBy4, inverse on canonical elements store canonical results equal to the corresponding operation in Fp[u]/(u^2+1); every intermediate unreduced value stays inside its 256- or 512-bit buffer and below p*2^256 when reduced; inverse(x)*x = 1 for x != 0.", "quantifier": "all canonical Fp2 elements", "why_tests_cant": "lazy reduction overflow would only show on extreme operands", "anchors": [{"file": "/repo/include/bn.h", "symbols": ["Fp2T::mulC", "Fp2T::squareC", "Fp2T::mul_xiC", "Fp2T::inverse", "Fp2T::Dbl::mulOptC"]}, {"file": "/repo/src/zm2.cpp", "symbols": ["PairingCode::sub_Fp2Dbl_mulOpt", "PairingCode::in_Fp2_square"]}]}
{"id": "C30", "title": "Fp6 is the cubic extension by v^3 = 1 + u", "statement": "Fp6 add, sub, neg, mul, square, inverse and mul by Fp2 scalars agree with Fp2[v]/(v^3 - (1+u)) on canonical elements, with all lazy intermediates in range.", "quantifier": "all canonical Fp6 elements", "why_tests_cant": "same as Fp2, with 18 interleaved partial products", "anchors": [{"file": "/repo/include/bn.h", "symbols": ["Fp6T::Dbl::mulC", "Fp6T::square", "Fp6T::inverse"]}, {"file": "/repo/src/zm2.cpp", "symbols": ["PairingCode::Fp6Dbl_mul"]}]}
{"id": "C31", "title": "Fp12 is the quadratic extension by w^2 = v", "statement": "Fp12 add, sub, neg, mul, square and inverse agree with Fp6[w]/(w^2 - v); inverse(x)*x = 1 for x != 0.", "quantifier": "all canonical Fp12 elements", "why_tests_cant": "2^3048 elements", "anchors": [{"file": "/repo/include/bn.h", "symbols": ["Fp12T::mulC", "Fp12T::squareC", "Fp12T::inverse"]}, {"file": "/repo/src/zm2.cpp", "symbols": ["PairingCode::Fp12_mul", "PairingCode::Fp12_square"]}]}
{"id": "C32", "title": "Sparse line multiplications equal full multiplications", "statement": "mul_Fp2_024 (by a line value with three non-zero coefficients) and mul_Fp2_024_Fp2_024 (of two line values) equal the full Fp12 product with the expanded operands.", "quantifier": "all Fp12 elements and all line values", "why_tests_cant": "a dropped cross term is visible only for non-zero coefficients of all operands", "anchors": [{"file": "/repo/include/bn.h", "symbols": ["Fp12T::Dbl::mul_Fp2_024C", "Fp12T::Dbl::mul_Fp2_024_Fp2_024"]}, {"file": "/repo/src/zm2.cpp", "symbols": ["PairingCode::mul_Fp2_024"]}]}
{"id": "C33", "title": "Frobenius methods compute p-th powers", "statement": "Fp12::Frobenius, Frobenius2, Frobenius3 map x to x^p, x^(p^2), x^(p^3); FrobEndOnTwist_1/2 are the corresponding endomorphisms on the twist.", "quantifier": "all canonical Fp12 elements; all twist points", "why_tests_cant": "raising to a 254-bit power for every element", "anchors": [{"file": "/repo/include/bn.h", "symbols": ["Fp12T::Frobenius", "Fp12T::Frobenius2", "Fp12T::Frobenius3", "ecop::FrobEndOnTwist_1", "ecop::FrobEndOnTwist_2", "ParamT::init"]}]}
{"id": "C34", "title": "Cyclotomic and compressed squaring equal squaring on the cyclotomic subgroup", "statement": "After mapToCyclo, sqru equals the ordinary Fp12 square, and compress / square_n / decompress returns the repeated square, including when decompression would divide by zero.", "quantifier": "all elements with x^(p^6+1)=1 and x^(p^4-p^2+1)=1, all repetition counts", "why_tests_cant": "the subgroup is unreachable by random sampling without the map; the exceptional decompression case is rare", "anchors": [{"file": "/repo/include/bn.h", "symbols": ["Fp12T::sqru", "CompressT", "CompressT::fixed_power", "Fp12T::mapToCyclo"]}]}
{"id": "C35", "title": "final_exp is a fixed power map onto the r-torsion", "statement": "Fp12::final_exp maps every x != 0 to x^e for a fixed exponent e that is a multiple of (p^12-1)/r by a factor coprime to r; hence the result has x^r = 1 and factors from proper subfields are erased.", "quantifier": "all non-zero Fp12 elements", "why_tests_cant": "identity between a long addition chain and a 2800-bit exponent for all inputs", "anchors": [{"file": "/repo/include/bn.h", "symbols": ["Fp12T::final_exp", "Fp12T::pow_neg_t", "Fp12T::mapToCyclo"]}]}
{"id": "C36", "title": "isValid is exactly the curve equation", "statement": "EcT::isValid / isOnECJac3 / isOnTwistECJac3 return true for a Jacobian triple exactly when it is a representative of the point at infinity or Y^2 = X^3 + b Z^6.", "quantifier": "all coordinate triples", "why_tests_cant": "p^3 triples", "anchors": [{"file": "/repo/include/bn.h", "symbols": ["ecop::isOnECJac3", "ecop::isOnTwistECJac3", "EcT::isValid"]}]}
{"id": "C37", "title": "Point doubling and addition implement the elliptic-curve group law", "statement": "On valid Jacobian triples ECDouble and ECAdd return a valid triple representing 2P and P+Q in the elliptic curve group, in every case: generic, P = Q, P = -Q, either operand infinity, and any Jacobian scaling.", "quantifier": "all pairs of valid triples over Fp (G1) and over Fp2 (G2)", "why_tests_cant": "exceptional cases have measure zero", "anchors": [{"file": "/repo/include/bn.h", "symbols": ["ecop::ECDouble", "ecop::ECAdd", "EcT::add", "EcT::dbl", "EcT::sub", "EcT::neg"]}]}
{"id": "C38", "title": "Scalar multiplication is repeated addition", "statement": "ScalarMult(P, m) represents m*P for every valid P and every scalar: Vuint of any length, and non-negative built-in integers; m = 0 gives infinity. Negative int scalars: the code computes (m mod 2^32)*P on both curves, which is m*P exactly for the point at infinity; recorded as a deviation.", "quantifier": "all valid points and all scalars", "why_tests_cant": "unbounded scalars; intermediate additions hit exceptional cases depending on the scalar", "anchors": [{"file": "/repo/include/bn.h", "symbols": ["ecop::ScalarMult", "EcT::mul"]}]}
{"id": "C39", "title": "Normalisation and point equality are well defined", "statement": "normalize returns the triple with Z = 1 (or the infinity triple) representing the same point; EcT::operator== holds exactly when both triples represent the same group element; equality is independent of the Jacobian representative.", "quantifier": "all valid triples and all non-zero scalings", "why_tests_cant": "every scaling factor", "anchors": [{"file": "/repo/include/bn.h", "symbols": ["ecop::NormalizeJac", "EcT::normalize", "EcT::operator=="]}]}
{"id": "C40", "title": "Point set rejects off-curve input", "statement": "EcT::set(x, y) and set(x, y, z) with verification on throw exactly when the coordinates are not on the curve; after a successful call the object is valid; arithmetic operations preserve validity, so every point reachable through verified construction and group operations is valid.", "quantifier": "all coordinates and all finite sequences of group operations", "why_tests_cant": "unbounded histories", "anchors": [{"file": "/repo/include/bn.h", "symbols": ["EcT::set", "EcT::isValid", "EcT::add", "EcT::mul"]}]}
{"id": "C41", "title": "Point serialisation round-trips", "statement": "Writing a valid point and reading it back gives an equal valid point in normalised form, including infinity, and equal points are written alike. The reader does not check the curve equation: the witness is recorded.", "quantifier": "all valid points", "why_tests_cant": "every coordinate value", "anchors": [{"file": "/repo/include/bn.h", "symbols": ["EcT::operator<<", "EcT::operator>>", "Fp2T::operator>>"]}]}
{"id": "C42", "title": "In-place group operations are safe", "statement": "ECDouble, ECAdd, NormalizeJac, ScalarMult and the Frobenius twist maps give the same result when the output array is one of the inputs.", "quantifier": "all inputs and allowed aliasing patterns", "why_tests_cant": "coordinates are overwritten while later steps still read them", "anchors": [{"file": "/repo/include/bn.h", "symbols": ["ecop::ECDouble", "ecop::ECAdd", "ecop::ScalarMult", "ecop::NormalizeJac"]}]}
{"id": "C43", "title": "The pairing of infinity is one", "statement": "opt_atePairing(e, Q, P) sets e = 1 when Q or P is the point at infinity.", "quantifier": "all Q with P infinity and all P with Q infinity", "why_tests_cant": "all points", "anchors": [{"file": "/repo/include/bn.h", "symbols": ["opt_atePairing", "opt_atePairingJac"]}]}
{"id": "C44", "title": "The pairing depends only on the points, not on their Jacobian representatives", "statement": "Scaling the Jacobian coordinates of Q or P by any non-zero factor does not change opt_atePairing(Q, P).", "quantifier": "all valid points, all scalings", "why_tests_cant": "all scalings", "anchors": [{"file": "/repo/include/bn.h", "symbols": ["opt_atePairing", "opt_atePairingJac"]}]}
{"id": "C45", "title": "Pairing values lie in the r-torsion", "statement": "For all valid Q and P, e = opt_atePairing(Q, P) satisfies e^r = 1 and e != 0.", "quantifier": "all valid points", "why_tests_cant": "all points", "anchors": [{"file": "/repo/include/bn.h", "symbols": ["opt_atePairing", "Fp12T::final_exp"]}]}
{"id": "C46", "title": "Precomputed pairing equals direct pairing", "statement": "For points other than infinity precomputeG2 followed by millerLoop and final_exp returns exactly opt_atePairing(Q, P); millerLoop2 returns the product of the two millerLoop results. For Q at infinity the precomputed form returns 0 while opt_atePairing returns 1; this deviation is proved too. For P at infinity and any Q the precomputed form returns 1 if no stored line goes through (0, 0) and 0 otherwise.", "quantifier": "all points and all pairs of precomputed points", "why_tests_cant": "two separately written loops must agree for all inputs", "anchors": [{"file": "/repo/include/bn.h", "symbols": ["components::precomputeG2", "components::millerLoop", "components::millerLoop2"]}]}
{"id": "C47", "title": "The Miller-loop point follows the group law", "statement": "In the Miller loop the running point T on the twist is after every step the correct multiple of Q under the group law (doubling and addition steps of the line-evaluation routines), and the line coefficients returned vanish on the points they should interpolate.", "quantifier": "all Q on the twist and every loop step", "why_tests_cant": "all points", "anchors": [{"file": "/repo/include/bn.h", "symbols": ["Fp6T::pointDblLineEval", "Fp6T::pointAddLineEval"]}]}
{"id": "C48", "title": "The pairing inverts under negation", "statement": "opt_atePairing(Q, -P) and opt_atePairing(-Q, P) are the inverse of opt_atePairing(Q, P).", "quantifier": "all valid points", "why_tests_cant": "all points", "anchors": [{"file": "/repo/include/bn.h", "symbols": ["opt_atePairing"]}]}
{"id": "C49", "title": "The pairing is bilinear", "statement": "For Q in G2, P in G1 and all integers a, b: opt_atePairing(aQ, bP) = opt_atePairing(Q, P)^(ab).", "quantifier": "all points of G2 and G1, all scalars", "why_tests_cant": "algebraic identity over groups of size 2^254", "anchors": [{"file": "/repo/include/bn.h", "symbols": ["opt_atePairing"]}, {"file": "/repo/test/sample.cpp", "symbols": ["sample1", "sample2"]}]}
{"id": "C50", "title": "The pairing is non-degenerate", "statement": "For the documented generators the pairing value is different from 1, hence opt_atePairing(aQ, bP) = 1 exactly when r divides ab.", "quantifier": "all scalars a, b", "why_tests_cant": "2^508 scalar pairs", "anchors": [{"file": "/repo/include/bn.h", "symbols": ["opt_atePairing"]}, {"file": "/repo/test/test_point.hpp", "symbols": ["g_pointFp254BNb"]}]}
{"id": "C51", "title": "Signed-digit recoding preserves the value", "statement": "convertToBinary and convertToNAF return digit strings that evaluate to the input number, with digits in {0,1} and {-1,0,1}, and getGoodRepl returns the recoding of smaller weight; siTbl is getGoodRepl of |6z+2|. For the inputs 0 and 1 the code reads outside its vectors. The recoding is not always non-adjacent: the negation is recorded.", "quantifier": "all non-negative integers of at most 9 words (top word below 2^64-2^10, where bitLen is exact)", "why_tests_cant": "unbounded integers", "anchors": [{"file": "/repo/include/bn.h", "symbols": ["util::convertToBinary", "util::convertToNAF", "util::getGoodRepl"]}]}
{"id": "C52", "title": "Java interface operations mutate to the mathematical result", "statement": "For the Java-facing classes, add/sub/mul/power/neg/dbl/mul/pairing replace the object by the mathematical result even when the argument is the object itself (a.add(a), a.sub(a), a.mul(a)), in every sequence of calls; exponents and scalars are non-negative GMP integers of any size. With a negative exponent or scalar the calls are shown to read out of range.", "quantifier": "all values and self-arguments, all call sequences", "why_tests_cant": "aliasing with every value", "anchors": [{"file": "/repo/java/bn254_if.hpp", "symbols": ["Fp", "Fp2", "Fp12", "Ec1", "Ec2"]}]}
{"id": "C53", "title": "The reference (C) fallback arithmetic agrees with the field", "statement": "The portable C++ versions of the Fp, FpDbl, Fp2, Fp2Dbl, Fp6, Fp6Dbl, Fp12, compressed-squaring and line routines store the same values as the generated routines of the same name, also when the result is one of the operands, and change no other object. This is false for Fp_subC, Fp_mulC and the non-SNARK Fp2T::squareC, and for mul_xiC and mul_Fp_0C when the result overlaps an operand; the negations are proved with witnesses and everything else is proved right.", "quantifier": "all contents of memory, all arguments (references that are equal or apart), all numbers of passes of square_nC; canonical operands where the two versions reduce differently", "why_tests_cant": "the C versions are replaced at start-up and never exercised by tests", "anchors": [{"file": "/repo/src/zm2.cpp", "symbols": ["Fp_addC", "Fp_subC", "Fp_negC"]}, {"file": "/repo/include/bn.h", "symbols": ["Fp2T::squareC", "Fp2T::mulC", "Fp2T::mul_xiC", "Fp2T::Dbl::mulOptC", "Fp6T::Dbl::mulC", "Fp6T::mulC", "pointDblLineEvalC", "Fp12T::mulC", "Fp12T::squareC", "mul_Fp2_024C", "CompressT::square_nC"]}]}
{"id": "C54", "title": "Group orders of the curve and its twist", "statement": "E(Fp) has exactly r points, so every valid G1 triple is killed by r; the twist has r(2p-r) points, and isValid alone does not imply membership of G2.", "quantifier": "all points of both curves", "why_tests_cant": "groups of 2^254 and 2^508 elements cannot be counted by tests", "anchors": [{"file": "/repo/include/bn.h", "symbols": ["EcT::isValid", "ecop::ScalarMult"]}]}
{"id": "C55", "title": "Stream round trip of extension field elements", "statement": "An element of Fp2, Fp6 or Fp12 written to a stream in base 10 or 16 is read back as the same element, with white space before it and arbitrary text after it; the text after it is left unread.  Conversely a text is read as an element of Fp2 only if it has the form [a,b], with white space before the brackets, the comma and the numerals, and a and b are read as the components.", "quantifier": "all elements, both bases, all surrounding texts; all input texts", "why_tests_cant": "2^3048 elements and unbounded surrounding text", "anchors": [{"file": "/repo/include/bn.h", "symbols": ["Fp2T::toString", "Fp2T::operator>>", "Fp2T::set", "Fp6T::operator<<", "Fp6T::operator>>", "Fp12T::operator<<", "Fp12T::operator>>"]}]}
{"id": "C56", "title": "Text round trip of signed integers", "statement": "The base-10 text of a Vsint of at most 8 words is the decimal numeral with a leading minus for negative values and reads back as the same integer. Hexadecimal text of a negative value makes the reader exit.", "quantifier": "all Vsint values of at most 8 words", "why_tests_cant": "unbounded values", "anchors": [{"file": "/repo/include/zm.h", "symbols": ["VsintT::toString", "VsintT::set"]}]}
{"id": "C57", "title": "Generated Fp routines on the machine", "statement": "The run-time generated code for Fp add, sub, neg, mul, addNC, subNC, shr1, shr2 and preInv, run on the x64 machine from any caller state with any overlap of the operands, returns to the caller with rbx, rbp, rsp, r12-r15 and all memory outside the result and the stack frame unchanged, and the result words hold the Montgomery form of X+Y, X-Y, -X, XY, the exact sum, difference, x/2, x/4, and r <= 2p with x r = 2^k mod p for the returned k <= 508.", "quantifier": "all register and memory contents, table addresses, stack positions, operand addresses and overlaps, and both CPU switches", "why_tests_cant": "tests run the generated code with one layout of memory, on one CPU, on few operands; clobbered registers or stack words go unnoticed", "anchors": [{"file": "/repo/src/zm2.cpp", "symbols": ["PairingCode::init", "make_Fp_add", "make_Fp_sub", "make_Fp_neg", "make_Fp_mul", "make_Fp_addNC", "make_Fp_subNC", "make_Fp_shr", "make_Fp_preInv"]}]}
{"id": "C58", "title": "Generated FpDbl routines on the machine", "statement": "The generated code for FpDbl add, sub, addNC, subNC, neg, mul and mod leaves in memory the sum and difference modulo p 2^256, the exact sum, difference and product, p 2^256 - x, and the Montgomery reduction, with the same frame condition; neg of 0 stores p 2^256.", "quantifier": "all machine states and operands in the stated ranges, both CPU switches", "why_tests_cant": "2^1024 operand pairs times layouts; a carry lost between words shows on a vanishing fraction of inputs", "anchors": [{"file": "/repo/src/zm2.cpp", "symbols": ["make_FpDbl_add", "make_FpDbl_sub", "make_FpDbl_addNC", "make_FpDbl_subNC", "make_FpDbl_neg", "make_FpDbl_mul", "make_FpDbl_mod"]}]}
{"id": "C59", "title": "Generated Fp2 routines on the machine", "statement": "The generated code for Fp2 add, sub, addNC, mul, square, mul_xi, divBy2 and mul_Fp_0 leaves in memory the canonical Montgomery form of the field result in Fp[u]/(u^2+1), with the same frame condition; mul allows every overlap, the others the overlaps stated.", "quantifier": "all machine states and canonical operands, both CPU switches", "why_tests_cant": "lazy reduction is wrong, if at all, only near the bounds of the intermediate values", "anchors": [{"file": "/repo/src/zm2.cpp", "symbols": ["make_Fp_add", "make_Fp_sub", "make_Fp_addNC", "make_Fp2_mul", "make_Fp2_square", "make_Fp2_mul_xi", "make_Fp2_divBy2", "make_Fp2_mul_Fp_0"]}]}
{"id": "C60", "title": "Generated Fp2Dbl routines on the machine", "statement": "The generated code for Fp2Dbl add, sub, addNC, subNC, neg, mulOpt1, mulOpt2, square, mod and mul_xi leaves double-width values below p 2^256 that represent the field result (exact values for the NC forms and for mulOpt2 on unreduced operands below 2p), with the same frame condition.", "quantifier": "all machine states and operands in the stated ranges, both CPU switches", "why_tests_cant": "lazy reduction is wrong, if at all, only near the bounds of the intermediate values", "anchors": [{"file": "/repo/src/zm2.cpp", "symbols": ["make_FpDbl_add", "make_FpDbl_sub", "make_FpDbl_addNC", "make_FpDbl_subNC", "make_Fp2Dbl_neg", "make_Fp2Dbl_mulOpt", "make_Fp2Dbl_square", "make_Fp2Dbl_mod", "make_Fp2Dbl_mul_xi"]}]}
{"id": "C61", "title": "Generated Fp6 and Fp12 routines on the machine", "statement": "The generated code for Fp6 add, sub, mul, Fp6Dbl mul, Fp12 mul, square and the sparse product mul_Fp2_024 leaves in memory the canonical form of the result in Fp2[v]/(v^3-xi) and Fp6[w]/(w^2-v), with the same frame condition; Fp6 mul and Fp12 mul allow every overlap.", "quantifier": "all machine states and canonical operands, both CPU switches", "why_tests_cant": "hundreds of lazily reduced intermediates in one routine; 2^6096 operand pairs", "anchors": [{"file": "/repo/src/zm2.cpp", "symbols": ["make_Fp6_add", "make_Fp6_sub", "make_Fp6_mul", "make_Fp6Dbl_mul", "make_Fp12_mul", "make_Fp12_square", "make_Fp12Dbl_mul_Fp2_024"]}]}
{"id": "C62", "title": "Generated line routine on the machine", "statement": "The generated pointDblLineEval and pointDblLineEvalWithoutP leave at T homogeneous coordinates of twice the point (by their defining equations) and at l the coefficients of the tangent line, evaluated at P or not, with the same frame condition.", "quantifier": "all machine states, all coordinates, both CPU switches", "why_tests_cant": "2^1524 triples", "anchors": [{"file": "/repo/src/zm2.cpp", "symbols": ["make_pointDblLineEval"]}]}
{"id": "C63", "title": "Generated compressed squaring on the machine", "statement": "The generated Compress::square_n with loop count n from 1 to 2^64 leaves the coordinates g2-g5 after exactly n compressed squarings - those of x^(2^n) for x in the cyclotomic subgroup - and does not write g0, g1 or the Compress object.", "quantifier": "all machine states, all n from 1 to 2^64, both CPU switches", "why_tests_cant": "unbounded loop count", "anchors": [{"file": "/repo/src/zm2.cpp", "symbols": ["make_Compress_square_n"]}, {"file": "/repo/include/bn.h", "symbols": ["CompressT::square_n"]}]}
{"id": "C64", "title": "Composition and aliasing of the generated routines", "statement": "The machine is deterministic; after a call the caller can call again (tables intact, same stack pointer, 64-bit words).  Fp2 mul_xi and Fp2Dbl mul_xi of an object onto itself, and mul_Fp_0 with its factor inside the result, give wrong results.", "quantifier": "all routines and states; for the aliasing defects a witness for each setting of the CPU switches", "why_tests_cant": "tests never call these routines with aliased arguments", "anchors": [{"file": "/repo/src/zm2.cpp", "symbols": ["in_Fp2_mul_xi", "make_Fp2Dbl_mul_xi", "make_Fp2_mul_Fp_0"]}]}
{"id": "C65", "title": "SNARK build: field primitives", "statement": "With BN_SUPPORT_SNARK, p = 36z^4+36z^3+24z^2+6z+1 and r are prime for z = 4965661367192848881, and Fp add, sub, neg, mul, divBy2, divBy4, inv, set, get and Dbl add, sub, mod give canonical results that represent the field result modulo this p.", "quantifier": "all canonical operands, all integers in the stated ranges", "why_tests_cant": "2^508 operand pairs; the SNARK modulus is larger, so carries reach bits that the default curve never sets", "anchors": [{"file": "/repo/src/zm2.cpp", "symbols": ["make_Fp_add", "make_Fp_sub", "make_Fp_mul", "mont_mod", "preInv"]}, {"file": "/repo/include/bn.h", "symbols": ["CurveSNARK1", "CurveSNARK2"]}]}
{"id": "C66", "title": "SNARK build: multiplication by xi = 9 + u", "statement": "For canonical operands the generated Fp2::mul_xi estimates the quotient within its table of ten multiples of p, returns the canonical form of (9+u)x and agrees with the portable mul_xiC; for an operand below 1.2p it can be wrong.", "quantifier": "all canonical operands; a witness for the unreduced one", "why_tests_cant": "the estimate is wrong, if at all, for isolated operands near multiples of p", "anchors": [{"file": "/repo/src/zm2.cpp", "symbols": ["in_Fp_mul_xi_addsub", "in_Fp2_mul_xi"]}, {"file": "/repo/include/bn.h", "symbols": ["Fp2T::mul_xiC"]}]}
{"id": "C67", "title": "SNARK build: Fp2 and Fp2Dbl", "statement": "Fp2 add, sub, neg, mul, square (generated and portable), divBy2, divBy4, mul_Fp_0, inverse and Fp2Dbl mulOpt1, mulOpt2, square, mul_xi, mod represent the result in (Z/pZ)[u]/(u^2+1), in canonical or reduced form.", "quantifier": "all canonical operands", "why_tests_cant": "2^1016 operand pairs", "anchors": [{"file": "/repo/src/zm2.cpp", "symbols": ["make_Fp2_square", "make_Fp2Dbl_mulOpt", "make_Fp2Dbl_mul_xi"]}, {"file": "/repo/include/bn.h", "symbols": ["Fp2T::squareC", "Fp2T::inverse"]}]}
{"id": "C68", "title": "SNARK build: Fp6::mul", "statement": "Fp6::mul always represents the product; all components are canonical except the last, which is below 1.2p; it is canonical when the sum of the six products behind it is below p 2^256, and there are canonical operands for which it is not.", "quantifier": "all canonical operands; a witness for the unreduced result", "why_tests_cant": "an unreduced result needs all twelve coordinates close to p", "anchors": [{"file": "/repo/src/zm2.cpp", "symbols": ["make_Fp6_mul", "make_Fp6Dbl_mul"]}, {"file": "/repo/include/bn.h", "symbols": ["Fp6T::mulC", "Fp6T::Dbl::mulC"]}]}
{"id": "C69", "title": "SNARK build: Fp12::mul and Fp12::square", "statement": "Fp12::mul represents the product when the sums of six products inside both half products are below p 2^256, in particular whenever all coordinates are at most 0.9p, and Fp12::square under the corresponding bounds is canonical and right; without the bounds there are canonical operands for which mul, and one for which square, is not the product.", "quantifier": "all canonical operands within the bounds; witnesses beyond them", "why_tests_cant": "random operands violate the bounds with probability about 10^-10 per product", "anchors": [{"file": "/repo/src/zm2.cpp", "symbols": ["make_Fp12_mul", "make_Fp12_square"]}, {"file": "/repo/include/bn.h", "symbols": ["Fp12T::mulC", "Fp12T::squareC"]}]}
{"id": "C70", "title": "SNARK build: fast_modp", "statement": "For n < 2^256 fast_modp is the canonical form of n if and only if floor(n/2^253) p <= n + p; Fp::_2z_add_3x on canonical operands is right if and only if n = 2z+3x satisfies this.  In particular fast_modp is wrong for every n from 5*2^253 on, and _2z_add_3x for z = 0, x = p-1.", "quantifier": "all n below 2^256, all canonical pairs", "why_tests_cant": "exact characterisation of the failing inputs", "anchors": [{"file": "/repo/src/zm2.cpp", "symbols": ["fast_modp", "in_Fp_2z_add_3x"]}]}
{"id": "C71", "title": "SNARK build: sparse products and line functions", "statement": "mul_Fp2_024, mul_Fp2_024_Fp2_024 and sq_Fp4UseDbl are canonical and right for all canonical operands; the doubling and addition steps of the Miller loop turn homogeneous coordinates of A into those of 2A and A+Q on the twist y^2 = x^3 + b/xi, and their coefficients are proportional to the tangent or chord.", "quantifier": "all canonical operands, all points of the twist (addition: A neither 0 nor Q)", "why_tests_cant": "2^1524 coordinate triples", "anchors": [{"file": "/repo/src/zm2.cpp", "symbols": ["make_Fp12Dbl_mul_Fp2_024", "make_pointDblLineEval"]}, {"file": "/repo/include/bn.h", "symbols": ["pointDblLineEvalWithoutP", "pointAddLineEvalWithoutP", "mul_Fp2_024_Fp2_024", "sq_Fp4UseDbl"]}]}
{"id": "C72", "title": "SNARK build: repeated initialisation", "statement": "After any sequence of Param::init calls the doubling step uses b/xi of the curve in force if and only if the first curve was SNARK1 or the last is SNARK2; in the remaining case it misses 2A for every point A = (x, y) of the twist with xy != 0.", "quantifier": "all non-empty sequences of init calls, all such points", "why_tests_cant": "unbounded call sequences; a process that initialises one curve never shows it", "anchors": [{"file": "/repo/include/bn.h", "symbols": ["ParamT::init"]}, {"file": "/repo/src/zm2.cpp", "symbols": ["make_pointDblLineEval", "setModulo"]}]}
{"id": "C73", "title": "Template routines on memory", "statement": "For all contents of memory and all arguments with the stated separation: pointAddLineEval, sq_Fp4UseDbl, mul_Fp2_024_Fp2_024, mul_x, mul_Fp_1, the inverses, Fp6::square, sqru, Frobenius 1-3, mapToCyclo, CompressT (construction, both halves of decompress, decompress, fixed_power) and final_exp leave the value of the corresponding function in the written objects and change no other object of the caller.  The Frobenius maps, sqru and the inverses may be applied in place; Fp6::square(z, z), x.mapToCyclo(x) and fixed_power(z, z) give wrong results.", "quantifier": "all memory contents, all argument positions", "why_tests_cant": "temporaries, aliasing and the order of writes; the tests use one pattern of arguments each", "anchors": [{"file": "/repo/include/bn.h", "symbols": ["Fp6T::pointAddLineEval", "Fp12T::sq_Fp4UseDbl", "Fp12T::Frobenius", "Fp12T::Frobenius2", "Fp12T::Frobenius3", "Fp12T::mapToCyclo", "Fp12T::final_exp", "CompressT::fixed_power", "CompressT::decompress", "Fp6T::square", "Fp12T::inverse"]}]}
{"id": "C74", "title": "opt_atePairing on memory", "statement": "For all contents of memory: FrobEndOnTwist_1, _2, _8 leave the value of the corresponding function in the result, also in place; opt_atePairing(f, Q, P) with any digit table and with or without the negated point leaves the value of the loop and the final exponentiation in f and changes no other object of the caller; with the table of Param it is the affine pairing function of the model; opt_atePairing on Ec2, Ec1 normalises both arguments in place and leaves the pairing of the normalised points.", "quantifier": "all memory contents, all argument positions with f apart from Q and P, all digit tables (without NAF: no negative digits)", "why_tests_cant": "which of the local objects T, l, Qneg, Q1, Q2, d, e, ft is live at each step; unbounded tables", "anchors": [{"file": "/repo/include/bn.h", "symbols": ["opt_atePairing", "ecop::FrobEndOnTwist_1", "ecop::FrobEndOnTwist_2", "ecop::FrobEndOnTwist_8"]}]}
{"id": "C75", "title": "SNARK build: final exponentiation", "statement": "The constants gammar, gammar2, gammar3 are the powers (i+1)(p^k-1)/6 of xi and the digits are those getGoodRepl gives for z; Frobenius 1-3 are the p-, p^2-, p^3-th powers and sqru the square on the subgroup of order p^4-p^2+1 for all canonical operands; inverse, mapToCyclo, pow_neg_t and final_exp are the inverse, the power (p^6-1)(p^2+1), the power -z and one fixed power (p^12-1)/r m with m coprime to r, for every operand whose products stay in range; there is a canonical operand for which mapToCyclo and final_exp are wrong, and the result of final_exp does not even have order dividing r.", "quantifier": "all canonical operands; for the products the exact range condition; a witness beyond it", "why_tests_cant": "random operands leave the range with probability about 10^-10 per product; 2^3048 operands", "anchors": [{"file": "/repo/include/bn.h", "symbols": ["ParamT::init", "Fp6T::square", "Fp6T::inverse", "Fp12T::inverse", "Fp12T::sqru", "Fp12T::Frobenius", "Fp12T::Frobenius2", "Fp12T::Frobenius3", "Fp12T::mapToCyclo", "Fp12T::pow_neg_t", "Fp12T::final_exp"]}]}
{"id": "C76", "title": "SNARK build: pairing", "statement": "For CurveSNARK1 and CurveSNARK2 there is a bilinear non-degenerate map e from the r-torsion of the twist and the curve into the r-th roots of unity of Fp12 such that, after every sequence of Param::init calls that ends with the curve and uses its coefficient, opt_atePairing stores the canonical form of e(Q, P) for all points Q of order r and all P whenever the products of the run stay in range; both curves have r points; the digits are those of 6z+2; FrobEndOnTwist_1, _2, _8 are the powers 1, 2, 8 of the Frobenius.  After init(SNARK2), ..., init(SNARK1) the stored value is not bilinear.", "quantifier": "all init sequences, all canonical buffers of affine points; for the products the exact range condition; a witness for the wrong order of init", "why_tests_cant": "2^762 pairs of points; a wrong line or Frobenius constant gives some value of the right order, bilinearity is a relation between runs", "anchors": [{"file": "/repo/include/bn.h", "symbols": ["opt_atePairing", "ecop::FrobEndOnTwist_1", "ecop::FrobEndOnTwist_2", "ecop::FrobEndOnTwist_8", "ParamT::init"]}]}
{"id": "C77", "title": "SNARK build: group operations and pairing entry points", "statement": "After every sequence of Param::init calls isValid tests membership of the curve selected last and of its twist; ECDouble, ECAdd, sub, neg, NormalizeJac, normalize, operator== and ScalarMult on canonical buffers are the group operations of CurveSNARK1/2 and their twists in every case; r times a valid Ec1 point is infinity; opt_atePairing(f, Ec2, Ec1) and opt_atePairingJac agree on valid points and store e(Q, P) of the previous property for every representative, 1 exactly when one argument is infinity, and e(uQ, vP) = e(Q, P)^(uv) through ScalarMult; a negative int scalar m acts as 2^32 + m.", "quantifier": "all init sequences, all triples of canonical buffers, all scalars of any length; for the products of the pairing the exact range condition", "why_tests_cant": "exceptional cases of the addition, all representatives of a point, unbounded scalars", "anchors": [{"file": "/repo/include/bn.h", "symbols": ["ecop::ECDouble", "ecop::ECAdd", "ecop::ScalarMult", "ecop::NormalizeJac", "ecop::isOnECJac3", "ecop::isOnTwistECJac3", "EcT::normalize", "EcT::operator==", "opt_atePairing", "opt_atePairingJac"]}]}
{"id": "C78", "title": "SNARK build: precomputed pairing", "statement": "For every triple of canonical buffers, on the curve or not, precomputeG2 ends with 87 coefficients and millerLoop reads exactly these, in order, so precomputeG2, millerLoop and final_exp store what opt_atePairing stores on the normalised points; after every sequence of Param::init calls that uses the coefficient of the curve this is e(Q, P), and millerLoop2 with final_exp stores e(Q1, P1) e(Q2, P2), for all points of order r different from infinity in any coordinates.  For Q at infinity the precomputed form stores 0 instead of 1; for P at infinity and any Q it stores 1 if no stored line goes through (0, 0) and 0 otherwise.", "quantifier": "all init sequences, all canonical buffers; for the products the exact range condition", "why_tests_cant": "the index into the coefficients must stay in step with the digits for every point; the product of two pairings is a relation between three runs; infinity", "anchors": [{"file": "/repo/include/bn.h", "symbols": ["components::precomputeG2", "components::millerLoop", "components::millerLoop2"]}]}
{"id": "C79", "title": "SNARK build: square root, text and set", "statement": "squareRoot(y, x) returns true exactly for squares modulo the SNARK p, then y^2 = x, else y is unchanged; elements of Fp, Fp2, Fp6, Fp12 written in base 10 or 16 are read back, the text of an Fp is the canonical numeral of the number below p; a decimal or hexadecimal numeral below 2^320 is read as the number modulo p and a longer one makes the program exit; points of both groups of both curves written to a stream are read back as the same point, normalised; EcT::set with verification accepts exactly the triples on the curve selected last and its twist and throws otherwise.  The reader of points does not check the equation.", "quantifier": "all canonical objects, both bases, all surrounding texts, all numbers below 2^512, all init sequences", "why_tests_cant": "2^254 elements; the modulus, the table constants and the coefficient tested differ from the default build", "anchors": [{"file": "/repo/include/zm2.h", "symbols": ["Fp::squareRoot", "Fp::set", "Fp::toString"]}, {"file": "/repo/include/bn.h", "symbols": ["Fp2T::toString", "EcT::set", "EcT::operator<<", "EcT::operator>>"]}]}
{"id": "C80", "title": "SNARK build: machine code of the multiplication by xi", "statement": "The x64 instructions generated with BN_SUPPORT_SNARK for Fp2::mul_xi and Fp2Dbl::mul_xi, started on any machine state with the tables in place and z apart from x = (a, b), return with (9a - b, 9b + a) mod p (mod p 2^256) in z for all canonical operands, with what the value-level model gives (for the double width on all operands), with the callee-saved registers restored and nothing else written but the frame below rsp; the two blocks of make_pointDblLineEval for b = 82 multiply by 9 - u.  Fp2::mul_xi with z = x stores 9a + 8b in the second component, which is right exactly when b = 8a mod p.", "quantifier": "all machine states, addresses and layouts, all operands", "why_tests_cant": "2^508 operands; the quotient estimate reads a table entry chosen by the top bits, a wrong entry shows only near multiples of p", "anchors": [{"file": "/repo/src/zm2.cpp", "symbols": ["in_Fp_mul_xi_addsub", "in_Fp2_mul_xi", "make_Fp2_mul_xi", "set_p_Fp2Dbl_mul_xi", "make_Fp2Dbl_mul_xi", "make_pointDblLineEval"]}]}
{"id": "C81", "title": "Sequences of point operations and pairings", "statement": "In both builds, start with objects that stand for points of the curve and for points of order r of the twist and apply any sequence of clear, copy, dbl, add, sub, neg, mul by a Vuint, normalize, == and opt_atePairing(f, Q, P), with objects coinciding in any way and the results of earlier calls used in later ones.  Every == answers whether the two points are equal, every pairing gives e of the two points the objects stand for at that moment, for one fixed bilinear and non-degenerate map e, and in the end the objects stand for the points which the same sequence gives in the groups, although == and the pairing change the coordinates of their operands.", "quantifier": "all sequences of any length over any number of objects, all representatives; for the SNARK build every sequence of init, and the exact range condition for the products", "why_tests_cant": "unbounded histories; operands are const but their coordinates are mutable and change", "anchors": [{"file": "/repo/include/bn.h", "symbols": ["EcT::clear", "EcT::dbl", "EcT::add", "EcT::sub", "EcT::neg", "EcT::mul", "EcT::normalize", "EcT::operator==", "opt_atePairing"]}]}
{"id": "C82", "title": "Products of any number of pairings", "statement": "In both builds the sequence f = 1; for each pair (Q, P): precomputeG2, NormalizeJac, millerLoop(t), f *= t; then one final_exp gives the product of the pairings of all pairs, for every list of points different from infinity in any coordinates.  In the default build, for points a_i g2 and b_i g1 with a_i, b_i not 0 mod r the result is 1 exactly when r divides the sum of the a_i b_i.  One Q at infinity anywhere in the list makes the result 0.", "quantifier": "all lists of any length, all points and representatives, all scalars; for the SNARK build every sequence of init, and the exact range condition for the products", "why_tests_cant": "unbounded lists; the final exponentiation must be multiplicative on all Miller values; the reverse direction of the equation test needs the order of the pairing value", "anchors": [{"file": "/repo/include/bn.h", "symbols": ["components::precomputeG2", "components::millerLoop", "Fp12T::mul", "Fp12T::final_exp"]}]}
{"id": "C83", "title": "Effect of debug_save_buf on the machine state", "statement": "The instructions that debug_save_buf(m, n) inserts into generated code copy the n words at m to debug_buf for every machine state, every address not formed with rdx and every n up to 128, write nothing else but their own save area and the word below the stack, and keep flags, xmm registers and all general registers but rbx.  rbx is loaded from [rbx + 16] instead of the save area: it holds the third word of the operand afterwards, so the state is restored exactly when rbx had this value.", "quantifier": "all machine states, addresses, operands, n <= 128", "why_tests_cant": "2^64 values of each register; the routine is not called in the delivered code", "anchors": [{"file": "/repo/src/zm2.cpp", "symbols": ["PairingCode::debug_save_buf"]}]}
{"id": "C84", "title": "Fp conversion to and from GMP integers", "statement": "Fp::fromMpz applied to Fp::toMpz(x) restores the four words of x whatever the destination held.  toMpz of a canonical element is the number below p in the buffer, that is the element times 2^256 modulo p; it is the value of the element only for zero (1 is converted to 2^256 mod p).  fromMpz stores |z| for |z| < 2^256 and writes beyond the buffer for every larger z; the stored element is canonical exactly for |z| < p, and toMpz returns z exactly when z is not negative.", "quantifier": "all buffers, all destination contents, all integers z of any size and sign", "why_tests_cant": "no test calls the two functions; integers are unbounded and the boundary cases (0, negative, 2^256) are single points", "anchors": [{"file": "/repo/include/zm2.h", "symbols": ["Fp::toMpz", "Fp::fromMpz"]}]}
{"id": "C85", "title": "Sequences of calls in the three groups", "statement": "For every sequence of calls on points of G1, points of G2 and Fp12 objects that receive pairing values (mul, square, sqru, inverse, Frobenius, power by a Vuint, fixed_power, ==, assignment, opt_atePairing), with results used as later operands and objects coinciding in any way, all objects stand at the end for the values which the sequence gives in the three groups, joined by a bilinear non-degenerate map, and every == answers whether the values are equal.  The routines that are valid on the cyclotomic subgroup only are reached with elements of order r only.  fixed_power into its own operand gives another power, which is right for 1 only.", "quantifier": "all sequences of any length, all objects standing for points and elements of order r", "why_tests_cant": "the number of sequences is unbounded; sqru and fixed_power are silently wrong outside the subgroup", "anchors": [{"file": "/repo/include/bn.h", "symbols": ["Fp12T::mul", "Fp12T::square", "Fp12T::sqru", "Fp12T::inverse", "Fp12T::Frobenius", "CompressT::fixed_power", "opt_atePairing"]}, {"file": "/repo/include/zm.h", "symbols": ["power"]}]}
{"id": "C86", "title": "Choice of the code variants by detectCpu", "statement": "If any routine of the code generated after detectCpu(mode, useMulx) contains mulx, the processor has BMI2 and the caller allowed it; with the switch on mulx is indeed generated.  The fields of CpuExt are the bit fields of the cpuid word, with the rules for display family and model.  interleaveLoad is forced by modes 0 and 1 and is otherwise on exactly for Intel processors other than family 6, model 10, extended model 2.  The tables of the generated code are the same for every choice.", "quantifier": "all processors (vendor, BMI2 bit, cpuid word), modes, flags, table addresses, all generated routines of the default build and the instruction lists that the SNARK build puts in place of theirs", "why_tests_cant": "a test runs on one processor; an unsupported instruction in a rarely used routine shows only on other hardware", "anchors": [{"file": "/repo/src/zm2.cpp", "symbols": ["CpuExt", "detectCpu"]}]}
