{"id": "C01", "title": "Field addition is addition modulo p", "statement": "For each of the nine prime-field types, a + b (and a += b) returns an element that denotes (a + b) mod p, for operands in any lazily-normalized representation, without panicking.", "quantifier": "for every field type, every pair of field elements in any representation the API can hand out (any carry in the top word), in debug and release builds", "why_tests_cant": "There are more than 2^440 operand pairs per field, and the lazily normalized carries that feed back through the top word multiply the representations of each value.", "anchors": ["src/field/mod_e{221_3,222_117,251_9,255_19,382_105,383_187,414_17,511_187,521_1}.rs: AddAssign<&Self>::add_assign, Add::add, carry_out"]}
{"id": "C02", "title": "Field subtraction is subtraction modulo p", "statement": "For each field type, a - b (and a -= b) returns an element denoting (a - b) mod p, for operands in any representation the API can hand out.", "quantifier": "for every field type and every pair of elements in any representation", "why_tests_cant": "The unit tests subtract only normalized constants, for which the carry of the right operand is always zero.", "anchors": ["src/field/mod_e{221_3,222_117,251_9,255_19,382_105,383_187,414_17,511_187,521_1}.rs: SubAssign<&Self>::sub_assign, Sub::sub"]}
{"id": "C03", "title": "Negation gives the additive inverse", "statement": "For each field type, -a denotes (p - a) mod p, so that a + (-a) denotes 0.", "quantifier": "for every field type and every element", "why_tests_cant": "No unit test calls the negation operator, and a finite sample cannot exclude a wrong value elsewhere.", "anchors": ["src/field/mod_e{221_3,222_117,251_9,255_19,382_105,383_187,414_17,511_187,521_1}.rs: Neg::neg"]}
{"id": "C04", "title": "Field multiplication is multiplication modulo p", "statement": "For each field type, a * b (and a *= b) returns an element denoting (a * b) mod p, including when a or b is the un-normalized result of earlier additions, subtractions and multiplications.", "quantifier": "for every field type and every pair of elements reachable through the API", "why_tests_cant": "A wrong carry or truncated high bit in the schoolbook product or in the pseudo-Mersenne reduction shows up only for rare bit patterns out of 2^440 and more.", "anchors": ["src/field/mod_e{221_3,222_117,251_9,255_19,382_105,383_187,414_17,511_187,521_1}.rs: MulAssign<&Self>::mul_assign, Mul::mul"]}
{"id": "C05", "title": "Squaring agrees with self-multiplication", "statement": "square()/squared() of a denotes the same residue as a * a.", "quantifier": "for every field type and every element reachable through the API", "why_tests_cant": "square has its own unrolled code of several hundred statements with no shared subroutine; agreement on samples says nothing about the other patterns.", "anchors": ["src/field/mod_e{221_3,222_117,251_9,255_19,382_105,383_187,414_17,511_187,521_1}.rs: PrimeField::square, squared"]}
{"id": "C06", "title": "Adding and subtracting machine integers is exact modulo p", "statement": "a + n and a - n for n of type i32, i16 or i8 (either operand order where offered) denote (a + n) mod p and (a - n) mod p, including negative n and n = i32::MIN, without panicking.", "quantifier": "for every field type, every element in any representation, every integer n of the three widths", "why_tests_cant": "The joint space of elements and 2^32 integers (with borrow propagation over all words) cannot be sampled meaningfully.", "anchors": ["src/field/mod_e{221_3,222_117,251_9,255_19,382_105,383_187,414_17,511_187,521_1}.rs: small_add_assign, small_sub_assign, small_add, small_sub, Add<i32|i16|i8>, Sub<i32|i16|i8>"]}
{"id": "C07", "title": "Multiplying by a machine integer is exact modulo p", "statement": "a * n for n of type i32, i16 or i8 denotes (a * n) mod p, for every n and every representation of a.", "quantifier": "for every field type, every element in any representation, every integer n", "why_tests_cant": "The product with the top word overflows only for large n, and the carry is double counted only for un-normalized a; the unit tests use normalized a and a handful of n.", "anchors": ["src/field/mod_e{221_3,222_117,251_9,255_19,382_105,383_187,414_17,511_187,521_1}.rs: small_mul_assign, small_mul, Mul<i32|i16|i8>"]}
{"id": "C08", "title": "Arithmetic never overflows: no panic in debug builds, identical results in release builds", "statement": "Any finite sequence of field additions, multiplications, squarings, small-integer additions and subtractions, and subtractions, starting from constants, unpacked byte strings and random elements, never triggers an arithmetic-overflow panic, and debug and release builds compute bit-identical results.", "quantifier": "for every field type and every finite sequence of operations", "why_tests_cant": "Overflow depends on the growth of carries over unbounded operation histories; tests exercise histories of length one or two.", "anchors": ["src/field/mod_e{221_3,222_117,251_9,255_19,382_105,383_187,414_17,511_187,521_1}.rs: add_assign, sub_assign, mul_assign, square, small_add_assign, small_sub_assign"]}
{"id": "C09", "title": "Normalization yields the canonical representative", "statement": "normalize() leaves the denoted residue unchanged and produces the unique canonical representative, i.e. the integer in [0, p).", "quantifier": "for every field type and every element reachable through the API", "why_tests_cant": "The wrong branch is taken only in windows of a few values around multiples of p out of 2^222 and more.", "anchors": ["src/field/mod_e{221_3,222_117,251_9,255_19,382_105,383_187,414_17,511_187,521_1}.rs: Normalize::normalize", "src/normalize.rs"]}
{"id": "C10", "title": "normalize_eq decides equality in the field", "statement": "a.normalize_eq(b) returns true exactly when a and b denote the same residue mod p, however differently the two values were computed.", "quantifier": "for every field type and every pair of elements reachable through the API", "why_tests_cant": "Equality of lazily reduced representations has to be right for every pair of representations of every residue.", "anchors": ["src/field/mod_e{221_3,222_117,251_9,255_19,382_105,383_187,414_17,511_187,521_1}.rs: NormalizeEq::normalize_eq, normalize_self_eq", "src/normalize.rs"]}
{"id": "C11", "title": "Packing emits the little-endian canonical value", "statement": "pack(bytes)/packed() writes the little-endian encoding, in exactly nbytes() bytes, of the unique integer in [0, p) that the element denotes.", "quantifier": "for every field type and every element reachable through the API", "why_tests_cant": "Each byte is assembled by its own shift/mask expression; an error in one mask shows only for values with particular bits set.", "anchors": ["src/field/mod_e{221_3,222_117,251_9,255_19,382_105,383_187,414_17,511_187,521_1}.rs: Pack::pack, pack_normalized, packed, nbytes", "src/pack.rs"]}
{"id": "C12", "title": "Unpacking reads a little-endian integer", "statement": "unpack(bytes)/unpacked(bytes) yields an element whose value is the little-endian integer of the nbytes() input bytes with the bits above the field's bit length ignored.", "quantifier": "for every field type and every byte string", "why_tests_cant": "2^224 and more byte strings; each bit is routed by separate shift and mask expressions, one of which relies on wrap-around of a left shift.", "anchors": ["src/field/mod_e{221_3,222_117,251_9,255_19,382_105,383_187,414_17,511_187,521_1}.rs: Pack::unpack, unpacked", "src/pack.rs"]}
{"id": "C13", "title": "Pack and unpack are mutually inverse", "statement": "Unpacking the packed form of an element gives an element equal to the original (same residue, canonical form); packing an unpacked byte string that encodes an integer below p returns exactly those bytes, and for an integer in [p, 2^n) returns the encoding of its residue.", "quantifier": "for every field type, every element reachable through the API, every byte string", "why_tests_cant": "Round trips over all values cannot be enumerated; non-canonical encodings near 2^n are never sampled.", "anchors": ["src/field/mod_e{221_3,222_117,251_9,255_19,382_105,383_187,414_17,511_187,521_1}.rs: Pack::pack, unpack, packed, unpacked"]}
{"id": "C14", "title": "Buffer-length contract of pack and unpack", "statement": "pack and unpack panic exactly when the slice is shorter than nbytes(); with a longer slice, pack leaves the bytes beyond nbytes() untouched and unpack ignores them.", "quantifier": "for every field type and every slice length and content", "why_tests_cant": "The tests only use arrays of exactly the right length.", "anchors": ["src/field/mod_e{221_3,222_117,251_9,255_19,382_105,383_187,414_17,511_187,521_1}.rs: Pack::pack_normalized, unpack", "src/pack.rs"]}
{"id": "C15", "title": "Inversion gives the multiplicative inverse", "statement": "For every element a not congruent to 0, a * a.inverted() denotes 1; the inverse of 0 denotes 0.", "quantifier": "for every field type and every element", "why_tests_cant": "The hard-coded addition chain raises to p-2; that this is an inverse depends on p being prime and on every one of hundreds of multiplications.", "anchors": ["src/field/mod_e{221_3,222_117,251_9,255_19,382_105,383_187,414_17,511_187,521_1}.rs: PrimeField::invert, inverted"]}
{"id": "C16", "title": "Division undoes multiplication", "statement": "For b not congruent to 0, (a / b) * b denotes a, and (a * b) / b denotes a.", "quantifier": "for every field type and all elements a, b", "why_tests_cant": "Same domain as inversion, squared.", "anchors": ["src/field/mod_e{221_3,222_117,251_9,255_19,382_105,383_187,414_17,511_187,521_1}.rs: DivAssign::div_assign, Div::div"]}
{"id": "C17", "title": "The Legendre symbol classifies squares", "statement": "legendre(a) denotes 1 when a is a non-zero square mod p, -1 when it is not a square, and 0 when a is 0.", "quantifier": "for every field type and every element", "why_tests_cant": "Correctness is Euler's criterion for the specific prime and exponent chain; sampling cannot separate a chain that is wrong on a sparse subset.", "anchors": ["src/field/mod_e{221_3,222_117,251_9,255_19,382_105,383_187,414_17,511_187,521_1}.rs: PrimeField::legendre"]}
{"id": "C18", "title": "sqrt returns a square root of every square", "statement": "For every a that is a square mod p, sqrt(a) squared denotes a.", "quantifier": "for every field type and every quadratic residue", "why_tests_cant": "Half of the field are squares; for the 5-mod-8 primes two different branches (quartic residue or not) are folded into one arithmetic formula with a magic constant.", "anchors": ["src/field/mod_e{221_3,222_117,251_9,255_19,382_105,383_187,414_17,511_187,521_1}.rs: PrimeField::sqrt, quartic_legendre, COEFF, M_HALF"]}
{"id": "C19", "title": "Named constants denote what they say, canonically", "statement": "zero(), one() and m_one() are the canonical representations of 0, 1 and p-1, modulus() is the integer p, M_HALF denotes -1/2, and the documented curve constants denote the documented integers.", "quantifier": "for every field type, all exported constants", "why_tests_cant": "A single mistyped hex word is consistent with every test that does not happen to touch it; being the inverse of 2 or a root of -1 is an identity over all of the digits.", "anchors": ["src/field/mod_e{221_3,222_117,251_9,255_19,382_105,383_187,414_17,511_187,521_1}.rs: ZERO, ONE, M_ONE, MODULUS, M_HALF, COEFF, *_BASE_X, *_BASE_Y, *_ORDER, *_D"]}
{"id": "C20", "title": "Bit access reads the binary expansion of the canonical value", "statement": "bit(i) returns bit i of the canonical integer value for every i below nbits(), returns false for i between nbits() and the storage size, and panics for larger i; nbits() is the bit length of p.", "quantifier": "for every field type, every element, every index", "why_tests_cant": "The word/offset split must be right at every one of the word boundaries for every value.", "anchors": ["src/field/mod_e{221_3,222_117,251_9,255_19,382_105,383_187,414_17,511_187,521_1}.rs: PrimeField::bit, bit_normalized, nbits"]}
{"id": "C21", "title": "Masks select without branching", "statement": "filled(b) is the all-ones (b = true) or all-zeros (b = false) word pattern, so for any elements x and y, (x AND filled(b)) OR (y AND filled(!b)) is bit-for-bit x when b is true and y when b is false.", "quantifier": "for every field type, all pairs of elements in any representation (including negative words), both values of b", "why_tests_cant": "Selection must hold for all 2^256+ word patterns, including un-normalized negative words.", "anchors": ["src/field/mod_e{221_3,222_117,251_9,255_19,382_105,383_187,414_17,511_187,521_1}.rs: PrimeField::filled, fill, PrimeFieldMask::filled, fill, normalized_bitand, normalized_bitor"]}
{"id": "C22", "title": "Hex formatting prints the canonical value", "statement": "{:x} and {:X} print exactly 2*nbytes() hex digits, which read as a big-endian number are the canonical integer value; formatting does not modify the element.", "quantifier": "for every field type and every element reachable through the API", "why_tests_cant": "The digits depend on normalization and on all byte extractions.", "anchors": ["src/field/mod_e{221_3,222_117,251_9,255_19,382_105,383_187,414_17,511_187,521_1}.rs: LowerHex::fmt, UpperHex::fmt"]}
{"id": "C23", "title": "Operator variants agree", "statement": "All by-value, by-reference, assigning, i32/i16/i8 and reversed-operand forms of each operator, and the functional (squared, inverted, small_add, ...) and in-place forms of each method, return the same element for the same arguments.", "quantifier": "for every field type, every operator variant, all arguments", "why_tests_cant": "There are dozens of trait impls per field; each could dispatch to the wrong primitive or swap operands.", "anchors": ["src/field/mod_e{221_3,222_117,251_9,255_19,382_105,383_187,414_17,511_187,521_1}.rs: impls of Add, AddAssign, Sub, SubAssign, Mul, MulAssign, Div, DivAssign, PrimeField::squared, inverted, small_add, small_sub, small_mul"]}
{"id": "C24", "title": "Random elements are canonical and cover the field", "statement": "rand() always returns a canonical element (an integer in [0, p)), and every canonical element can be returned for some behaviour of the generator.", "quantifier": "for every field type and every behaviour of the random generator", "why_tests_cant": "Coverage is an existential over generator outputs; sampling cannot show that a value is never produced.", "anchors": ["src/field/mod_e{221_3,222_117,251_9,255_19,382_105,383_187,414_17,511_187,521_1}.rs: Rand::rand"]}
{"id": "C25", "title": "Any computation through the API refines arithmetic in Z/p", "statement": "For any straight-line computation built from constants, unpacked bytes, random elements, +, *, square, small-integer + and -, inversion, square root and normalization (and, where the representation permits, -), the packed result is the little-endian encoding of the same computation carried out in Z/p.", "quantifier": "for every field type and every finite computation (expression tree) over the API", "why_tests_cant": "Errors that need several chained un-normalized operations to appear are out of reach of the one-operation unit tests.", "anchors": ["src/field/mod_e{221_3,222_117,251_9,255_19,382_105,383_187,414_17,511_187,521_1}.rs: all arithmetic impls", "src/field/prime_field.rs: PrimeField"]}
{"id": "C26", "title": "Edwards point addition implements the curve group law", "statement": "Adding two points in extended coordinates that represent affine points P and Q of x^2 + y^2 = 1 + d x^2 y^2 yields extended coordinates (with t*z = x*y and z non-zero) representing P + Q by the Edwards addition law, for all P and Q including P = Q, P = -Q and the identity.", "quantifier": "for every Edwards curve type, all pairs of points and all extended representations of them", "why_tests_cant": "The group has about 2^222 or more points; exceptional cases are exactly what tests miss.", "anchors": ["src/curve/edwards.rs: AddAssign::add_assign, Add::add"]}
{"id": "C27", "title": "Point doubling agrees with adding a point to itself", "statement": "double()/doubled() of a representation of P represents P + P and keeps t*z = x*y, whatever the t coordinate of the input.", "quantifier": "for every Edwards curve type, every point, every representation", "why_tests_cant": "All points of a 2^222-element group.", "anchors": ["src/curve/edwards.rs: Point::double, doubled"]}
{"id": "C28", "title": "Point tripling agrees with P + P + P", "statement": "triple()/tripled() of a representation of P represents P + P + P.", "quantifier": "for every Edwards curve type, every point, every representation", "why_tests_cant": "All points of a 2^222-element group; there is no test for tripling at all.", "anchors": ["src/curve/edwards.rs: Point::triple, tripled"]}
{"id": "C29", "title": "zero() is the neutral element", "statement": "Adding zero() to any point, on either side, returns a representation of the same point.", "quantifier": "for every Edwards curve type, every point", "why_tests_cant": "There is no test of the curve layer; the law quantifies over all points.", "anchors": ["src/curve/edwards.rs: Point::zero"]}
{"id": "C30", "title": "init builds a valid extended point", "statement": "init(x, y) for affine coordinates (x, y) of a curve point yields an extended representation of that point (z = 1, t = x*y), so that it can be added to other points.", "quantifier": "for every Edwards curve type, every affine point", "why_tests_cant": "There is no test of the curve layer; the invariant t*z = x*y must hold for all x, y.", "anchors": ["src/curve/edwards.rs: Point::init"]}
{"id": "C31", "title": "Scalar multiplication computes k*P", "statement": "scalar_mult by a scalar k replaces P by k*P (the k-fold sum of P) for every scalar value k and every point.", "quantifier": "for every Edwards curve type, every scalar, every point", "why_tests_cant": "2^222 scalars times 2^222 points; the ladder's loop invariant is needed.", "anchors": ["src/curve/edwards.rs: Point::scalar_mult, scalar_mult_normalized"]}
{"id": "C32", "title": "The scalar-multiplication ladder is independent of scalar bits in control flow", "statement": "scalar_mult performs the same sequence of point operations (one addition and one doubling per bit position, nbits() positions) for every scalar; the scalar only influences the data selected by masks.", "quantifier": "for every Edwards curve type, every scalar, every point", "why_tests_cant": "Independence is a relation between all pairs of runs.", "anchors": ["src/curve/edwards.rs: Point::scalar_mult_normalized"]}
{"id": "C33", "title": "The curve constants satisfy the completeness condition", "statement": "For each Edwards curve type the constant d is not a square in the field, so that the addition formula never divides by zero on curve points.", "quantifier": "for every Edwards curve type; for all pairs of curve points the denominators are non-zero", "why_tests_cant": "Non-vanishing has to hold for all pairs of points.", "anchors": ["src/curve/{e_222,curve1174,e_382,curve41417,e_521}.rs: d_val", "src/field/mod_e{221_3,222_117,251_9,255_19,382_105,383_187,414_17,511_187,521_1}.rs: *_D"]}
{"id": "C34", "title": "Base points lie on their curves and have the documented order", "statement": "For each Edwards curve the exported base point satisfies the curve equation, and multiplying it by the exported order constant gives the identity.", "quantifier": "for every Edwards curve, exactly the exported constants", "why_tests_cant": "The order is a 220-521-bit number; no test of the repository computes with these constants.", "anchors": ["src/field/mod_e{221_3,222_117,251_9,255_19,382_105,383_187,414_17,511_187,521_1}.rs: *_BASE_X, *_BASE_Y, *_ORDER", "src/curve/*.rs"]}
{"id": "C35", "title": "Point addition is commutative and associative on the represented points", "statement": "For representations of curve points, P + Q and Q + P represent the same point and (P + Q) + R and P + (Q + R) represent the same point.", "quantifier": "for every Edwards curve type, all points", "why_tests_cant": "Universally quantified over triples of points.", "anchors": ["src/curve/edwards.rs: AddAssign::add_assign"]}
{"id": "C36", "title": "The moduli are prime", "statement": "Each modulus 2^n - c used by a field type is a prime number, so the types are fields.", "quantifier": "for all nine moduli", "why_tests_cant": "Primality of 222- to 521-bit numbers needs a certificate, not samples.", "anchors": ["src/field/mod_e{221_3,222_117,251_9,255_19,382_105,383_187,414_17,511_187,521_1}.rs: MODULUS"]}
{"id": "C37", "title": "AND/OR helpers that normalize act on canonical values", "statement": "normalize_bitand/normalize_bitor(a, b) produce the bitwise AND/OR of the canonical integer values of a and b (and leave both operands normalized), normalize_self_* normalizes only the left operand.", "quantifier": "for every field type, all pairs of elements", "why_tests_cant": "All pairs of values in all representations.", "anchors": ["src/field/mod_e{221_3,222_117,251_9,255_19,382_105,383_187,414_17,511_187,521_1}.rs: normalize_bitand, normalize_self_bitand, normalized_bitand, normalize_bitor, normalize_self_bitor, normalized_bitor"]}
{"id": "C38", "title": "Debug formatting prints the stored words", "statement": "{:?} prints the type name and all stored words, lowest first, in hexadecimal two's complement.", "quantifier": "for every field type, every element in any representation", "why_tests_cant": "All word patterns, including negative ones.", "anchors": ["src/field/mod_e{221_3,222_117,251_9,255_19,382_105,383_187,414_17,511_187,521_1}.rs: Debug::fmt"]}
{"id": "C39", "title": "Edwards group orders are prime and are the exact order of the base point", "statement": "For E-222, Curve1174, E-382, Curve41417 and E-521 the exported *_ORDER constant is a prime number, and the exported base point has exactly that order in the group of the curve: k*B is the neutral element iff ORDER divides k.", "quantifier": "for the five curves, all natural numbers k", "why_tests_cant": "Primality and the exact order are statements about all divisors and all 2^219..2^519 multiples.", "anchors": ["src/field/mod_e{222_117,251_9,382_105,414_17,521_1}.rs: *_ORDER, *_BASE_X, *_BASE_Y", "src/curve/{e_222,curve1174,e_382,curve41417,e_521}.rs"]}
{"id": "C40", "title": "Montgomery constants describe a point of the stated prime order", "statement": "For M-221, Curve25519, M-383, Curve383187 and M-511 the exported constants are canonical, the exported base point satisfies y^2 = x^3 + A x^2 + x for the documented A, the exported order is prime, and it is the exact order of the base point in the elliptic-curve group.", "quantifier": "for the five curves (group statement over all multiples of the base point)", "why_tests_cant": "No code in the repository uses these constants, so no test exercises them; the order statement concerns about 2^252 multiples.", "anchors": ["src/field/mod_e{221_3,255_19,383_187,511_187}.rs: M221_*, CURVE25519_*, M383_*, CURVE383187_*, M511_*"]}
{"id": "C41", "title": "Exact representation returned by products", "statement": "The words returned by a*b are those of one fixed integer function of the integer product of the operands; hence a*b and b*a are identical word for word, squared(a) is identical word for word to a*a, and a product of non-negative representations is a non-negative representation.", "quantifier": "for every field type, both build profiles, all operands with bounded carries of either sign", "why_tests_cant": "Unbounded pairs of operands and all carry patterns; equality of words, not only of residue classes.", "anchors": ["src/field/mod_e{221_3,222_117,251_9,255_19,382_105,383_187,414_17,511_187,521_1}.rs: mul_assign, square, squared"]}
{"id": "C42", "title": "Normalizing after every operation makes every computation right", "statement": "If a program calls normalize() after every operation (and writes ZERO - x for -x), then every intermediate and final element is, word for word, the canonical representation of the same computation in Z/p; in particular packing it yields the canonical bytes.", "quantifier": "for every field type, both build profiles, every computation tree over the API (constants, bytes, rand, +, -, *, /, small + and -, square, neg, invert, legendre, sqrt, normalize); sqrt stands for the explicit root function of C45", "why_tests_cant": "Unbounded set of programs; without the discipline some of them are wrong (C25), so the rule itself needs a proof.", "anchors": ["src/field/mod_e{221_3,222_117,251_9,255_19,382_105,383_187,414_17,511_187,521_1}.rs: arithmetic operators, Normalize::normalize, PrimeField::*"]}
{"id": "C43", "title": "Legendre symbols are the constants ZERO, ONE and M_ONE", "statement": "normalize(legendre(a)) is word for word ZERO when a is 0, ONE when a is a non-zero square and M_ONE when a is not a square, so comparing it with the exported constants decides squareness.", "quantifier": "for every field type, both build profiles, every element in any representation", "why_tests_cant": "Quantifies over every representation of every residue class.", "anchors": ["src/field/mod_e{221_3,222_117,251_9,255_19,382_105,383_187,414_17,511_187,521_1}.rs: PrimeField::legendre, Normalize::normalize, ZERO, ONE, M_ONE"]}
{"id": "C44", "title": "quartic_legendre classifies fourth powers", "statement": "quartic_legendre(a) denotes 0 exactly for 0, 1 exactly for the other fourth powers, -1 exactly for the squares that are not fourth powers, and a square root of -1 for non-squares.", "quantifier": "for the four field types that define it, both build profiles, every element in any representation", "why_tests_cant": "The function is private and only its effect on sqrt of squares is observable in tests; the classification is over the whole field.", "anchors": ["src/field/mod_e{221_3,255_19,383_187,511_187}.rs: quartic_legendre"]}
{"id": "C45", "title": "sqrt detects non-squares and returns the principal root", "statement": "Squaring the result of sqrt(a) gives back a exactly when a is a square; when p = 3 mod 4 the root returned is the unique one that is itself a square, and for a non-square a the result is a square root of -a; when p = 5 mod 8 the root is a^((p+3)/8) for fourth powers and 2^((p-1)/4) times that for other squares.", "quantifier": "for every field type, both build profiles, every element in any representation", "why_tests_cant": "Quantifies over the whole field, squares and non-squares.", "anchors": ["src/field/mod_e{221_3,222_117,251_9,255_19,382_105,383_187,414_17,511_187,521_1}.rs: PrimeField::sqrt, squared"]}
{"id": "C46", "title": "Curve groups have cofactor times ORDER elements", "statement": "The number of points of the curve is the published cofactor times the exported *_ORDER constant; hence multiplying any point by the cofactor leads into the subgroup generated by the exported base point, and cofactor times ORDER kills every point.", "quantifier": "for the five Edwards curves and the five Montgomery curves whose constants are exported, every point", "why_tests_cant": "The groups have between 2^220 and 2^521 elements; counting them is a theorem, not a computation over points.", "anchors": ["src/field/mod_e*.rs: *_ORDER, *_BASE_X, *_BASE_Y, *_D", "src/curve/{e_222,curve1174,e_382,curve41417,e_521}.rs: D"]}
{"id": "C47", "title": "Generic point code is right over a normalizing scalar type", "statement": "With a scalar type that calls the repository's own normalize after every arithmetic operation, the unchanged generic add_assign and double of edwards.rs return, for every pair of points, canonical coordinates of the sum and of the double, without panicking; the unchanged loop of the ladder, started with coordinates of the neutral element, ends with (2^nbits - 1 - k) P.", "quantifier": "for the five Edwards curves, both build profiles, all points of the curve in all canonical extended coordinates, all scalars", "why_tests_cant": "Quantifies over all points, all their extended coordinates and all scalars; it isolates carries as the only cause of the wrong sums (C26, C27).", "anchors": ["src/curve/edwards.rs: add_assign, double, ladder", "src/field/mod_e{222_117,251_9,382_105,414_17,521_1}.rs: normalize"]}
{"id": "C48", "title": "rand is injective in the generator's answers; number of results", "statement": "Two runs of rand return the same element only if the generator gave the same answer to every question, so independent uniform answers give a uniform distribution on the elements that can be returned; their number is the product of the words of the modulus, and less than one field element in 2^21 is missing.", "quantifier": "for every field type, every pair of generators; the count is over all generators", "why_tests_cant": "Counts a set of more than 2^220 elements and compares all pairs of generators.", "anchors": ["src/field/mod_e*.rs: Rand::rand, MODULUS"]}
{"id": "C49", "title": "Curve groups are cyclic; subgroup membership; points of small order", "statement": "The group of the curve is cyclic; a point lies in the subgroup generated by the exported base point exactly when the exported ORDER kills it; exactly cofactor many points are killed by the cofactor.", "quantifier": "for the five Edwards and the five Montgomery curves, every point", "why_tests_cant": "Statements about groups with more than 2^220 elements.", "anchors": ["src/field/mod_e*.rs: *_ORDER, *_BASE_X, *_BASE_Y, *_D"]}
{"id": "C50", "title": "Embedding degrees exceed 2^16 and no curve is anomalous", "statement": "The exported ORDER differs from the characteristic p and does not divide p^k - 1 for any 0 < k <= 2^16.", "quantifier": "for the five Edwards and the five Montgomery curves, every exponent in the range", "why_tests_cant": "Needs the exact order of p modulo a prime of 220 to 519 bits to be bounded below; no test of the repository touches it.", "anchors": ["src/field/mod_e*.rs: *_ORDER, MODULUS"]}
{"id": "C51", "title": "Multiplying by a machine integer never panics, alone or inside longer computations", "statement": "Any computation built from constants, unpacked bytes, random elements, +, -, *, /, square, invert, legendre, sqrt, normalize, negation and small-integer +, - and * does not panic, and gives the same words in debug and release builds.", "quantifier": "for every field type, every build profile, every such computation with all its inputs", "why_tests_cant": "The overflow needs a factor near 2^31 or a particular factor followed by squaring; the unit tests multiply by a handful of small integers and never combine the result with another product.", "anchors": ["src/field/mod_e*.rs: small_mul_assign, square, mul_assign"]}
{"id": "C52", "title": "On arbitrary words, builds differ only by overflow panics", "statement": "For any stored words whatever (not only those the operations produce), every field and point operation, packing with a long enough slice, bit access inside the words, formatting and scalar multiplication returns without a panic in a release build, the result again being words of the Rust types; a debug build returns the very same result or panics because of an integer overflow, never because of an index.", "quantifier": "for every field type, all 64-bit words, every straight-line computation and every point and scalar", "why_tests_cant": "Quantifies over all 2^64 values of each word; tests only ever see words produced from canonical inputs, in one build profile.", "anchors": ["src/field/mod_e*.rs: all operations", "src/curve/edwards.rs: add_assign, double, triple, scalar_mult"]}
{"id": "C53", "title": "Programs that act on what they observe cannot tell a field type from the integers modulo p", "statement": "A client that creates elements by any operations, compares them, reads bits, packed bytes and hex digits of them, and lets its further steps depend on the answers in any way, gets the same answers and returns the same result as if every element were a residue class, without a panic.", "quantifier": "for every field type, every build profile and every terminating client program, of any length and any branching", "why_tests_cant": "Quantifies over all programs that use the type; the unit tests are some fixed ones, and equality after lazily reduced steps goes wrong only for particular programs.", "anchors": ["src/field/mod_e*.rs: all operations", "src/field/prime_field.rs: the traits"]}
{"id": "C54", "title": "The functions of the model are the meaning of the program text", "statement": "Interpreting any function or operator impl of the text of a field file, as a program in a general subset of Rust, gives exactly what the corresponding function of the model gives: the same result, the same final values of everything passed by &mut, the same panic; the file has no other functions and no other constants.", "quantifier": "for every field file, every function in it, every build profile, all words, integers, byte slices of any length, bit indices and answers of the random generator", "why_tests_cant": "A statement about all executions of some 15000 lines of source; tests run the code on single inputs and cannot compare it with a model at all.", "anchors": ["src/field/mod_e221_3.rs", "src/field/mod_e222_117.rs", "src/field/mod_e251_9.rs", "src/field/mod_e255_19.rs", "src/field/mod_e382_105.rs", "src/field/mod_e383_187.rs", "src/field/mod_e414_17.rs", "src/field/mod_e511_187.rs", "src/field/mod_e521_1.rs"]}
{"id": "C55", "title": "The functions on points are the meaning of the program text", "statement": "Interpreting any function or operator impl of the text of edwards.rs, with the type of a curve for the parameter C and together with the text of its field file and its own file, gives exactly what the corresponding function of the model gives: the same coordinates, the same final values of everything passed by &mut, the same panic. The files have no other functions.", "quantifier": "for every curve type, every function, every build profile, all words of the coordinates and of the scalar", "why_tests_cant": "A statement about all executions of the source, among them a loop of several hundred iterations on arbitrary words; tests run the code on single inputs.", "anchors": ["src/curve/edwards.rs", "src/curve/e_222.rs", "src/curve/curve1174.rs", "src/curve/e_382.rs", "src/curve/curve41417.rs", "src/curve/e_521.rs"]}
{"id": "C56", "title": "What the code does depends on public data only", "statement": "Interpret the program text with a record of every function entered, variable, field and array element read, place written, loop iteration, cast and primitive operation, with shift distances and operands of divisions. Two calls of a function whose arguments differ only in the words of elements, points and scalars, in bytes, masks and truth values (not in lengths or usize indices), and in the answers of the random generator, have the same record in release builds and both succeed or fail in the same way; in debug builds one of the records can be a prefix of the other, ended by an overflow, and if both calls succeed they are equal. In particular the ladder and the field operations do the same for all scalars, points and elements.", "quantifier": "for every program of the modelled subset of Rust, so for every function of the nine field files, edwards.rs and the curve files, for all pairs of arguments equal up to secrets", "why_tests_cant": "A statement about pairs of executions on all pairs of secrets; a test compares the timing or the trace of a few of them.", "anchors": ["src/field/mod_e221_3.rs", "src/field/mod_e521_1.rs", "src/curve/edwards.rs"]}
{"id": "C57", "title": "With the listed repairs the refuted properties hold", "statement": "Change the code in the places listed in Model/Repaired.lean (sign of a carry in sub_assign, neg, normalize, mul_assign of two types, small_mul_assign, the mask in unpack of Mod_e383_187, t of zero and init, one sign in triple, the masks of the ladder) and nothing else. Then for all representations subtraction, negation, products, products with an i32, normalization, comparison, packing and unpacking are right in all nine types in both build profiles, and addition, doubling, tripling and scalar multiplication are right for all points of the five curves. The refuted properties are therefore satisfiable, and the listed defects are the only causes of their failure.", "quantifier": "for all nine types, both build profiles, all representations within the 64-bit words with bounded carries, all points and all scalars", "why_tests_cant": "That no further defect is hidden behind a known one is a statement about all inputs of a corrected program.", "anchors": ["src/field/mod_e221_3.rs", "src/field/mod_e383_187.rs", "src/curve/edwards.rs"]}
{"id": "C58", "title": "Clients of the repaired types cannot tell them from the integers modulo p", "statement": "With the edits of C57, inversion, division, Legendre symbol, sqrt, normalize_eq, bit, packed bytes and hex digits are right in all nine types for everything the operations return. A client that uses any of the operations in any order, looks at intermediate results (comparisons, bits, bytes, digits) and lets its next step depend on the answers, gets the same answers and returns the same result as the client computing in Z/p, and never panics. The conditions of C53 are not needed: the repairs of C57 are sufficient for every use of the field types.", "quantifier": "for all nine types, both build profiles, all clients (trees of instructions with a subtree for every answer), all byte strings, all i32 arguments and all generator answers", "why_tests_cant": "Clients are arbitrary programs that act on what they observe.", "anchors": ["src/field/mod_e222_117.rs", "src/field/mod_e251_9.rs", "src/field/mod_e383_187.rs"]}
{"id": "C59", "title": "Computations and clients of the program text", "statement": "Run a computation or a client by calling the functions of the program text with the interpreter of C54, passing the interpreter's values from call to call. Then: (1) every client gets from the text exactly the answers, result or panic that the model gives; (2) no computation from constants, unpacked bytes and random elements with the operations of PrimeField (integer factors within the bounds of C51) panics or leaves the subset of Rust, and all builds return the same words; (3) from arbitrary 64-bit words release builds always return and debug builds return the same words or panic with an overflow; (4) in seven types no client without - between elements (in Mod_e222_117 if it adds no negative and subtracts no positive integers, in Mod_e251_9 if it has no products but squares), and in all types no client that the interval analysis of C53 accepts or that normalizes every new element (in Mod_e251_9 without exponentiations), can tell the text from Z/p. Without the exceptions in (4) the claim is false.", "quantifier": "for all nine field files, both build profiles, all computations, all clients (trees of instructions with a subtree for every answer), all byte strings, all i32 arguments, all generator answers, all 64-bit words", "why_tests_cant": "Computations and clients are arbitrary programs; a translation error in the model would show only for some of them.", "anchors": ["src/field/mod_e221_3.rs", "src/field/mod_e222_117.rs", "src/field/mod_e251_9.rs", "src/field/prime_field.rs"]}
{"id": "C60", "title": "The programs are what the text of the files says", "statement": "Take the text of every field file, of edwards.rs and of the five curve files (up to the tests) as a list of lines. A reader that is a total function of the logic, written separately from the parser that produced the programs of C54 to C59, finds in each text exactly that program. The reader gives at most one program, no two field files read the same, and layout does not matter to it: for every text, blank lines and comment lines may be inserted or removed, lines may be indented, comments put after lines, and lines broken at spaces outside strings and comments.", "quantifier": "all 15 files in full; for the layout, all texts and all positions", "why_tests_cant": "A wrong precedence or a dropped statement in the reading of the source would make every other property speak of a different program; a test of the model cannot see it.", "anchors": ["src/field/mod_e221_3.rs", "src/field/mod_e222_117.rs", "src/field/mod_e251_9.rs", "src/field/mod_e255_19.rs", "src/field/mod_e382_105.rs", "src/field/mod_e383_187.rs", "src/field/mod_e414_17.rs", "src/field/mod_e511_187.rs", "src/field/mod_e521_1.rs", "src/curve/edwards.rs", "src/curve/e_222.rs", "src/curve/curve1174.rs", "src/curve/e_382.rs", "src/curve/curve41417.rs", "src/curve/e_521.rs"]}
{"id": "C61", "title": "A program that uses the code leaks only what it looks at", "statement": "Take any program that puts values into registers, calls functions and operators of the text with registers as arguments, by value or by reference, looks at registers and goes on depending on what it sees. Log the records of C56 of all its calls and every value it looks at. Two runs that differ in secrets only (words of elements, points and scalars, bytes, masks, answers of the random generator) have the same log up to the first look at different values; in debug builds one of them may also end early with an overflow. So in release builds runs that see the same have the same log and both succeed or fail in the same way, and programs that never look do the same for all secrets. In particular reading a scalar and a point from bytes and multiplying them (unpacked, zero, init, scalar_mult) never panics and does the same for all bytes, in debug builds too.", "quantifier": "for every program of the modelled subset of Rust, so for all field and curve files; for all scripts (trees with a subtree for every value seen), all pairs of runs equal up to secrets, both build profiles", "why_tests_cant": "Scripts are arbitrary programs, and the claim compares all pairs of runs.", "anchors": ["src/field/mod_e221_3.rs", "src/field/prime_field.rs", "src/curve/edwards.rs", "src/curve/curve1174.rs"]}
{"id": "C62", "title": "Points cannot be seen, and no program that uses a curve panics", "statement": "Take any program that makes field elements and points with the public functions (constants, unpacked bytes, random elements, the operations of PrimeField except small_mul; zero, init, +, +=, double, triple, scalar_mult and scalar_mult_normalized of points), looks at elements with normalize_eq, bit, packed and hex formatting and goes on depending on what it sees. Run on the text of its curve it never panics, and debug and release builds give it the same answers, although on every curve the sum of two points is in general no point (C26). Moreover it gets exactly what the same program gets from the text of the field alone when its instructions on points are left out and scalar_mult is replaced by normalize of the scalar: nothing of a point can be seen from outside. For programs without - between elements (which on E-222 add no negative and subtract no positive integers, and on Curve1174 multiply no elements except by squaring and take no powers), and for all programs that the interval analysis of C53 accepts, this is what it would get in Z/p. For other programs on E-222 the last claim is false.", "quantifier": "for all five curves (for programs without points: all nine field files), both build profiles, all programs (trees of instructions with a subtree for every answer), all byte strings, all i32 arguments, all generator answers", "why_tests_cant": "Programs are arbitrary and may depend on what they see; absence of panics and unobservability are claims about all of them.", "anchors": ["src/curve/edwards.rs", "src/curve/e_222.rs", "src/curve/curve1174.rs", "src/curve/e_382.rs", "src/curve/curve41417.rs", "src/curve/e_521.rs", "src/field/prime_field.rs"]}
{"id": "C63", "title": "Key agreement: scalar multiplications commute", "statement": "For every curve type, every representation of every point P and all scalars a and b in canonical form: scalar_mult by a and then by b, and by b and then by a, succeed and give the same point. (Weaker than C31: a ladder that computes f(k) P for any function f has it. False for the code: on all five curves, with the base point and the scalars 1 and 2, the results differ.)", "quantifier": "for all five curves, both build profiles, all points of the curve, all their representations, all pairs of scalars", "why_tests_cant": "The group has about 2^220 to 2^519 points and there are as many scalars; the code has no test of scalar_mult.", "anchors": ["src/curve/edwards.rs", "src/curve/e_222.rs", "src/curve/curve1174.rs", "src/curve/e_382.rs", "src/curve/curve41417.rs", "src/curve/e_521.rs"]}
{"id": "C64", "title": "Exactly what every program gets, right or wrong", "statement": "For all nine field types there is an explicit machine on integers (for +, -, *, squared, the small additions, normalize, packing, bits and hexadecimal text a formula in the integer that the words stand for; for invert, legendre, sqrt and / these formulas put together as in their bodies; for bytes that are too short and bit indices outside the words a panic) such that: every adaptive program that makes elements by the constants, unpack, rand, + - * / between elements, + and - with an i32, squared, inverted, legendre, sqrt and select, and looks at them by normalize, normalize_eq, bit, pack and the hexadecimal format, with arguments of the Rust types, gets from the code exactly what it gets from that machine, and panics exactly when the machine does. No precondition on sizes, and no exceptions for types or operations that are wrong modulo p. It holds for the text of the field files, in all builds, and for programs that also use the points of a curve.", "quantifier": "for all nine field types, both build profiles, all adaptive programs over elements (and points, for the five curves), all byte strings, all i32 arguments, all generators", "why_tests_cant": "The programs are unbounded, branch on answers, and the inputs are words of up to 521 bits; a test fixes one program and one input, and a comparison with Z/p cannot describe the answers that are wrong.", "anchors": ["src/field/mod_e222_117.rs", "src/field/mod_e521_1.rs", "src/field/mod_e414_17.rs", "src/field/mod_e382_105.rs", "src/field/mod_e383_187.rs", "src/field/mod_e251_9.rs", "src/field/prime_field.rs"]}
{"id": "C65", "title": "Exactly the points that every program makes, right or wrong", "statement": "For all five curve types there are explicit functions on integers for +, double, triple, scalar_mult_normalized and scalar_mult (the formulas of edwards.rs with every field operation replaced by its formula on the integer that the words stand for, the ladder reading the bits of the integer in two's complement) such that: every adaptive program over elements and points, with arguments of the Rust types, is answered as by the machine on integers made of these and those of C64, ends with variables whose words are exactly those of the integers, and panics exactly when the machine does. The coordinates and scalars are arbitrary: they need not belong to points of the curve, and no operation is supposed to be right. Hence an exact condition, on all five curves, for a sum, a double, a triple and a multiple to be right. In all builds the words are the same, and all of this holds for the text of the files.", "quantifier": "for all five curves, both build profiles, all adaptive programs over elements and points, all byte strings, i32 arguments and generators, all coordinates and scalars", "why_tests_cant": "The programs are unbounded and the inputs are four words of up to 521 bits for each point and as much for each scalar; points cannot be looked at through the public functions at all.", "anchors": ["src/curve/edwards.rs", "src/curve/e_222.rs", "src/curve/curve1174.rs", "src/curve/e_382.rs", "src/curve/curve41417.rs", "src/curve/e_521.rs"]}
{"id": "C66", "title": "No repair of C57 can be left out", "statement": "For each of the ten changes listed for C57 (subtraction, negation, normalize, the two products, multiplication by a machine integer, unpack of Mod_e383_187, the neutral element, init, triple, the ladder) the code with the other nine changes and this place as in the repository is wrong on some input that the public interface can make, and the code with all ten is right on it: subtraction, negation and multiplication by a machine integer in all nine types, normalize in the eight with c > 1, the others in the types named there and on all five curves.", "quantifier": "for every place changed, every field type or curve the place concerns and both build profiles; for init, every previous value of the point", "why_tests_cant": "The variants are not in the repository, and that a place is wrong independently of the others has to hold whatever the rest of the code is replaced by; for the points it is deduced from equivalences for all representations over the repaired arithmetic.", "anchors": ["src/field/mod_e221_3.rs:356", "src/field/mod_e221_3.rs:848", "src/field/mod_e222_117.rs:453", "src/field/mod_e251_9.rs:475", "src/field/mod_e383_187.rs:1112", "src/curve/edwards.rs"]}
{"id": "C67", "title": "Exactly what programs with products by machine integers get", "statement": "C64 with small_mul and negation among the instructions. For all nine field types the machine on integers is extended by an explicit function for the product with an i32 (the product of the integers, plus c times the carry of the left factor, with the three wrong carries of Mod_e521_1, cut off where the topmost word leaves 64 bits), so that: every adaptive program with all instructions, from any representations, gets in release builds exactly what it gets from that machine, gets the same in debug builds or a panic with an overflow, and only if one of its products is marked as unsure by an explicit condition on the two integers; it panics in all builds when the machine does. The condition for a program to be described is a range of the integers, checked by the machine: products with machine integers are not reduced, and multiplying them again without an addition in between may leave the range; programs without such products never do. It holds for the text of the field files.", "quantifier": "for all nine field types, both build profiles, all adaptive programs over elements whose intermediate integers are in the ranges, all byte strings, all i32 arguments and factors, all generators, all initial representations", "why_tests_cant": "The programs are unbounded, each factor has 2^32 values and each element up to 521 bits; what release builds cut off and debug builds panic on depends on both.", "anchors": ["src/field/mod_e221_3.rs", "src/field/mod_e222_117.rs", "src/field/mod_e251_9.rs", "src/field/mod_e255_19.rs", "src/field/mod_e382_105.rs", "src/field/mod_e383_187.rs", "src/field/mod_e414_17.rs", "src/field/mod_e511_187.rs", "src/field/mod_e521_1.rs"]}
{"id": "C68", "title": "The quadratic twists have a large subgroup of prime order", "statement": "For each of the ten curves whose constants are exported, with h and ORDER from C46 and for every element e that is not a square: the twist (e y² = x³ + A x² + x for the Montgomery curves, e x² + y² = 1 + d e x² y² for the Edwards curves) has exactly 2 p + 2 - h · ORDER points, counting those at infinity, and this number is 4 (Curve41417: 8) times a prime above 2^(n - 3). So every point of the twist has, after multiplication by that cofactor, the large prime order or is neutral, and every x (Edwards: every y) is the coordinate of a point of the curve or of the twist: computing with a coordinate alone, or with points nobody checked, never ends in a group without a large prime factor.", "quantifier": "for all ten curves, every non-square e of the field, every point of the twist, every coordinate", "why_tests_cant": "The twists have up to 2^521 points; counting them and the primality of the large factors need a proof.", "anchors": ["README.md:2", "src/field/mod_e221_3.rs:79", "src/field/mod_e222_117.rs:61", "src/field/mod_e222_117.rs:74", "src/field/mod_e251_9.rs:64", "src/field/mod_e251_9.rs:85", "src/field/mod_e255_19.rs:84", "src/field/mod_e382_105.rs:65", "src/field/mod_e382_105.rs:84", "src/field/mod_e383_187.rs:89", "src/field/mod_e383_187.rs:108", "src/field/mod_e414_17.rs:65", "src/field/mod_e414_17.rs:83", "src/field/mod_e511_187.rs:95", "src/field/mod_e521_1.rs:67", "src/field/mod_e521_1.rs:89"]}
{"id": "C69", "title": "How many byte strings stand for a residue", "statement": "For every residue r with 0 ≤ r < p, the number of strings of nbytes() bytes that unpacked reads as r modulo p is 2^(8 nbytes - n) times (2 if r < c, else 1) in eight of the nine types, and (3 if r < 374, else 2) in Mod_e383_187, whose unpack keeps bit 383. Exactly one of the strings is the number r itself; unpacking any of them and packing again gives that one. Hence strings of numbers below p stand for different residues, and comparing or hashing byte strings that were not repacked is unsound in all nine types.", "quantifier": "for all nine field types, every residue, every byte string of the length nbytes(), both build profiles", "why_tests_cant": "The strings are up to 2^528 many; the count is a statement about all of them.", "anchors": ["src/field/mod_e221_3.rs:763", "src/field/mod_e222_117.rs:760", "src/field/mod_e251_9.rs:798", "src/field/mod_e255_19.rs:850", "src/field/mod_e382_105.rs:1029", "src/field/mod_e383_187.rs:1112", "src/field/mod_e414_17.rs:1086", "src/field/mod_e511_187.rs:1380", "src/field/mod_e521_1.rs:1406"]}
{"id": "C70", "title": "How often the code goes wrong", "statement": "For canonical elements (there are p of them): x - (a + b) denotes a wrong residue for exactly (p - c)(p - c - 1)/2 of the p² pairs (a, b), for every x in any representation; so does (a + b) * n in the eight types other than Mod_e521_1, for every n of up to 2^13 in absolute value; (a - b) * m is wrong in Mod_e222_117 and Mod_e251_9 for exactly p(p - 1)/2 of the pairs, for every canonical m other than zero; -a is wrong for p - 1 of the p elements. In contrast normalize of 0 - u is wrong for exactly c - 1 of the 2^n carry-free u, which no random test would ever meet.", "quantifier": "for all nine field types, all representations x, all canonical a, b and m, all n of up to 2^13 (up to 2^31 in some types), both build profiles", "why_tests_cant": "The counts range over up to 2^1042 pairs; the errors of normalize are 18 of 2^255 inputs in Mod_e255_19.", "anchors": ["src/field/mod_e221_3.rs:355", "src/field/mod_e221_3.rs:848", "src/field/mod_e222_117.rs:316", "src/field/mod_e222_117.rs:845", "src/field/mod_e251_9.rs:333", "src/field/mod_e251_9.rs:885", "src/field/mod_e255_19.rs:353", "src/field/mod_e255_19.rs:937", "src/field/mod_e382_105.rs:1148", "src/field/mod_e382_105.rs:343", "src/field/mod_e383_187.rs:1231", "src/field/mod_e383_187.rs:392", "src/field/mod_e414_17.rs:1213", "src/field/mod_e414_17.rs:347", "src/field/mod_e511_187.rs:1545", "src/field/mod_e511_187.rs:395", "src/field/mod_e521_1.rs:1575", "src/field/mod_e521_1.rs:364", "src/field/mod_e{221_3,222_117,251_9,255_19,382_105,383_187,414_17,511_187,521_1}.rs: SubAssign<&Self>::sub_assign, Sub::sub"]}
{"id": "C71", "title": "Random elements are nearly uniform", "statement": "If the generator's answers to gen_range(0, hi) are independent and uniform, then for every number j of runs of rand and every set S of j-tuples of residues the probability that the drawn residues are in S differs from the probability for uniform residues by at most 1 - (N/p)^j, where N is the product of the words of the modulus, and for one set by exactly that. This is at most j/2^21; for Mod_e414_17 one run differs by more than 1/2^23. Each residue is drawn with probability 1/N or never.", "quantifier": "for all nine field types, every number of runs, every set of tuples of residues", "why_tests_cant": "A statement about probabilities of all events over sets of up to 2^521 residues per draw.", "anchors": ["src/field/mod_e221_3.rs:751", "src/field/mod_e222_117.rs:748", "src/field/mod_e251_9.rs:786", "src/field/mod_e255_19.rs:838", "src/field/mod_e382_105.rs:1017", "src/field/mod_e383_187.rs:1100", "src/field/mod_e414_17.rs:1074", "src/field/mod_e511_187.rs:1368", "src/field/mod_e521_1.rs:1394"]}
{"id": "C72", "title": "Random keys are nearly uniform with the repairs", "statement": "With the repairs of C57, scalar_mult of a representation of P by the scalar that rand makes of the generator's answers returns a representation of k P, k being the number drawn. For every point P of the order of the base point (the base point itself, or the public key of another party) and every set T of points: if the scalar is uniform modulo p, the probability that k P is in T differs by at most 1/2^100 from the one for uniform points of the subgroup, although scalars are drawn below p and not below ORDER; and if the answers of the generator are uniform, by at most 1/2^20.", "quantifier": "for all five curves, all points of the order of the base point, all sets of points, all representations and both build profiles (for the code)", "why_tests_cant": "Probabilities of all events over more than 2^219 points.", "anchors": ["src/curve/edwards.rs:106", "src/field/mod_e222_117.rs:748", "src/field/mod_e251_9.rs:786", "src/field/mod_e382_105.rs:1017", "src/field/mod_e414_17.rs:1074", "src/field/mod_e521_1.rs:1394"]}
{"id": "C73", "title": "What the round-trip tests test", "statement": "test_pack_unpack, called with a string of nbytes() bytes, passes if its little-endian integer is below p and fails an assertion otherwise, so that it passes for exactly p of the 2^(8 nbytes()) strings. test_unpack_pack, called with any representation of an element, never panics otherwise, and passes for exactly the elements that normalize makes canonical: had it been called with one of the others, it would have found the defect of C09.", "quantifier": "for all nine field types, all byte strings of the right length, all representations, both build profiles", "why_tests_cant": "A statement about what the tests themselves can find, for all arguments they could be called with.", "anchors": ["src/field/mod_e221_3.rs:1395", "src/field/mod_e221_3.rs:1404", "src/field/mod_e222_117.rs:1428", "src/field/mod_e222_117.rs:1437", "src/field/mod_e251_9.rs:1493", "src/field/mod_e251_9.rs:1502", "src/field/mod_e255_19.rs:1590", "src/field/mod_e255_19.rs:1599", "src/field/mod_e382_105.rs:2036", "src/field/mod_e382_105.rs:2045", "src/field/mod_e383_187.rs:2158", "src/field/mod_e383_187.rs:2167", "src/field/mod_e414_17.rs:2146", "src/field/mod_e414_17.rs:2155", "src/field/mod_e511_187.rs:2783", "src/field/mod_e511_187.rs:2792", "src/field/mod_e521_1.rs:2818", "src/field/mod_e521_1.rs:2827"]}
{"id": "C74", "title": "Protocols with the repaired curves", "statement": "With the repairs of C57 a client that has field elements and points of a curve, makes new ones with the operations of the fields and of edwards.rs, and looks at them (equality, bits, bytes, hexadecimal digits; affine coordinates and equality of points) gets the answers of the same client computing in Z/p and in the group of the curve, and no panic. As an instance, key agreement over byte strings: for all secrets each party accepts the public key of the other, and both return the bytes of x of (a b) B; for any byte strings that are received, the result is the bytes of x of a P if they are the coordinates of a point P of the subgroup of the base point, and otherwise they are rejected, in particular the point (0, -1) of order two. The repaired ladder executes the same statements with the same indices for all scalars and points.", "quantifier": "for all five curves, all clients, all start elements and points, all secrets, all byte strings and both build profiles", "why_tests_cant": "All programs over a field and a group of more than 2^219 elements.", "anchors": ["src/curve/edwards.rs:99", "src/curve/edwards.rs:106", "src/curve/point.rs"]}
{"id": "C75", "title": "Compressed points with the repaired curves", "statement": "With the repairs of C57, points can be sent as the bytes of y and the lowest bit of x: decoding (unpack, subtraction, products, quotient, square root, bit, negation, init) makes the point with this y and sign for any bytes, and rejects the bytes if no point of the curve has this y. Key agreement over compressed points: each party accepts the public key of the other, both return the bytes of x of (a b) B; bytes are rejected if the subgroup of the base point has no point with this y, in particular y = -1 of the point of order two; and with a secret from rand the bytes returned are nearly distributed (distance at most 1/2^20) as those of uniform points of the subgroup. A point is determined by its compressed form.", "quantifier": "for all five curves, all byte strings and signs, all secrets, all points of the order of the base point, all sets of results and both build profiles", "why_tests_cant": "All encodings and secrets, more than 2^219 of them; probabilities of all events.", "anchors": ["src/curve/point.rs:33", "src/curve/edwards.rs:99", "src/curve/edwards.rs:106", "src/field/mod_e222_117.rs:748", "src/field/mod_e251_9.rs:786", "src/field/mod_e382_105.rs:1017", "src/field/mod_e414_17.rs:1074", "src/field/mod_e521_1.rs:1394"]}
{"id": "C76", "title": "Calculating with scalars: when the multiples agree", "statement": "scalar_mult takes its scalar from the field of the coordinates, whose modulus p is not a multiple of ORDER. Therefore, even with the repairs of C57, for every point P of the order of the base point and all scalars a and b: (a + b) P = a P + b P exactly when the numbers a and b add up to less than p; (a - b) P = a P - b P exactly when b is not larger than a; (-a) P = -(a P) only for a = 0; (a b) P = a (b P) exactly when ORDER divides the quotient of the product by p, which for a factor up to ORDER means that the product is less than p; a.inverted() undoes the multiplication by a (a up to ORDER) only for a = 1; and the verification equation s P = R + e A of Schnorr signatures with s = r + e a holds exactly when r + e a is less than p, so that for a random nonce and challenge an honest signature is accepted with probability at most 1/a + 1/p.", "quantifier": "for all five curves, all points of the order of the base point and their representations, all scalars, both build profiles", "why_tests_cant": "All pairs of scalars; tests with small scalars, which do not exceed p, all succeed.", "anchors": ["src/curve/point.rs:6", "src/curve/point.rs:15", "src/curve/edwards.rs:7", "src/curve/edwards.rs:106", "src/curve/group.rs:7"]}
{"id": "C77", "title": "A repaired generator of random elements", "statement": "If rand draws each word below the power of two of its width instead of below the word of the modulus, and normalizes (nothing else being changed), then it returns canonical elements only and every canonical element for some answers of the generator; for uniform answers each of the c smallest residues has the probability 2/2^n and each other residue 1/2^n; no event of j draws differs by more than j c/2^n (at most j/2^215) from what it is for uniform residues; and, with the repairs of C57, public keys made from such a scalar and a point of the order of the base point are distributed as uniform points of the subgroup up to 1/2^99.", "quantifier": "for all nine fields, all answers of the generator, all canonical elements, all numbers of draws and all events; for the keys all five curves, all points of the order of the base point and all sets of points; both build profiles", "why_tests_cant": "Probabilities over more than 2^219 cases; a missing residue or a bias of 1/2^21 is not seen in samples.", "anchors": ["src/field/mod_e221_3.rs:751", "src/field/mod_e222_117.rs:748", "src/field/mod_e251_9.rs:786", "src/field/mod_e255_19.rs:838", "src/field/mod_e382_105.rs:1017", "src/field/mod_e383_187.rs:1100", "src/field/mod_e414_17.rs:1074", "src/field/mod_e511_187.rs:1368", "src/field/mod_e521_1.rs:1394"]}
{"id": "C78", "title": "Why the order of received points must be checked", "statement": "With the repairs of C57, a party that multiplies its secret with any point of the curve that it receives (the curve equation is checked, the order is not) answers with the coordinates of the multiple; the answers of two secrets to a point are equal exactly if the secrets are congruent modulo the order of that point. So there is a point whose answer tells the secret modulo the cofactor; the point (1, 0) of order four is answered by (0, 1), (1, 0), (0, -1) or (-1, 0) depending on the two lowest bits of the secret. If the secret is a multiple of the cofactor all answers are points of the subgroup of the base point, points of small order are answered by the neutral element, and answers depend on the secret modulo ORDER only.", "quantifier": "for all five curves, all secrets, all points of the curve and both build profiles", "why_tests_cant": "All points and secrets; that nothing but the residue is told is a statement about all pairs of secrets.", "anchors": ["src/curve/edwards.rs:99", "src/curve/edwards.rs:106", "src/curve/point.rs:15", "src/curve/group.rs:7"]}
{"id": "C79", "title": "Key agreement on the Montgomery curves with the field types as they are", "statement": "The text of the field files is enough for X25519 (RFC 7748) and the same program on the other four Montgomery curves whose constants are exported. A client that runs the ladder on first coordinates and normalizes every new element returns the first coordinate of s P, in all builds, for every scalar s and every coordinate it receives, of a point P of the curve or of its quadratic twist (every byte string is one or the other); two clients get the same secret from each other's messages; for scalars divisible by eight and not by the large prime the result is zero exactly if 8 P = 0. A client that does not normalize returns a wrong coordinate for the exported base points and small scalars.", "quantifier": "for the five Montgomery curves, all scalars of any length, all byte strings the field type unpacks (in Mod_e383_187: below 2^383, C12), all points and all builds", "why_tests_cant": "About 2^255 coordinates and scalars of any length; the repository has no code for these curves, so that no test there exercises the field types in this way.", "anchors": ["src/curve/curve25519.rs", "src/curve/m_221.rs", "src/curve/m_383.rs", "src/curve/curve383187.rs", "src/curve/m_511.rs", "src/field/mod_e255_19.rs", "src/field/mod_e221_3.rs", "src/field/mod_e383_187.rs", "src/field/mod_e511_187.rs"]}
{"id": "C80", "title": "Key agreement on the Montgomery curves does the same for all secrets", "statement": "Run a client of a field type with the record of C56, to which the number of every register it reads is added. Two clients that give the same instructions on the same registers whatever the answers they get (the bytes they read but not their number, the integers of small_add and small_sub, the bits of selections with masks, the answers of random generators and the final results may differ) have the same record in release builds, and both succeed or fail in the same way; in debug builds one record may end early with an overflow, and if both succeed the records are equal. The program of C79, which uses the bits of the scalar in selections only, is such a client: all its runs with scalars of the same length and received strings of the same length have the same record, in all builds. A client that chooses a register by a secret bit has different records.", "quantifier": "for every program of the modelled subset of Rust, all clients (trees with a branch for every answer), all pairs of them that agree up to secrets, both build profiles; for the key agreement all scalars, all received strings the field type unpacks and the five Montgomery curves", "why_tests_cant": "A statement about all pairs of executions of arbitrary clients; measuring a few runs says nothing about the others.", "anchors": ["src/field/mod_e255_19.rs", "src/field/mod_e221_3.rs", "src/field/mod_e383_187.rs", "src/field/mod_e511_187.rs", "src/field/prime_field.rs"]}
{"id": "C81", "title": "Key agreement on the Edwards curves with the field types as they are", "statement": "The scalar multiplication of edwards.rs does not compute multiples (C31) and cannot be used for key agreement (C63), but the text of the field files is enough on all five Edwards curves, Curve1174 included, whose field has a square root that is wrong for some normalized elements (C18) and no proof for its inversion (C15). A client that uses additions, subtractions, products, squares and selections only, and normalizes every new element, does the following in all builds: it accepts two byte strings exactly if they are the coordinates of a point of the subgroup of the base point, and returns the coordinates of the multiple of this point by the scalar; everything else (strings that are no point of the curve, points with a component of small order) is rejected. Two clients make public keys of the exported base point and get the same secret from each other's; two scalars have the same result with a point other than the neutral one exactly if they are congruent modulo the order. The record of C80 is the same for all scalars of a length and all strings received, accepted or not.", "quantifier": "for the five Edwards curves, all scalars of any length, all byte strings that are long enough, all pairs of them and all builds", "why_tests_cant": "About 2^220 to 2^519 points and scalars of any length; that exactly the points of the subgroup are accepted, and the equality of the records, are statements about all strings.", "anchors": ["src/curve/e_222.rs", "src/curve/curve1174.rs", "src/curve/e_382.rs", "src/curve/curve41417.rs", "src/curve/e_521.rs", "src/field/mod_e222_117.rs", "src/field/mod_e251_9.rs", "src/field/mod_e382_105.rs", "src/field/mod_e414_17.rs", "src/field/mod_e521_1.rs"]}
{"id": "C82", "title": "Signatures on the Edwards curves with the field types as they are", "statement": "The text of the field files is enough to test Schnorr signatures on all five Edwards curves, although edwards.rs is not. A client that normalizes every new element answers for all byte strings s (response), h (challenge), A (public key) and R (commitment), in all builds, and accepts exactly if A and R are the coordinates of points of the subgroup of the base point with s B = R + h A. If A and R are the multiples of the exported base point by a and r that the program of C81 returns, the responses accepted are those with s = r + h a modulo the order, whatever the challenge. Two responses accepted for challenges that differ modulo the order, with the same key and commitment, tell the secret: the key has one, and it is (s - s') / (h - h') modulo the order.", "quantifier": "for the five Edwards curves, all secrets, nonces, responses and challenges of any length, all byte strings that are long enough as key and commitment, and all builds", "why_tests_cant": "About 2^219 or more keys, commitments, responses and challenges; that nothing else is accepted is a statement about all strings, and a test of the repository for signatures does not exist.", "anchors": ["src/curve/e_222.rs", "src/curve/curve1174.rs", "src/curve/e_382.rs", "src/curve/curve41417.rs", "src/curve/e_521.rs", "src/field/mod_e222_117.rs", "src/field/mod_e251_9.rs", "src/field/mod_e382_105.rs", "src/field/mod_e414_17.rs", "src/field/mod_e521_1.rs"]}
{"id": "C83", "title": "Compressed points with the field types as they are", "statement": "Key agreement as in C81 in which points are sent as the bytes of y and the lowest bit of x. A client of the text of the field files that normalizes every new element, and computes quotient and square root of the decoding as powers (sqrt of Mod_e251_9 is wrong for some canonical elements, C18), does the following in all builds: if the subgroup of the base point has a point with this y and sign, it returns the compressed multiple of it by the scalar; if it has no point with this y, the string is rejected. Two clients make public keys of the base point and get the same secret from each other's; two scalars have the same result with a point other than the neutral one exactly if they are congruent modulo the order. The record of C80 is the same for all scalars of a length, all strings and signs received, accepted or not.", "quantifier": "for the five Edwards curves, all scalars of any length, all byte strings that are long enough, both signs, all pairs of them and all builds", "why_tests_cant": "About 2^220 to 2^519 encodings and scalars of any length; that exactly the encodings of the subgroup are accepted, and the equality of the records, are statements about all strings.", "anchors": ["src/curve/point.rs:33", "src/curve/e_222.rs", "src/curve/curve1174.rs", "src/curve/e_382.rs", "src/curve/curve41417.rs", "src/curve/e_521.rs", "src/field/mod_e222_117.rs", "src/field/mod_e251_9.rs", "src/field/mod_e382_105.rs", "src/field/mod_e414_17.rs", "src/field/mod_e521_1.rs"]}
{"id": "C84", "title": "How often the exponentiations of Mod_e251_9 can be wrong", "statement": "inverted, legendre, sqrt and the division of normalized elements by a normalized element have the results that their names say in all builds, for every normalized operand in eight of the nine types. In Mod_e251_9, where * is wrong for products of 2^504 or more (C04) and sqrt is wrong for at least one normalized element (C18), the normalized elements for which any of the four has a wrong result are less than one in 2^13 of all, and so are those among the elements that rand can return, each with the same probability (C48). The same bound holds for the residues that have any representation below 2^252 + 2^228, the range of the results of * and square, with a wrong result. Hence inversion of a fixed element by way of the inverse of its normalized product with a factor, multiplied by the factor, is right except for less than one in 2^13 of the factors, whatever the element.", "quantifier": "for all nine types, all normalized operands, all factors and all builds; the bound is on the number of exceptions among all 2^251 - 9 normalized elements", "why_tests_cant": "A test of random elements sees a fraction of 2^-13 or less by chance only, and can not bound it; the number of exceptions among about 2^251 elements is a statement about all of them.", "anchors": ["src/field/mod_e251_9.rs:1253", "src/field/mod_e251_9.rs:1282", "src/field/mod_e251_9.rs:1303"]}
{"id": "C85", "title": "Clients that use the exponentiations of Mod_e251_9", "statement": "C53 and C59 exclude inverted, legendre, sqrt and / from the clients of Mod_e251_9. There is a set of less than one in 2^13 residues, empty for the other eight types, with which they need not: every client of the text that normalizes every new element and uses any instructions returns in all builds the same result, and it is the one it gets in Z/p, except that an instruction that raises an element of the set to a power may have returned any element; everything it does before and after is right. For Mod_e251_9 the set can not be empty. A client that decodes compressed points (y and the lowest bit of x) with / and sqrt of the field type and checks the result therefore never returns anything but the x of the point of the curve with this y and sign, whatever it receives; on four Edwards curves it finds all points, on Curve1174 those of all y but less than one in 2^11, and the base point.", "quantifier": "for all nine types, all clients (trees with a branch for every answer) that normalize, both build profiles; for the decoding the five Edwards curves, all byte strings that are long enough and both signs", "why_tests_cant": "The clients are unbounded programs with a branch for every answer, and the exceptional residues are too rare to be met by tests and too many to be listed.", "anchors": ["src/field/mod_e251_9.rs:1253", "src/field/mod_e251_9.rs:1282", "src/field/mod_e251_9.rs:1303", "src/field/mod_e251_9.rs:304"]}
{"id": "C86", "title": "Compressed points of Curve1174 with random factors", "statement": "The client of C85 that decodes compressed points with / and sqrt of the field type misses a point of Curve1174, in all builds and whenever it is asked, because sqrt of a canonical quadratic residue is wrong (C18). A client that multiplies the operands of / and sqrt by a factor, takes the factor out again, checks the result and tries the next factor if the check fails, never returns anything but the x of the point of the curve with this y and sign, whatever it receives and whatever the factors; and for every y, not only for most, less than one in 2^10 factors are bad: the client finds all points with this y and rejects the strings that belong to no point if one of its factors is not bad, so that at most one in 2^(10 k) of the tuples of k factors is bad for y; if the k factors are drawn with rand of the field type and the answers of the generator are independent and uniform, the probability is at most 1/2^(9 k). The point missed without a factor is found with one.", "quantifier": "for all five Edwards curves, all byte strings that are long enough, both signs, all lists of factors; for all y and all numbers of factors; both build profiles", "why_tests_cant": "The missed points are too rare to be met by tests; that no y is bad for many factors is a statement about all pairs of residues.", "anchors": ["src/field/mod_e251_9.rs:1303", "src/field/mod_e251_9.rs:304", "src/field/mod_e251_9.rs:1253", "src/field/mod_e251_9.rs:785"]}
{"id": "C87", "title": "Compressed points that rely on legendre", "statement": "The comments in src/field/prime_field.rs say that legendre returns 1 if a square root exists and that sqrt has a meaning if legendre returns 1. A client that decodes compressed points as they suggest (it divides, returns the root with the wanted sign if legendre returns 1, 0 if it returns 0, and rejects the string otherwise, without squaring the root) is right for all y on the four curves over other fields, and on Curve1174 for all but less than one in 2^11 of the y. But it is not right for all y of Curve1174: there is a point from whose y it makes, for both signs and in all builds, an x with which it is not a point of the curve, because legendre is 1 and sqrt is wrong. A client that squares the root (C85) never does this.", "quantifier": "for all five Edwards curves, all y, both signs and both build profiles", "why_tests_cant": "The y for which the result is off the curve are too rare to be met by tests, and a client without the check cannot see it.", "anchors": ["src/field/prime_field.rs:85", "src/field/mod_e251_9.rs:1281", "src/field/mod_e251_9.rs:1303", "src/field/mod_e251_9.rs:304"]}
{"id": "C88", "title": "Random points of the curves", "statement": "A client draws y with rand of the field type and a sign, computes x with / and sqrt of the field type, checks it, and returns the bytes of x and y, or nothing. Whatever the generator answers, it returns in all builds the same, and never anything but the point of the curve with this y and sign; a point whose y is drawn with its sign is returned, on Curve1174 if y is not one of less than p / 2^11 exceptions. If the answers of the generator and the sign are independent and uniform, k draws find nothing with probability at most (1/2 + 1/2^10)^k, and given that a point is found, the probability that it is in a set T of points differs from the share of T in all points of the curve by at most 1/2^18 on the four curves over other fields and at most 1/2^8 on Curve1174.", "quantifier": "for all five Edwards curves, all answers of the generator, both signs, all sets of points and all numbers of draws; both build profiles", "why_tests_cant": "Statements about the distribution need the number of points of the curve, the set of residues that rand can draw, and a count of the wrong results of sqrt and /.", "anchors": ["src/field/mod_e251_9.rs:785", "src/field/mod_e251_9.rs:1303", "src/field/mod_e251_9.rs:304", "src/field/mod_e222_117.rs:747"]}
{"id": "C89", "title": "Elligator 2 on the Montgomery curves", "statement": "The map Elligator 2 (RFC 9380, section 6.7.1, with the non-square 2) as a client of the field types, with /, legendre, the selection with masks, and sqrt: whatever byte string it receives, it returns in all builds the same, namely the first candidate x = -A / (1 + 2 r^2) with an odd second coordinate (or zero) if x^3 + A x^2 + x is a square, and otherwise -A - x with an even one; the result is always a point of the curve. Two byte strings give the same point just if they stand for the same residue or for opposite ones, and the client reaches exactly (p + 1) / 2 points.", "quantifier": "for the five Montgomery curves, all byte strings that are long enough (and do not set the bit above the modulus in Mod_e383_187), both build profiles", "why_tests_cant": "That no input leads off the curve, that no two inputs collide and the number of points reached are statements about all residues.", "anchors": ["src/field/mod_e255_19.rs:1369", "src/field/prime_field.rs:85", "src/field/mod_e255_19.rs:1391"]}
{"id": "C90", "title": "The inverse of Elligator 2", "statement": "The inverse of the map of C89 as a client of the field types, with /, legendre, sqrt and comparisons: from every point that the map reaches, it comes back to the even one of the residue and its opposite. For any two byte strings taken as coordinates it returns in all builds the same: an even residue such that exactly this residue and its opposite are mapped to the coordinates, or nothing, if no byte string is mapped there. What is off the curve is rejected; a point (u, v) of the curve is rejected just if -2 u (u + A) is not a square, except that points with u = -A are rejected if v is even, and that (0, 0) is rejected on all curves but Curve25519.", "quantifier": "for the five Montgomery curves, all pairs of byte strings that are long enough (and do not set the bit above the modulus in Mod_e383_187), both build profiles", "why_tests_cant": "That no point is accepted wrongly and none is lost are statements about all points and all residues; the exceptional points are never met by chance.", "anchors": ["src/field/mod_e255_19.rs:1369", "src/field/prime_field.rs:85", "src/field/mod_e255_19.rs:1391"]}
{"id": "C91", "title": "Elligator 2 on the Edwards curves", "statement": "Elligator 2 with the non-square -1 on the Montgomery form of the Edwards curves (A = 2 (1 + d) / (1 - d)), followed by y = (u - 1) / (u + 1) and the decoding of y, as a client of the field types with /, legendre and sqrt: whatever byte string it receives, it returns on the curves other than Curve1174 the same in all builds, namely a point of the curve, with u = -A / (1 - r^2) and an odd x (or zero) if (1 - d) (u^3 + A u^2 + u) is a square, and otherwise with -A - u in place of u and an even x. Two byte strings that do not stand for 1 or -1 give the same point just if they stand for the same residue or for opposite ones; these reach (p - 1) / 2 points. Strings that stand for 1 or -1, where the code divides by zero, give the point (0, -1) of order two. On Curve1174, whose field type has a wrong exponentiation, the client returns this point for all residues but less than one in 2^8.", "quantifier": "for the five Edwards curves, all byte strings that are long enough, both build profiles", "why_tests_cant": "That no input leads off the curve, that no two inputs collide and the number of points reached are statements about all residues; the divisions by zero are never met by chance.", "anchors": ["src/field/mod_e222_117.rs:747", "src/field/prime_field.rs:85", "src/curve/edwards.rs:1"]}
{"id": "C92", "title": "Inverse of Elligator 2 on the Edwards curves", "statement": "The inverse of the map of C91, as a client of the field types that receives two coordinates: from the point that a residue other than 0, 1 and -1 is mapped to, it returns the even one of the residue and its opposite. Whatever two byte strings it receives, it gives the same answer in all builds: either a residue that the map takes to these coordinates (even, or 1 for the point (0, -1)), or nothing, and then no byte string at all is mapped there. It returns nothing for coordinates off the curve and for the neutral element.", "quantifier": "for the four Edwards curves other than Curve1174, all byte strings that are long enough, both build profiles", "why_tests_cant": "That a rejected point has no preimage is a statement about all residues; the exceptional points (x = 0, y = 1, y = -1, a zero denominator) are never met by chance.", "anchors": ["src/field/mod_e222_117.rs:747", "src/field/prime_field.rs:85", "src/curve/edwards.rs:1"]}
{"id": "C93", "title": "Primitive operations of the text are those of machine words", "statement": "The operations on machine types that the interpreter of the Rust text uses agree with those of the bit vectors of the Lean library, an independent definition of two's complement words: +, -, * on i64 and usize give the sum, difference and product of the 64-bit words, except that a debug build panics just if there is a signed or unsigned overflow; &, | and == act on the words; << and >> are the left shift and the arithmetic right shift, with a panic in debug builds and a distance reduced modulo 64 in release builds if the distance is 64 or more; / and % of usize are unsigned division and remainder; and the conversions between bool, u8, i8, i16, i32 and i64 keep the low bits or extend with zeros or the sign.", "quantifier": "for all words of 8, 16, 32 and 64 bits, all shift distances, both build profiles", "why_tests_cant": "An operation has 2^128 pairs of operands, and all other properties rest on these operations; a model with a wrong rule for negative numbers or for overflows would agree with the code on most operands.", "anchors": ["src/field/mod_e222_117.rs:539", "src/field/mod_e382_105.rs:1", "src/curve/edwards.rs:1"]}
{"id": "C94", "title": "The reader finds the words, numbers and symbols that were written", "statement": "The first half of the reader of the sources, which cuts lines into tokens, inverts writing: in lines written from identifiers, keywords, numbers in decimal, hexadecimal (small or capital letters) or binary notation with any number of digits, leading zeros and a type suffix, strings without escapes, and the 34 symbols of the sources, each followed by a space, it finds just these elements in their order, with the value of every number and the name of every word. A comment at the end of a line is not read, whatever it says. Lines that differ in a token are different lines.", "quantifier": "for all lists of lines of all lengths, all identifiers, all numbers, all comments", "why_tests_cant": "There are infinitely many lines; a reader that loses a digit of long numbers, or takes the letters of a suffix for digits, agrees with the right one on most lines, and all other properties of the text rest on the reader.", "anchors": ["src/field/mod_e222_117.rs:539", "src/field/mod_e521_1.rs:1", "src/curve/edwards.rs:1"]}
{"id": "C95", "title": "The reader finds the expression that was written", "statement": "The second half of the reader of the sources inverts writing on expressions: write an expression made of literals (with or without a type), variables, calls with paths, method calls, field access, indexing, arrays of both kinds, try!, the prefix operators & * !, conversions with as, and the binary operators, with brackets only where the table of precedences of the Rust reference needs them (method calls, field access and indexing; prefix operators; as; * / %; + -; << >>; &; |; ==; operators of one line associate to the left). From these tokens, followed by anything that cannot continue the expression, the reader makes just this expression and leaves what follows, at every depth of recursion that is large enough. So expressions written with the same tokens are the same.", "quantifier": "for all expressions of these kinds of any size, all that may follow", "why_tests_cant": "There are infinitely many expressions; a wrong precedence or a wrong association changes only some nestings of operators, and the sums of the limb code mix six of the operators.", "anchors": ["src/field/mod_e222_117.rs:539", "src/field/mod_e521_1.rs:1", "src/curve/edwards.rs:1"]}
