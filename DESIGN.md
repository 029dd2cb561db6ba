# Formal model of emc2/safecurves-rust

This file says what is modelled, how each property of `properties.jsonl` is proved, what is
trusted, and where the code disagrees with a property.  `MANIFEST.json` lists the exact
theorem names.

## 1. What is modelled

| Layer | Repo source | Lean module |
|---|---|---|
| 64-bit machine integers; two build profiles (debug: overflow panics, release: wraps) | language semantics | `Model/Machine.lean` |
| straight-line limb code: abstract syntax, evaluator, and a parser of the *verbatim Rust text* of a function body | `add_assign`, `sub_assign`, `mul_assign`, `square`, `small_{add,sub,mul}_assign`, `pack_normalized`, `unpack` of the nine `src/field/mod_e*.rs` | `Model/{Tree,Ast,Parse}.lean` |
| exponentiation chains with counted loops, again parsed from verbatim text | `invert`, `legendre`, `quartic_legendre`, `sqrt` | `Model/Chain.lean` |
| the nine concrete fields: Rust text, constants, sizes | `src/field/mod_e*.rs` | `Model/Fields/E*.lean` |
| wrapper code common to the nine files: normalize, comparison, pack, bits, masks, rand, formatting, division, negation | same files, traits in `src/normalize.rs`, `src/pack.rs`, `src/field/prime_field.rs` | `Model/Field.lean` |
| the 49 operator impls per file and their dispatch | same files | `Model/Operators.lean` |
| point formulas and ladder body, parsed from verbatim text | `src/curve/edwards.rs` | `Model/Point.lean`, `Model/Edwards.lean` |
| five curve instances | `src/curve/{e_222,curve1174,e_382,curve41417,e_521}.rs` | `Model/Edwards.lean` |
| constants of the five Montgomery curves | `src/field/mod_e{221_3,255_19,383_187,511_187}.rs` | `Model/Fields/E*.lean`, `Curve/Montgomery.lean` |
| the whole text of the nine field files (and of `edwards.rs` and the curve files): parser of a general Rust subset, interpreter | same files, everything before `#[cfg(test)]` | `Rust/{Syntax,Parse,Eval}.lean`, `Rust/Source/*.lean` |
| a second reader of that text, a total function of the logic | same files | `Rust/Grammar.lean`, `Rust/Read/*.lean` |
| the code with its defects repaired (no code of the repository; used by C57, C58, C63, C66, C72, C74, C75, C76, C77 and C78) | – | `Model/Repaired.lean`, `Model/RepairedRand.lean` |
| a program on first coordinates for the Montgomery curves (no code of the repository; used by C79) | – | `Curve/XZProgram.lean` |
| a program for the Edwards curves in terms of the field types (no code of the repository; used by C81, C82 and C83) | – | `Curve/EdProgram.lean` |
| the same interpreter with a record of control flow, memory accesses and operations | same files | `Rust/Trace.lean` |

Specification vocabulary independent of the code is in `Spec.lean` (field parameters, value of
a word list, shapes of representations, residue classes, byte strings, hex) and at the top of
`Curve/Law.lean` (affine Edwards group over a field).  Properties are in `Props/*.lean`; `Cases/*.lean`
apply each theorem with hypotheses to a case that meets them; the
other directories hold helper lemmas.

The source files occur twice: as the model, on which all properties are proved, and as the full program
text with an interpreter (`Rust/*.lean`).  C54 and C55 prove that the two agree, function by function.

Simplifications (also stated at the definitions):

* An `i64` is an `Int`; every arithmetic operation is checked (debug) or wrapped (release).
* A method with `&mut self` returns the new value; `clone()` of a `Copy` type is the identity.
* A panic is the error value of `Except`; what a caller could observe after unwinding (a
  partially written slice) is not modelled.
* The random generator is an arbitrary function answering each `gen_range(0, hi)` call with a
  number in `[0, hi)`; C71 takes these answers to be uniform.
* Formatting flags of the caller (`{:#x}`, width) are ignored, as the code ignores them.
* The wrapper code is written once.  The nine files contain the same text up to the type name,
  the number of words and the listed constants (compared mechanically); each field module of the
  model supplies those.

Not modelled: the `#[cfg(test)]` modules except their helpers `test_pack_unpack` and `test_unpack_pack` (`Model/Tests.lean`); the empty files `curve25519.rs`, `curve383187.rs`,
`m_383.rs`, `m_511.rs` and the comment-only `m_221.rs`; the trait declarations themselves
(`group.rs`, `point.rs`; no code); the compiler, machine timing, trait resolution beyond the
operator table.

## 2. How the limb code is proved

Every limb function is a straight-line program of additions, subtractions, multiplications,
shifts, masks and disjoint ORs.  `Check/*.lean` is a checker with a soundness theorem:

* an interval analysis shows that no operation overflows (so debug and release agree and nothing
  panics) and bounds every output word;
* a symbolic pass rewrites the weighted sum of the outputs backwards through the program into a
  linear combination of `⌊v / 2^k⌋` atoms and products of variables, and compares coefficients
  modulo `p`, or exactly.

The checker is run by the kernel (`decide +kernel`) on the program of each function; its
soundness theorem quantifies over all inputs in the stated ranges, so the result is a theorem
about all inputs.  The exact form gives the integer returned by every product
(`Field/Value.lean`), from which whole point operations and the whole ladder can be evaluated on
concrete points by the kernel (`Curve/Value.lean`, `Curve/LadderValue.lean`); that evaluation is
used only for counterexamples.

Exponentiation chains are proved by a symbolic run that tracks the exponent of each register
(`Field/Chain*.lean`); the loops are iterated symbolically, and the final exponent is compared
with `p - 2`, `(p - 1) / 2`, `(p + 1) / 4` ….  Primality certificates: Pocklington `N - 1` and
Morrison `N + 1` criteria, both proved in `Prime/Criteria.lean`, and for two of the numbers of C68
the criterion of Goldwasser and Kilian with elliptic curves (`Prime/CurveCriterion.lean`), with the
bound of `2 p + 1` points in place of the one of Hasse.  The Edwards group law is proved
from scratch (`Curve/{Assoc,Law}.lean`); the Montgomery group is Mathlib's elliptic-curve group.

Group orders (C46) need no bound of Hasse type.  A curve over a field of `p` elements has at most
`2 p + 2` points; the base point and an explicit point of order 4 or 8 give the divisor
`h · ORDER`; for the Edwards curves a descent (no point is half of a point of order `h`) excludes
`2 h · ORDER`.

## 3. Properties

"Exact" means that the set of inputs on which the code has the property is characterised by an
equivalence; then the partial theorem cannot be improved.

| Id | What is modelled, how it is proved | Outcome |
|---|---|---|
| C01 | `add_assign`; checker modulo `p`, all carries in both operands | proved |
| C02 | `sub_assign`; checker gives the exact value | code wrong when the right operand has a carry; exact condition, counterexample in all nine types |
| C03 | `neg`; from C01 | code returns an element denoting `a`; exact |
| C04 | `mul_assign`; checker modulo `p` plus the dropped terms | right in seven types; exact domain and counterexamples for `Mod_e222_117`, `Mod_e251_9` |
| C05 | `square`; as C04 | right without restriction; equal to the `*` of the code in eight types, exact condition and counterexample for `Mod_e251_9` |
| C06 | `small_add_assign`, `small_sub_assign`; checker | proved |
| C07 | `small_mul_assign`; checker gives the exact value, `e521_1` separately | code wrong with carries and for large factors; exact condition proved for every `i32` |
| C08 | all of the arithmetic; interval analysis, both profiles | proved |
| C09 | `normalize`; exact values of C06, C07, C02 | exact condition (`Foldable`), counterexample |
| C10 | `normalize_eq`, `normalize_self_eq`; from C09 | proved where C09 holds; exact elsewhere |
| C11 | `pack`, `pack_normalized`, `packed`; checker on the packing code | right exactly where C09 holds |
| C12 | `unpack`, `unpacked`; checker | eight types proved; `Mod_e383_187` keeps bit 383 (exact) |
| C13 | both; from C11, C12 | pack ∘ unpack proved; unpack ∘ pack right exactly where C09 holds, and by accident for some values in `Mod_e383_187` |
| C14 | index panics of both, untouched bytes behind the encoding | proved |
| C15–C18 | chains `invert`, `legendre`, `quartic_legendre`, `sqrt`, and division; symbolic exponents, Fermat, Euler's criterion | seven types proved for all operands; `Mod_e222_117` for non-negative ones; `Mod_e251_9` for runs whose products stay in the domain of C04; counterexamples for negative operands |
| C19 | all exported constants against published values | proved except the doc comment of `E222_ORDER`, which gives the order of M-221 |
| C20 | `bit`, `bit_normalized`, `nbits` | right exactly where C09 holds |
| C21 | `filled`, `fill`, masks with AND/OR | proved |
| C22 | `LowerHex`, `UpperHex` | right exactly where C09 holds |
| C23 | table of the 49 impls, dispatch | proved |
| C24 | `rand` | canonicity proved; coverage false, exact set of results |
| C25 | any expression over the API, induction on the expression | unconditional without `-` in seven types, for careful computations (`Ex.Careful`) in all nine; else if a decidable interval analysis accepts; full statement false |
| C26–C28, C35 | `add_assign`, `double`, `triple`; formulas over any correct scalar type, transfer to the field types on runs inside the domains of C02/C04 | formulas of add and double right, triple wrong (exact); on the real field types the sum, double and triple of the base point are off the curve; on E-382, Curve41417 and E-521 exact coordinates of all sums and doubles and an exact condition for right ones (`Props/PointsExact.lean`); `p + q` and `q + p` can be different points, only because `t₁ d t₂` is computed from the left (`Props/Commute.lean`) |
| C29, C30 | `zero`, `init` | both set `t = 1`; exact conditions, counterexamples |
| C31 | ladder, parsed body, loop over bits | computes `(2^nbits - 1 - k) P`; counterexamples |
| C32 | trace of executed statements | proved |
| C33, C34, C39 | constants `d`, base points, orders; non-squareness by Euler's criterion, multiples by kernel evaluation in projective coordinates proved against the group law, primality certificates | proved |
| C36 | nine moduli; certificates | proved |
| C37 | `normalize_bitand` … | right exactly where C09 holds for both operands (equivalence) |
| C38 | `Debug` | proved |
| C40 | Montgomery constants; projective arithmetic proved against Mathlib's group | proved |
| C41 | exact value of products; checker with modulus 0 | proved except that in `Mod_e251_9` squares of values ≥ `2^252` differ from products (exact) |
| C42 | expressions of C25 rewritten to normalize after every step; the interval analysis of C25 always accepts them | proved in eight types; in `Mod_e251_9` proved without the exponentiations, false with `sqrt` |
| C43 | `legendre` then `normalize`; C17, C09, uniqueness of canonical words | as C17 |
| C44 | `quartic_legendre`; exponent, Euler's criterion twice | proved |
| C45 | `sqrt` on squares and non-squares; exponents; an explicit root function used by C25 and C42 | as C18; false in `Mod_e251_9` even for canonical operands |
| C46 | orders of the ten groups; see the end of section 2 | proved |
| C47 | generic point code over the field types with `normalize` after each operation; C26, C27, C31 over any correct scalar type, C09 | proved |
| C48 | `rand`; bijection with the answers of the generator, from C24 | proved |
| C49 | structure of the groups; from C46 | proved |
| C50 | `*_ORDER` and moduli; the order of `p` divides `gcd(ORDER - 1, (2^16)!)` if it is at most `2^16` | proved |
| C51 | all operations of `PrimeField`; `small_mul` with its wrapping top word (`SmallMulWrap`), graded bounds on intermediate results | code panics in debug builds (witnesses in every type); proved for bounded factors reduced before reuse |
| C52 | all limb programs, chains, point formulas and the ladder; a check that only defined slots are read (`Check/Total`) | proved |
| C53 | every operation, with observations (`normalize_eq`, `bit`, `packed`, hex) that later steps may depend on | partial: seven types without `-`; all types when every new element is normalized, or when the client is accepted by the interval analysis of C25 run along it (`Props/ClientBounds.lean`), with `-`; negation proved with `lazyClient` |
| C54 | the whole text of the nine field files, interpreted (`Rust/*.lean`); one adequacy theorem per function, the limb code by a kernel check that the parsed bodies agree statement by statement | proved |
| C55 | the same for `edwards.rs` and the five curve files; the ladder by induction over the loop | proved |
| C56 | the interpreter with a record of control flow, memory accesses and operations (`Rust/Trace.lean`), and a relation between runs that differ in secrets only (`Rust/Secret.lean`), for every program; the reason it holds: nothing in the subset branches on a value, and no cast produces a `usize`, the only type of indices and loop bounds; what each construct adds to the record is stated for all expressions (`Props/TextRecord.lean`), so that nothing can be left out of it unnoticed | proved |
| C57 | the functions with the edits of `Model/Repaired.lean`; the repaired limb code by the same checkers, the ladder by complementing the bits of the scalar | proved (about the edited program) |
| C58 | the same functions; the chains over the repaired `*` and `-` by the symbolic runs of C15 to C18, clients as in C53 | proved (about the edited program) |
| C59 | computations and clients run by the interpreter on the program text (`Props/TextClients.lean`); from C54 with C08, C51, C52, C53 | proved; the claim without the exceptions of C53 is refuted |
| C60 | the text of the 15 files as lists of lines; the reader of `Rust/Grammar.lean` run by the kernel on all of it (`Rust/Read/*.lean`), the layout lemmas for all texts (`Rust/Layout.lean`) | proved |
| C61 | scripts: arbitrary programs calling any functions of the text, with a log of the records of C56 and of every value looked at (`Props/Scripts.lean`); by induction over the script from `Rust/Secret.lean` | proved |
| C62 | clients of a curve: as C53 and C59 with a second set of registers for points; by induction over the client from C08, C26, C32, C54, C55; erasing the points gives a client of the field (`Props/PointClients.lean`) | proved |
| C63 | key agreement; counterexample by running the ladder four times on integers in the kernel (all five curves); over correct scalar types from C31, for the repaired code from C57 (`Props/Agreement.lean`) | partial: the code violates it |
| C64 | programs over elements on the code and on an explicit machine on integers (`Field/ChainInt.lean`, `Props/Integers.lean`); no size conditions, wrong answers and panics included | proved |
| C65 | the same for points: the coordinates of everything a program makes as explicit functions of integers (`Curve/PointInt.lean`, `Props/PointIntegers.lean`), on all five curves; exact conditions for right sums, doubles, triples and multiples | proved |
| C66 | each of the ten changes of C57 is needed: with the other nine and without this one, a wrong result on an explicit input (`Props/RepairsNeeded.lean`) | proved |
| C67 | C64 with `small_mul` and `neg`: exactly what release builds answer, and when debug builds may panic with an overflow (`Props/FullClients.lean`) | proved |
| C68 | quadratic twists of the ten curves: a curve and its twist have two points for each `x` together (`Curve/Twist.lean`), so the orders follow from C46; their large factors are prime (`Prime/TwistCerts.lean`, `Props/Twists.lean`) | proved |
| C69 | how many byte strings are read as a given residue; one of them is the number below `p`, and packing turns the others into it (`Props/Encodings.lean`) | proved |
| C70 | exact numbers of inputs for which `x - (a + b)`, `(a + b) * n`, `(a - b) * m`, `-a` and `normalize` go wrong (`Props/Frequency.lean`) | proved |
| C71 | distance of the results of `rand` from uniform residues, for uniform answers of the generator (`Props/RandUniform.lean`) | proved |
| C72 | random scalars times a point of the subgroup, with the repairs of C57: distance from uniform points (`Props/RandKeys.lean`) | proved |
| C73 | for which arguments the round-trip helpers of the test modules pass (`Model/Tests.lean`, `Props/TestHelpers.lean`) | proved |
| C74 | clients with elements and points of the repaired curves; key agreement over bytes with the checks of what is received (`Curve/RepairedClients.lean`, `Props/RepairedCurve.lean`; the checks, affine coordinates and comparison of points are ours, edwards.rs has none) | proved |
| C75 | compressed points with the repaired curves: decoding of any bytes, key agreement, random secrets (`Props/Compression.lean`; the encoding is ours, the repository has a trait `Compressed` without implementations) | proved |
| C76 | programs that calculate with scalars and compare multiples, as clients of C74; reduction modulo `p` changes a multiple of a point of order `ORDER` exactly when `ORDER` does not divide the quotient (`Props/ScalarNumbers.lean`) | proved |
| C77 | `rand` with bounds that are powers of two and a normalization; bijection of the answers with the numbers below `2 ^ n` (`Props/RandRepaired.lean`) | proved (about the edited program) |
| C78 | key agreement without the check of the order, as a client of C74; orders of points from C46 and C49 (`Props/SmallSubgroup.lean`) | proved |
| C79 | X25519 and its like as normalizing clients of the text (C59); formulas for first coordinates on `e y² = x³ + A x² + x` (`Curve/XZ.lean`), the program (`Curve/XZProgram.lean`), the twists of C68 (`Props/MontgomeryLadder.lean`); the first test vector of RFC 7748 is a case | proved |
| C80 | clients (C53, C59) run with the record of C56 and the numbers of the registers they read (`Props/ObliviousClients.lean`); by induction over the client from `Rust/Secret.lean`; the program of C79 is a case, a client that chooses a register by a secret bit a counterexample | proved |
| C81 | key agreement on the Edwards curves as a normalizing client of the text (C59): complete addition in projective coordinates, test of curve and order, inverse as a power (`Curve/EdProgram.lean`); the subgroup by C49, the record by C80 (`Props/EdwardsAgreement.lean`) | proved |
| C82 | test of Schnorr signatures as a normalizing client of the text (C59, `Curve/EdProgram.lean`, `Props/Signatures.lean`); the subgroup by C49; the hash function is any, the challenge is an argument | proved |
| C83 | key agreement over compressed points as a normalizing client of the text (C59, `Curve/EdProgram.lean`, `Props/PackedAgreement.lean`); root and inverse as powers, `p ≡ 3` modulo 4; otherwise as C81 | proved |
| C84 | number of canonical elements with a wrong result in `inverted`, `legendre`, `sqrt` or `/` (`Field/ChainRare.lean`, `Props/Rare.lean`): none in eight types, at least one and less than `p / 2^13` in `Mod_e251_9`; the multiplications of the chains have a power `a^(2^j)` as second operand, and the map to this power is at most two to one | proved |
| C85 | normalizing clients of the text with all instructions (`Props/RareClients.lean`): the answers of `ℤ / p`, with arbitrary results for exponentiations of less than `p / 2^13` residues in `Mod_e251_9` (none in the other types); decoding of compressed points with `/` and `sqrt` (`Props/RarePoints.lean`): never wrong, and complete but for less than `p / 2^11` of the `y` on Curve1174 | proved |
| C86 | decoding of compressed points with `/`, `sqrt` and factors (`Props/BlindPoints.lean`): never wrong; for each `y` complete but for less than `p / 2^10` factors, and with `k` factors drawn with `rand` but for a probability of `1 / 2^(9 k)`; a point of Curve1174 that the decoding without factors misses (kernel evaluation of the chain) | proved |
| C87 | decoding of compressed points that takes the root if `legendre` is 1, as the comments of `PrimeField` suggest (`Props/LegendrePoints.lean`): right on four curves, and on Curve1174 for all `y` but less than `p / 2^11`; a point of Curve1174 from whose `y` it makes an `x` that is not on the curve (kernel evaluation of both chains) | proved |
| C88 | random points: `y` drawn with `rand`, `x` by `/` and `sqrt` with a check, as a normalizing client of the text (`Props/RandPoints.lean`): always on the curve; distance from a uniform point and probability of a rejection, from C46, C71 and C85 by counting pairs of `y` and sign | proved |
| C89 | Elligator 2 on the Montgomery curves as a normalizing client of the text (C59, `Props/Elligator.lean`); on the curve because 2 is not a square and -1 is one; pairs of opposite residues are the fibres | proved |
| C90 | the inverse of Elligator 2 as a normalizing client of the text (C59, `Props/ElligatorInverse.lean`); (0, 0) is the only point of order two because A^2 - 4 is not a square | proved |
| C91 | Elligator 2 on the Edwards curves as a normalizing client of the text (C59, `Props/EdwardsElligator.lean`); u = -1 is impossible because d is not a square; on Curve1174 with the set of C85, by counting the preimages of its elements under the operands of the exponentiations | proved |
| C92 | The inverse of the map of C91 as a normalizing client (`Props/EdwardsUnmap.lean`): a residue is mapped to a point with x not 0 just if its square satisfies a linear equation with coefficients from y, d and the parity of x | proved |
| C93 | The integer operations of the interpreter (`Rust/Eval.lean`, `Model/Machine.lean`) against the library's `BitVec` with its overflow predicates (`Props/Words.lean`) | proved |
| C94 | The tokens of `Rust/Grammar.lean` against an independent writer with the characters and digits of the libraries (`Props/Lexical.lean`); elements without a space between them are not covered | proved |
| C95 | The expressions of `Rust/Grammar.lean` against an independent writer with the precedences of the Rust reference (`Props/Precedence.lean`); by induction on the expression, with one invariant for each line of the table; `T { … }` and `write!` are not covered | proved |

No property of the list is inexpressible in the model.

## 4. Disagreements between code and properties

Each line is a proved negation with a concrete witness.

1. `Neg` adds the modulus, so `-a` denotes `a` (C03).
2. `a - b` folds the carry of `b` with the wrong sign: wrong whenever `b` is outside `[0, 2^n)`,
   for instance `1 - ((-1) + (-1))` (C02).
3. `small_mul` folds the carry of the left operand with factor `C` instead of `C · b`, and lets
   large products overflow into the carry; `e521_1` takes carries at wrong positions (C07).
   In debug builds some `i32` factors panic in five types, and squaring a product with an integer
   panics in all nine (C51).
4. `mul_assign` in `e251_9` drops the bits above 504 of the product, and in `e222_117` the
   highest digit of `c · q`: wrong for negative products and large positive ones (C04; in
   `e251_9` therefore `a * a` and `squared` can differ, C05), hence also `invert`, `legendre`, `sqrt` of `0 - 1` (C15–C18).  In `e251_9` this also reaches
   non-negative operands: `inverted` of the sum of two canonical elements, and `sqrt` of a
   canonical quadratic residue are wrong (`C15_e251_counterexample`,
   `C18_e251_counterexample`), but less than one canonical operand in `2^13` (C84).  The decoding of compressed
   points with `sqrt` therefore misses a point of Curve1174 (C86), and a client that trusts `legendre`
   instead of squaring the root returns an `x` that is not on the curve (C87).
5. `normalize` is wrong for values whose folded carry is negative, e.g. `0 - unpacked(2^n - 1)`
   (C09), hence comparison, packing, bits, hex (C10, C11, C13, C20, C22, C37).
6. `unpack` in `e383_187` does not mask bit 383 (C12).
7. `rand` draws each word strictly below the corresponding word of the modulus: never `p - 1`
   (C24).
8. `EdwardsExtended::zero` and `init` set `t = 1` instead of `x y / z` (C29, C30).
9. `triple` uses `aa - xb` where `aa + xb` is needed (C28).
10. The ladder swaps the roles of 0 and 1 bits: it computes `(2^nbits - 1 - k) P` (C31).
11. Point formulas feed results with carries to `-`, so on the field types sums and doubles of
    the base point leave the curve (C26, C27, C35).
12. The doc comment of `E222_ORDER` states the order of M-221; that of `M511_BASE_Y` says
    "x-coordinate" (C19).

With lines 1 to 6 and 8 to 10 repaired (`Model/Repaired.lean` lists the edits), C02 to C05, C07,
C09 to C13, C15 to C18, C20, C22, C26 to C31, C45, C53 and C63 hold in full (C57, C58, C74); line 11 is a
consequence of line 2.  With line 7 repaired as well (`Model/RepairedRand.lean`) C24 holds in full (C77).

What remains with these repairs is a matter of the interface: scalars are elements of the field of the
coordinates, so that sums, products and inverses of scalars are not those of the multiples (C76).

## 5. Trusted base

* The Lean 4.33.0 kernel.  Every theorem depends on at most the axioms `propext`,
  `Classical.choice` and `Quot.sound` (`#print axioms`); no axioms are added, `sorry`,
  `native_decide` and `bv_decide` are not used.
* Mathlib as installed.
* The reading of the Rust source.  The full text of the nine field files, of `edwards.rs` and of the
  five curve files is in `Rust/Source/*.lean`, read by a reader that is a total function of the logic
  (`Rust/Grammar.lean`; it gives `none` on any construct it does not know) and given meaning by one
  interpreter (`Rust/Eval.lean`, simplifications stated there).  These two are trusted: C60 proves that the
  programs are what the reader finds in the text, so the parser of `Rust/Parse.lean`, which made them at
  elaboration time and was written separately, is not; C54 and C55 prove that the model agrees with the
  programs, including all hand-translated wrapper code and the operator table.  C93 proves that the operations
  of the interpreter on machine types are those of the bit vectors of the Lean library, C94 that the reader finds
  the tokens of every line that is written with spaces between them, C95 that it finds from tokens the
  expression that was written.  The reader drops what is
  listed at the top of `Rust/Grammar.lean` (comments, attributes, `use`, type declarations, generic bounds).
* Evidence for that reading, outside the proofs: `tools/verbatim.py` compares the 15 whole files, the 116
  quoted texts and 79 constants with the sources; `tools/second_reader.py` reads the 116 texts again with
  Python's own parser and finds the same 7257 statements, syntax tree by syntax tree; `tools/common.py`
  checks that the wrapper code of the nine modules is one text with the parameters the model uses;
  `tools/unit_tests.py` translates the repository's own unit tests into programs that run on the model.
  Run in both build profiles for all nine types: every assertion holds.
* Rust integer semantics as stated in `Model/Machine.lean`.

## 6. Seeded bugs

`seeded/LOG.jsonl` lists edits of the model, made in a scratch copy, that mimic realistic bugs.
`first_failures` are the declarations at which the build stops; the modules above them are then not
built, so `property_theorems_depending_on_them` is computed from the dependencies of the unedited
proofs.  A failing helper lemma shows that the proof no longer goes through, not by itself that the
property has become false.
