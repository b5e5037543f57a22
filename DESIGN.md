# Formal model of libff — design

Lean 4.33.0 + Mathlib; sources under `lean/Verif/`, imported from `lean/Verif.lean`.

## 1. Layout

| directory | contents |
|---|---|
| `Verif/Model/*` | executable model of the C++ code, one definition per function, each citing file and lines in `/repo` |
| `Verif/Lemmas/*` | helper lemmas (not part of the claims) |
| `Verif/Props/*` | the property theorems, each with a non-vacuity `example` beside it |
| `Verif/Spec/*` | the small independent specifications (limb value, polynomial value, Edwards law, ...) |

`MANIFEST.json` maps property ids of `properties.jsonl` to exact theorem names.

## 2. Conventions of the model

* A 64-bit limb is `BitVec 64`; a `bigint<n>` is a list of limbs (least significant first) of length `n`;
  its value is `Spec.val`. `mp_limb_t` is 64 bits, `size_t`/`unsigned long` 64 bits, `int` 32 bits (x86-64 Linux).
* Failed `assert`s and C++ exceptions, undefined behaviour and non-termination are distinct outcomes:
  `Outcome α := ok a | abort | ub`, non-termination is "no fuel suffices". Where the code is total the
  function returns plain values. `NDEBUG` off is assumed only where it is said so; theorems show that
  assertions do not fire instead of using them.
* GMP's `mpn_*` functions are outside the repository. They are modelled by executable limb-list
  functions that satisfy GMP's documented contract (`mpn_add_n`, `mpn_sub_n`, `mpn_mul_n`, `mpn_addmul_1`,
  `mpn_add_1`, `mpn_cmp`, ...) and `mpn_gcdext` by *any* function that meets the documented contract
  (a parameter of the theorem).
* Template code (`Fp2_model<n, modulus>`, group templates) is modelled generically: over every field `K`
  respectively every type with the operations the template calls; `Fp` itself is given a `Field`
  instance whose operations *are* the limb-level code, so the generic theorems apply to it.
* Streams are lists of characters; reading returns the value and the remaining stream.

## 3. Plan per property

| id | model and method |
|---|---|
| C01, C02, C05 | limb-level model of `fp.tcc`; induction over limb lists; value equations mod p |
| C03 | limb-level `invert` over any contract-meeting gcdext; buffer sizes tracked |
| C04 | `Field (Fp P)` instance built from C01–C03, ring isomorphism with `ZMod p` |
| C06, C07 | bigint as limb list; bit functions against `Nat.testBit`, `Nat.size`; text via digit lists |
| C08 | the square-and-multiply loops over any monoid |
| C09, C10 | fuelled Tonelli–Shanks over any finite field of odd order; invariant order(b) \| 2^(v-1); divergence for non-squares |
| C11 | loop of squarings, order computation in any field |
| C12, C24, C39, C47 | stream codecs as char lists, round trip with arbitrary suffix; C39 also for each of the ten groups of the five native curves, in terms of `is_well_formed` and `==` only (Props/CurveIOCurves) |
| C13 | word vectors; the documented flag is violated by the code when the Montgomery output flag is off: negative theorem and `_partial` |
| C14 | masking + rejection loop over a tape of words; bijection on accepted tapes |
| C15–C21 | coefficient structures with the code's formulas; ring isomorphism with `AdjoinRoot` towers, field instances |
| C22 | norm-one / cyclotomic equations; `cyclotomic_exp` by induction on digits |
| C23 | coefficient condition ⇒ map is `x^(p^k)` in characteristic p; constants checked by kernel computation |
| C25–C33 | templates over any type with group operations that represent an `AddCommGroup`; induction over loops |
| C34 | two-pass loop, induction |
| C35, C36 | coordinate formulas against Mathlib's `WeierstrassCurve.Affine.Point` group law |
| C37 | against the affine twisted Edwards law |
| C38 | membership test iff equation |
| C40, C41 | words as `BitVec`/`Nat`, spec by GF(2)[X]; loop invariants; clmul model |
| C42, C43 | inversion by addition chain; an element of order 2^n − 1 in GF(2)[X]/f (checked in the kernel with certified prime factors) shows that f is irreducible and that the element generates |
| C56 | `to_words`/`from_words`, `<<`/`>>` of the binary fields |
| C44, C45, C46 | 64-bit loops with wrap-around as in the code; round trips |
| C48 | Miller loops over any commutative ring for arbitrary coefficient vectors |
| C49 | exponent bookkeeping in the unit group, constants by kernel computation |
| C50 | coordinate identities against the group law |
| C51 | Miller functions as values of line products on coordinate rings: `Lemmas/Line*`, `Lemmas/Miller*` develop the part of divisor theory that is needed (two functions with the same divisor agree after the final exponentiation, because the factor that relates them is killed); `Lemmas/Ate*` carries this to the ate pairings of five curves (`BilinearPairing`). Non-degeneracy follows from one value, computed in the kernel over `NM p` (`Lemmas/PairingRel`, `PairingEval`, `PairingValue*`) |
| C52 | primality certificates (Pratt/Pocklington) checked in the kernel; constants by kernel computation |
| C53 | semantics of the ten x86-64 instructions used (`Model/X86`); the macros of `fp_aux.tcc` transcribed one by one (`Model/FpAux`); weakest-precondition rules; induction over the words for the carry chains, the comparison and the rows of the interleaved multiplication; equal outcome to the portable code for all register contents and all contents of uninitialised arrays |
| C54 | the map (x,y) -> (cx s(x), cy s(y)) with s the Frobenius is an endomorphism of the curve given coefficient equations, which are checked for the stored constants; on the subgroup of the generator it is multiplication by q |
| C55 | `ImplementsRel` + order of the generator (C52) + `as_bigint` (C05): generic theorem, then the ten groups |
| C57 | relational parametricity: every generic algorithm run on objects denoting group elements does the same as the algorithm run on the elements themselves (`Lemmas/GroupParam`); with C27–C33 on the abstract group this gives the ten groups, mixed addition and `batch_to_special` included |
| C58 | `StreamLaw` for each class from the law of its fields, by unfolding the writers and readers; vectors by C47; instances for `Fp P` and its extensions |
| C59 | the affine loops over the signed digits of the loop count compute the same Miller function as C51's: the digits are evaluated in the kernel, a digit −1 adds the line through `2nQ` and `−Q`, which the cocycle identity relates to the one through `(2n−1)Q` and `Q` |
| C60 | the Tate loop is the Miller loop of C51 with the roles of the groups exchanged and the group order as loop count; the same cocycle machinery (`Lemmas/TateEdw`), one value in the kernel for non-degeneracy (`Lemmas/TateValueEdw`); the zero cases by following the loop on a zero value (`Lemmas/EdwZeroLoop`) |
| C61 | `bn::Fp`, `bn::Fp2` are any field, `ECAdd`/`ECDouble` any functions that meet `EcOps.Correct`; the text of the wrapper classes is modelled and reduced to the lemmas about libff's own Jacobian classes (`Lemmas/Bn128`); constants by kernel computation |
| C62 | group orders: lower bound from points whose exact orders are computed in the kernel (`OrdTest`, with independence by an endomorphism eigenvalue test where two points of the same prime order are needed), upper bound 2q + 1 by counting, parity by absence of a root of the cubic (`Lemmas/GroupOrder`, `Lemmas/PointCount`, `Lemmas/Order*`); the order then decides what `mul_by_cofactor` and `order() * p` do (`Lemmas/Cofactor`); `Spec/Cofactor` states it for the operations of a class |
| C63 | `Spec/StreamInt` says what it means that a stream starts with an integer (skipped white space, digits, or 8n little-endian bytes); `Lemmas/StreamInt` shows the model of `bigint >>` accepts exactly these streams; fields follow by the Montgomery product with R²; points by following the reader: the only ordinate it can produce is a square root of the right-hand side (`SqrtSound` from C10; for bn128 `C63_bn128_sqrt`); vectors by induction over the elements (`Props/UntrustedVec`) |
| C64 | the global variables as a state, each call as an event with the clock and counter values it reads; `Spec/Profiling` defines properly nested histories with an explicit stack (`Closes`) and the totals of their blocks; the state is related to that stack by induction over the history. For the library functions the texts are lists of calls, checked by a checker that is proved sound for every reading |
| C65 | readers look only at what they consume: `LocalIf` (Lemmas/Truncate) is proved for every reader by composition; with the round trips of C24, C39, C47 and C58 no proper prefix of an output can be read. `ReaderDefined` separates failing from undefined reads |
| C66 | `Spec/Threads`: threads are trees of accesses to a shared memory, executions interleave single accesses, conflicting accesses of two threads that are both next are a data race (undefined). Invariant over executions (`Lemmas/Threads`): what a thread still has to do gives on its own locations what it would have given alone; termination by a multiset order. The loops of multiexp.tcc are such threads (`Model/Parallel`), their sequential run is the model of C29/C30/C32 (`Lemmas/Parallel`) |
| C67 | every statement of the initialisation functions as a command of a small language (`Model/InitCurves`, written out from the source by a script), right-hand sides as terms over the variables they read, explicitly or through the field class they compute in (`Cls.reads`); executed under an arbitrary interpretation of the functions. Symbolic execution shows in the kernel that every final value is a term without variables (`init_closed`) and that mnt4 and mnt6 agree on what they share; by induction over the history the final state is that of the single runs. `Spec/Init` lists the declared members and the values the rest of the model uses |
| C68 | no new model. mnt: equality of the data records by the kernel, the orders from C62. bn128: both classes represent the points of one curve (C61, C30–C32, C38), so results that denote the same point are equal for either `==`; the generator of `bn128_G2` is a multiple of that of `alt_bn128_G2` because the order kills it (C62) |
| C69 | programs that draw words are functions from a tape to a result and the rest of the tape, or `none` if the tape ends (`Model/Sampling`); `prob k φ` is the share of the tapes of `k` words with `φ`, a rational number (`Spec/Sampling`). `UniformOn`: same probability for all elements at every exact number of consumed words, and `prob (none)` goes to 0. Calculus of averages over tapes (`Lemmas/Sampling`): uniformity is preserved by sequencing with disjoint results, injective maps, and by rejection loops in which every accepted result has the same number of candidates (the loop is unfolded once per round; the chance of running on is bounded by a geometric series). Groups: the map from scalars to multiples of the generator is injective (C55) and hits every element of order r (C62) |
| C70 | the pairing methods of a `*_pp` class as a record (`Spec/PairingEq`) with the verifier's programs written on top of it; the five classes in `Model/PairingPp`. Proof: `x · unitary_inverse(x)` is the norm of x to the subfield of index 2, and the exponent of the final exponentiation (C49) is a multiple of the order of that subfield's unit group, so `unitary_inverse` becomes the inverse; double loops by C48; a Miller value is non-zero because the final exponentiation of 0 aborts. Scalars: C51 (bilinear, non-degenerate) and that the order of e(G1, G2) is the prime r |
| C71 | the operations with their `#ifdef PROFILE_OP_COUNTS` statements as programs over the state of all counters (`Model/Counters`: a counter is an integer, each class has five). `CountsCalls` (`Spec/Counters`): for every sequence of calls the results are those of the value model (C01-C04) and each counter of the class grew by the number of calls of its kind. Proof: each operation changes the counters by an amount that does not depend on its arguments (`Exact`); the amounts are computed along the tower (`quadC_exact`, `cubicC_exact`), which also gives the table of prime-field operations per tower operation; induction over the loops of `inverse()` of the binary fields and of `power` |
| C72 | release variants of the functions whose model has the assertions always on (`Model/Release`); the others have a flag. `AssertOnly d r` (`Spec/Release`): every value returned with assertions is returned without. Proof by composition along the code (`AssertOnly.bind`, `.guard`). With C01–C05 the prime field classes are correct without assertions. Where an assertion fails, the theorems named in section 5 say what happens without it |
| C73 | the group operations with `add_cnt`, `dbl_cnt` as explicit state (`Model/GroupCounters`). `CountsBy` (`Spec/GroupCounters`): the results are those without counters and `+` grows the counters by a tally of the points denoted. Proof: the tests of the code are comparisons of points (C33–C35 lemmas). The cost of `scalar_mul` by induction over the bits: the running value is `m•P` with `2m ≤ k < r`, so `2m•P` is neither zero nor `P`. False for bls12_381, mnt and edwards (`C73_*_wrong`); their exact tallies are proved. |
| C74 | points counted as in C62: `(1, 0)` has order 4 and the generator order r, and there are at most 2q+1 points. The denominators of the affine law never vanish because d is not a square (Euler's criterion, computed in the kernel). `operator+` by cases on which numerator of the affine sum vanishes. `scalar_mul` by induction over the bits: the running multiple m·P, 0 < m < r, is never one of the three exceptional points |
| C75 | `Identifies` (`Spec/Canonical.lean`): outputs followed by continuations agree iff elements are the same and continuations agree. From the round trip laws (C24) the field codecs are uniquely decodable; a written point is a flag, a field element and a second half, so equality of bytes is equality of flag, `x` and low bit (or `y`); on the curve `x` leaves `±y`, and the low bit of `c0` tells them apart iff `c0 ≠ 0`. For edwards `(x, -y)` is the negative plus the point of order two, so it does not occur in the group of order r. Vectors by induction |
| C76 | `Spec/GroupLaws` lists the laws using only functions of the class (`GroupClass.Lawful`); `Lemmas/GroupLaws` derives them once from a denotation in an abelian group; each class gets them from C35–C38, C61 |
| C77 | `Spec/Sizes` says when a report is true of a field (characteristic, number of elements, bounds) and of a group (order of `one()`, bound on all points); `Model/Sizes` transcribes the queries. Fields: the cardinalities behind C17–C22, C43 and the constants of C52; groups: generators of C52/C61 and the bound `2 q + 1` on the points of a curve. Coset shift: raise to the power `2^s` and use the order of the generator |
| C78 | memory as numbered cells (`Spec/InPlace`: what an assigning operator has to do, for operands that are the same object or disjoint); the operators as sequences of loads and stores (`Model/InPlace`): one store per word for binary fields, the arrays of the x86 model written back for the assembly, member-wise copy assignment for extension fields. A static check of the destinations of all instructions, sound by induction over the program, gives what the assembly leaves alone; values from C41 and C53. |
| C79 | limbs as `BitVec 32` (`Model/W32`, the same functions over the other limb type; `Model/W32Params`: the constants of the 4-byte branches); the proofs of C01-C05 repeated at that width (`Lemmas/W32`); `halves` cuts words of 64 bits in two; the two platforms agree because each operation's result is the one reduced number that its specification allows; big integers, text and binary streams, `power`, `scalar_mul`, wNAF likewise (`Model/W32Bigint`, `Props/W32Bits`) |
| C80 | a finite `double` is the rational number it stands for (`Spec/Double`: 53 bits, nearest); `fl` rounds as IEEE 754 does, proved nearest with ties to even; the operators of `Double` on top (`Model/Double`). Exactness by induction over expressions |
| C81 | the same loops in a monad that records each call of `+`/`-` and `dbl` (`Model/Cost`; for batch inversion and normalisation the counters of C71); `Costs r o p` (`Spec/Cost`): `r` returns what `o`, the model without the record, returns, and the record grows by an amount with `p`. Induction over the loops; for wNAF the sparsity of the digits; for Bos-Coster a potential (the bits of the scalars left, with the quotient of the two largest bounded by the test that keeps the loop from running away), independent of the sum of the scalars that bounds the rounds in C28 |
| C82 | the initialisation programs of C67 as threads of C66 (`Model/InitThreads`): a statement reads the variables of its right-hand side one by one, then writes its target. Every variable an initialisation accesses belongs to the curve's family (checked over the six programs in the kernel), so the threads are separate in the sense of `Spec/Threads`, and the theorem of the parallel loop applies; the races are executions written out |
| C83 | the printed text as a list of characters (`Model/Print`); `Numeral`, `Tells`, `TellsDenoted` (`Spec/Print`). Texts of towers are self-delimiting (each number ends at its newline), those of points are split at separators that no coordinate contains; with the theorems on `to_affine_coordinates` (C35–C37) |
| C84 | `reserialize` as writing followed by reading: round trips (C24, C39, C47, C56) and canonical bytes (C75) make it a normal form; for the excluded G2 elements concrete points of every twist are exhibited and evaluated by the kernel |
| C85 | `Spec/TargetGroup`; a value is an r-th root of unity (C51), r divides Φ_k(q) (kernel arithmetic), so it lies in the cyclotomic subgroup of C22; the inverse of the value is the value at the negated argument by bilinearity, and inverses are unique |
| C86 | `Spec/PairingBijection`; bilinearity and non-degeneracy (C51) on groups of prime order: equal values make the difference pair to 1, hence zero; a value of order r has every r-th root of unity as a power (Mathlib's primitive roots), and powers are pairings of multiples |
| C87 | `Spec/PairingSum`; composition of C57 (the multi-exponentiation represents the sum of multiples) with C51 (the pairing is a bilinear function of the represented points), by induction over the two vectors; generic in the coordinates, then instantiated on the five curves |
| C88 | `Spec/PairingBatch`; from C87: two passing scalars give one r-th root of unity other than 1 (true value over claimed value) the same power, its order is the prime r, so the scalars are equal; an example shows that the bound is attained |
| C89 | `Spec/KeyCommit`; composition of the fixed-base part of C57 (what `batch_exp` returns), C33 (`batch_to_special`), the multi-exponentiation part of C57 and C55 (scalars act mod r); the powers of tau give Horner's rule (`frDot_powers`) |

Not modelled: `pow`, `inverse` and `get_root_of_unity` of `Double` (floating point library functions), the text that `common/profiling.*` prints, `print` of the bn128 groups (it prints through the external library), the external
`ate-pairing`/`xbyak` libraries used by `bn128` (their sources are not in the repository). Of `bn128` the code in this repository
is modelled with the external functions as parameters (C61); its pairing itself is one call into the library
(`bn::components::millerLoop`, `finalExponentiation`) and nothing is proved about it.

## 4. Trusted base

* Lean's kernel. The only axioms in any theorem are `propext`, `Classical.choice` and `Quot.sound`
  (most theorems depend on all three through Mathlib; the audit prints them per theorem). No axiom of
  our own, no `sorry`, no `native_decide`, no `bv_decide`. `decide +kernel` is used for closed
  computations (constants, certificates); it is evaluated by the kernel itself.
* The reading of the C++ source into `Verif/Model/*`, done by hand. Each definition cites the lines it models.
  As a check of the reading, `Verif/Tests/Vectors.lean` runs the model on every fixed expected value in libff's own unit tests
  (the 50 binary-field products, through all their implementations, `log2`, sizes, `bigint`, bit vectors, operation counts); these
  are tests, not proofs, and no theorem rests on them.
* GMP: `mpn_add_n`, `mpn_sub_n`, `mpn_add`, `mpn_sub`, `mpn_mul_n`, `mpn_addmul_1`, `mpn_add_1`, `mpn_cmp`,
  `mpn_set_str`, `mpn_get_str`, `mpn_tdiv_qr`, ... behave as documented (modelled in `Model/Mpn.lean`, `Model/Bigint.lean`);
  `mpn_gcdext` is a parameter with its documented contract.
* The SSE intrinsics `_mm_clmulepi64_si128`, `_mm_xor_si128`, `_mm_slli_si128`, `_mm_srli_si128`,
  `_mm_loadl_epi64`, `_mm_set_epi64x` behave as in Intel's manual (`M128` in `Model/Binary.lean`).
* The instructions `mov`, `add`, `adc`, `sub`, `sbb`, `cmp`, `xor`, `mul`, `jb`/`jc`, `jnc`, `ja` behave as in Intel's manual
  (`Model/X86.lean`), and the compiler gives the named operands of an `asm` statement registers of their own.
* Theorems about `bn128` (C61) have the correctness of the external `ECAdd`, `ECDouble` (`EcOps.Correct`), of the stream operators of
  `bn::Fp` (`StreamLaw`) and of its representation in memory (`LsbLaw`) as hypotheses; that `bn::Fp`, `bn::Fp2` compute in the
  fields with `p`, `p²` elements is in the model.
* Threads (C66): OpenMP executes each iteration of a `parallel for` once, on some thread, and waits for all of them; a C++ program without data races
  behaves like an interleaving of its accesses (C++11 memory model).
* Initialisation (C67): a constructor, product or inverse reads, besides its arguments, only the static members listed in `Cls.reads`
  (fp.tcc: modulus, inv, Rsquared, Rcubed; non_residue of extension fields); the branch for 8-byte limbs is modelled there (the constants of the other: C79), and `bn::Param::init` is one opaque
  call. The order of the accesses within a right-hand side (C82) is from left to right; the result does not depend on it.
* Randomness (C69): the words of `std::random_device` and the bytes of `randombytes_buf` are independent and uniform; every tape of `k` words is equally
  likely.
* `printf` and `gmp_printf` write `%Nd`, `%Nx`, `%u` and `%016lx` as documented (C83).
* Floating point (C80): IEEE 754 binary64, rounding to nearest, no fused operations, no overflow or underflow.
* x86-64 Linux: 64-bit `size_t` and `unsigned long`, 32-bit `int`, little-endian memory. (C79 alone is about 32-bit limbs and `long`.)
* The specifications in `Verif/Spec/*`, and Mathlib's definitions used in them (`ZMod`, `AdjoinRoot`,
  `WeierstrassCurve.Affine.Point`, `Polynomial`).

### What is modelled

| files under `libff/` | model |
|---|---|
| `algebra/field_utils/bigint.tcc` | `Model/Bigint` (and `Model/Mpn` for GMP) |
| `random_element`, `randomize` of all classes | `Model/Sampling` |
| `assert` removed by `NDEBUG` (`PERFORMANCE=ON`) | `debug` flags, `Model/Release` |
| `PROFILE_OP_COUNTS` statements of `algebra/fields/*` and of the groups | `Model/Counters`, `Model/GroupCounters` |
| the assigning operators of `algebra/fields/*` as programs on memory | `Model/InPlace` |
| the prime fields and the `sizeof(mp_limb_t) == 4` branches of `*_fields.cpp` on limbs of 32 bits ; `bigint`, its streams, `power`, `scalar_mul` and wNAF at that width (what is built on top uses the fields and integers only through these) | `Model/W32`, `Model/W32Params`, `Model/W32Bigint` |
| `curves/*/*_pp.cpp`, `curves/mnt/*/*_pp.cpp` (pairing methods; bn128_pp only through C51's remarks: its pairing is ate-pairing's) | `Model/PairingPp` |
| `algebra/field_utils/algorithms.tcc` | `Model/Algorithms` |
| `algebra/field_utils/field_utils.tcc` | `Model/FieldUtils`, `Model/Utils`, `Model/Sizes` (without the `Double` overloads) |
| size queries in the field and group headers | `Model/Sizes` |
| `algebra/fields/prime_base/fp.tcc` | `Model/Fp`, `Model/Random`, `Model/Sampling`, stream part in `Props/FpIO`; the `USE_ASM` branches in `Model/FpAsm` |
| `algebra/field_utils/fp_aux.tcc` | `Model/FpAux` on the machine `Model/X86` |
| `algebra/fields/prime_extension/*` | `Model/Ext`, `Model/FieldMul` |
| `algebra/fields/binary/*` | `Model/Binary`, portable and `USE_ASM` code |
| `algebra/scalar_multiplication/*` | `Model/Group`, `Model/Multiexp` (`multiexp_profile.cpp` is a benchmark) |
| `algebra/curves/curve_utils.tcc` | `Model/Group` |
| `algebra/curves/{alt_bn128,bls12_381,mnt4,mnt6,edwards}/*_g1.cpp, *_g2.cpp` | `Model/Curve`, `Model/CurveIO`, `Model/MulByQ`, `Model/Cofactor`, `Model/Groups*` |
| `algebra/curves/bn128/*` | `Model/Bn128`, `Model/GroupsBn128`, with the external library as parameter |
| `.../*_pairing.cpp` (not bn128) | `Model/Pairing`, `Pairing12`, `PairingMnt`, `PairingEdwards`, `PairingCurves12`, `PairingCurvesW`, `PairingIO` |
| `.../*_fields.cpp, *_init.cpp` | `Model/Params`, `Model/TowerParams`, `Model/CurveParams` (values), `Model/Init`, `Model/InitCurves` (statements) |
| `init_public_params` called from several threads | `Model/InitThreads` |
| `print`, `print_hex`, `print_coordinates` of integers, fields and groups (not bn128) | `Model/Print` |
| `common/profiling.cpp` (state, not text), and the `enter_block`/`leave_block` calls of all functions | `Model/Profiling` |
| `common/serialization.tcc`, `common/utils.*`, `common/rng.tcc` | `Model/Stream`, `Model/Containers`, `Model/Reserialize`, `Model/Utils`, `Model/Helpers`, `Model/Random`, `Model/Sampling` |
| `common/double.*` | `Model/Double` (without `^`, `inverse`, and `get_root_of_unity<Double>`: library functions whose last bits are not specified; exponents unbounded) |

## 5. Findings: where the code differs from what a user would expect

Each line names the theorem that shows it on the model, where there is one.

| where | what |
|---|---|
| `Fp_model::from_words` | returns `true` for every input in the default build, also for values ≥ p (`C13_flag_default_build_wrong`) |
| `Fp_model >>` with `MONTGOMERY_OUTPUT` | does not check that the value is below p |
| `bigint(const char*)` | too long text overruns the buffer before the assertion is reached; empty text is undefined too |
| Montgomery multiplication | needs a modulus with a clear top bit (`C02_topBit_needed`) |
| Montgomery multiplication with `USE_ASM` | for a modulus with the top bit set returns a wrong result where the portable code stops (`C53_topBit_needed`) |
| `Fp_model::mul_reduce` with `USE_ASM`, 4 and 5 words | `T0`, `T1`, `cy`, `u` are input operands that the `asm` statement overwrites ("TODO: fix this"), which GCC does not allow; the model takes them as registers of the statement |
| `Fp_model(long)` | `LONG_MIN` is undefined (`C05_of_long_min`) |
| `get_root_of_unity` | `1u << logn` is undefined for n > 2^31 (`C11_large_n_undefined`), so the full 2^32-th root of `bls12_381_Fr` cannot be reached |
| `round_to_next_power_of_2`, `get_power_of_two`, `to_twos_complement`, `exp2` | undefined or wrap for large arguments |
| `tonelli_shanks_sqrt` | never returns for a non-square in a release build |
| `find_wnaf`, `fixed_window_wnaf_exp`, `cyclotomic_exp` | lose a carry for scalars close to 2^(64 n) (`C26_carry_lost`, `C27_top_scalar_wrong`); `C26_exact`, `C27_exact` give the result for every scalar: wrong by exactly 2^(64 n) for the odd k with k + 2^w > 2^(64 n), right for all others |
| `multi_exp` (BDLO12) | `1 << c` is undefined for c ≥ 31 |
| `multi_exp` | `chunks = 0` is undefined |
| `alt_bn128_G2`, `bls12_381_G2`, `mnt*_G2` compressed output | keeps only the low bit of `Y.c0`, so P and −P are written alike when `Y.c0 = 0` (`C39_*_wrong`; such elements of `is_well_formed` exist on every native curve: `C84_*_G2_wrong`; they have density 1/q) |
| `edwards_G1::is_well_formed` | accepts (0, Y, 0) (`C38_edwards_wrong`); `print` aborts on such an object (`C83_edwards_wrong`) |
| `edwards_G1::is_zero` | holds for the point (0, −1) of order two (`C37_order_two_wrong`) |
| `edwards_G1`, test `order() * p == zero()` | accepts elements outside the group of order r: the product is the point of order two, which passes `is_zero` (`C74_edwards_G1_wrong`; the exact set is in `C74_edwards_G1_order_test`). `(order() - 1) * p == -p` is a sound test (`C74_edwards_G1_member`). Two elements that are not opposite can have a sum that passes `is_zero` (`C74_edwards_G1_add_wrong`) |
| `gf192::multiplicative_generator` | is not a generator: its order is (2^192 − 1)/2169 (`C43_gf192_generator_wrong`) |
| `soundness_log_of_field_size_helper` | the comment promises that `2 << returned` is at most the size of the field; it is larger for every prime field (`C77_soundness_comment_wrong`), `1 << returned` is right (`C77_log_prime`) |
| `is_additive` | has no specialisation for `gf32`, so `get_word_of_field_elem<gf32>` does not compile |
| `alt_bn128_G2::mul_by_b` | not the coefficient of the twist (unused code) |
| vector and map serialization | `>>` of vectors of extension elements leaves a newline in text builds |
| `alt_bn128_reduced_pairing(P, 0)` | aborts: `assert(Q1.Z == Fq2::one())` fails in `ate_precompute_G2` (`C51_alt_bn128_zero_aborts`, for every P) |
| `bls12_381_reduced_pairing(P, 0)` | aborts: the Miller value is 0 and is inverted (`C51_bls12_381_zero_aborts`, for every P) |
| `edwards_reduced_pairing(P, 0)` | aborts: the Miller value is 0 and is inverted (`C51_edwards_zero_aborts`, for every point P `C51_edwards_zero_aborts_all`); with `G1::zero()` it is 1 (`C51_edwards_zero_left`) |
| `edwards_tate_reduced_pairing` with a zero argument | aborts: on the left the Miller value is 0 and is inverted, on the right the precomputation inverts 0 (`C60_edwards_tate_zero_left`, `C60_edwards_tate_zero_right`) |
| `bigint::randomize` | writes the limbs through a pointer to 32-bit words obtained with `reinterpret_cast`; formally outside the aliasing rules of C++. The model takes the memory it evidently means |
| generators of `bn128_G2` and `alt_bn128_G2` | different elements of the same group (`C68_bn_generators`): proving keys cannot be moved between the two curves although groups and fields are the same |
| `bn128_G1::sqrt`, `bn128_G2::sqrt` | `sqrt(0)` never returns (debug builds: assertion); the field classes of the other curves treat zero separately (`C61_sqrt_zero_never_returns`) |
| `operator>>(istream, bn128_ate_G1_precomp)` | reads into copies (`for (auto p : prec_P.P)`): the object keeps its old value (`C61_g1_precomp_not_restored`) |
| `operator>>(istream, bn128_ate_G2_precomp)` | the same for the point `Q`; the coefficients are read (`C61_g2_precomp_partly_restored`) |
| compressed `bn128_G2` | points whose affine Y has first coefficient 0 are written like their negatives (`C61_g2_compressed_wrong`), as in the other G2 classes |
| `operator>>` and `is_well_formed` of G1/G2 with cofactor > 1 (`bls12_381_G1`, all `G2`) | neither checks the order: there are well-formed elements outside the group of order r, and they are read without complaint. The pairing theorems do not cover them. `order() * p == zero()` is the missing test, `mul_by_cofactor` the missing step (`C62_…_outside`, `C62_…_cofactor`) |
| `Fp_model::operator>>`, default format | accepts every integer below 2^(64 n), not only reduced ones: v and v + p are two encodings of the same element (`C63_fp_two_encodings`) |
| `Fp_model::operator>>` with `MONTGOMERY_OUTPUT` | stores the words unchecked: an unreduced object can be read (`C63_fp_mont_unchecked`) |
| group `operator>>` with `NO_PT_COMPRESSION` | any pair of coordinates is accepted, on the curve or not (`C63_uncompressed_wrong`) |
| group `operator>>`, compressed, abscissa not on the curve | a release build never returns from `sqrt` (denial of service from untrusted bytes), a debug build asserts (`C63_off_curve_no_element`) |
| `edwards_tate_reduced_pairing` | enters the block `...edwards_tate_reduced_pairing` and leaves `...edwards_tate_reduce_pairing`: aborts in single-core builds with assertions unless `inhibit_profiling_counters` is set, and is filed under the wrong name in the others (`C64_edwards_tate_reduced_aborts`, `C64_edwards_tate_reduced_misfiled`). C60 is about the value computed before that |
| `leave_block` | recursive blocks get too little time (`C64_recursion_wrong`); switching `inhibit_profiling_counters` off inside a block makes it pop an empty vector (`C64_toggle_counters_undefined`); switching `inhibit_profiling_info` off there wraps the indentation round (`C64_toggle_info_indentation`) |
| operation counts of blocks | wrong with `inhibit_profiling_info` (`C64_ops_info_inhibited_wrong`) and after `clear_profiling_counters` (`C64_clear_ops_wrong`) |
| text streams cut inside a number | accepted as a different element (`C65_fp_text_wrong`); vectors of `Fp2`, `Fp3`, `Fp6_3over2`, `Fp12` are affected because their `operator>>` does not consume the newline after the last element (`C65_ext_vector_text_wrong`) |
| text streams that end where an element is expected | `operator>>` of `bigint` hands an empty string to `mpn_set_str`: undefined instead of a failed stream (`C65_text_cut_undefined`) |
| MULTICORE with PROFILE_OP_COUNTS | the static counters (`add_cnt++` and so on) are incremented by all threads without synchronisation: data race in `multi_exp` (`C66_counters_race`) |
| `init_public_params` from several threads | no synchronisation: two threads that initialise the same curve, or one mnt4 and the other mnt6 (whose fields are the same classes), race (`C82_same_curve_race`, `C82_mnt_race`); different curves otherwise do not (`C82_concurrent`) |
| `enter_block`, `leave_block` in MULTICORE builds | the critical sections cover only the printing; `block_names` and the tables are changed before: two threads that call a pairing function at the same time race unless `inhibit_profiling_counters` is set (`C66_blocks_race`, `C66_blocks_inhibited`) |
| `Double::as_ulong`, `as_bigint` | cut off the fraction before `round` is called: a number that is `==` 3 can give 2 (`C80_as_ulong_wrong`); undefined for real parts ≤ −1 |
| `Double::operator==` | not transitive, and can hold together with `<` (`C80_eq_wrong`); sums are not associative up to `==` (`C80_assoc_wrong`) |
| `Double::root_of_unity`, `Double::s` | declared, not defined anywhere: a use does not link |
| `edwards_ate_loop_count` | is ≡ −q (mod r), and the Miller value is not inverted; harmless, the pairing is the inverse of the usual one |
| `mnt4_reduced_pairing`, `mnt6_reduced_pairing` | pairing with `G1::zero()` (for mnt4 also with `G2::zero()`) returns a value other than 1 (`C51_mnt4_zero_left`, `C51_mnt4_zero_right`, `C51_mnt6_zero_left`) |
| `mnt6_reduced_pairing(P, 0)` | for every point P of the curve other than zero: 1 if the first coordinate of P is not 0, otherwise abort, because the Miller value is 0 and is inverted (`C51_mnt6_zero_right`; such points exist: `C51_mnt6_zero_right_aborts`). The loop runs on (0, 1), which is not on the twist, and the values of all lines are eigenvectors of the square of the Frobenius map for third roots of unity (`Lemmas/Mnt6Zero`) |
| `mnt4_reduced_pairing(0, 0)`, `mnt6_reduced_pairing(0, 0)` | a value other than 1 for mnt4 (`C51_mnt4_zero_both`), abort for mnt6 (`C51_mnt6_zero_both`) |
| `bls12_381_final_exponentiation` | is the cube of the power `bls12_381_final_exponent` (`bls12_381_E`) |
| mnt6 `ate_miller_loop`, negative loop count | the vertical line uses `PX − QX/twist` instead of R's coordinate; harmless, the factor is killed by the final exponentiation |
| mnt4, mnt6 affine ate pairing | ignores a negative loop count: mnt6's affine pairing is the inverse of `mnt6_reduced_pairing`, and on the groups of order `r` never equal to it (`C59_mnt6`, `C59_mnt6_differ`) |
| mnt4, mnt6 affine ate pairing on zero | mnt6 with the zero of G2: 1, for every point of G1 including zero (`C59_mnt6_zero_right`), also where `mnt6_reduced_pairing` aborts; with `G1::zero()` and `G2::one()`, and for mnt4 with either zero, a value other than 1 (`C59_mnt6_zero_left`, `C59_mnt4_zero_left`, `C59_mnt4_zero_right`; evaluated in the kernel through `Lemmas/AffineRel`) |
| `PROFILE_OP_COUNTS`, `Fp_model::squared` | takes back one product ("zero out the upcoming mul"), but with `USE_ASM` and three limbs (the edwards fields) there is no upcoming `operator*=`: every squaring lowers `mul_cnt` by one, which can become negative (`C71_Fp_asm3_wrong`) |
| `PROFILE_OP_COUNTS`, unary minus | counted as a subtraction by `Fp_model`, not counted by any other class (`C71_neg_Fp`, `C71_neg_Fp2`); `power` counts its squarings as products (`C71_power`) |
| `PROFILE_OP_COUNTS`, group classes | `operator+` of bls12_381 and of mnt4/mnt6 counts no additions (the mnt ones no doublings either); `operator+` of edwards counts `P + P` as an addition (`C73_bls12_381_wrong`, `C73_mnt_wrong`, `C73_edwards_wrong`); `mixed_add` of mnt and edwards counts before its tests for zero, the mnt one counts equal points twice (`C73_mnt_mixed_add`, `C73_edwards_mixed_add`) |
| builds without assertions (`PERFORMANCE=ON`) | what only an assertion prevents: `Fp(x)` for x < −p is off by 2^(64 n) (`C72_of_long_wraps`); a modulus with its top bit set gives wrong products (`C72_top_bit_product`); a GMP integer is cut off (`C72_mpz_truncated`); surplus scalars are ignored (`C72_multiexp_lengths`); `input_bool` takes 2 for false (`C72_input_bool_other`); out-of-range integers in `to_twos_complement` (`C72_twos_complement_range`); batch inversion with a zero in a binary field returns all zeros (`C72_batch_invert_zero`); inverting zero in a prime field is undefined (`C72_inverse_zero`), and so is `alt_bn128_reduced_pairing(P, 0)` (`C72_alt_bn128_zero`) |
