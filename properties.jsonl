{"id": "C01", "title": "Prime field addition, subtraction and negation are exact and canonical", "statement": "For field elements a, b of Fp, a+b, a-b and -a (and the in-place forms) are again canonical (stored value below the modulus) and represent the residues (a+b) mod p, (a-b) mod p and (-a) mod p. No carry or borrow is lost for any modulus, including one using every bit of its limbs.", "quantifier": "every limb count n, every modulus p of n limbs, every pair of canonical elements", "why_tests_cant": "The operand space is p^2 (about 2^508 for alt_bn128); carry chains that matter are rare and tests sample a few random values.", "anchors": ["libff/algebra/fields/prime_base/fp.tcc: operator+=, operator-=, operator-()"]}
{"id": "C02", "title": "Prime field multiplication and squaring are exact and canonical", "statement": "a*b and a.squared() are canonical and represent the product mod p, no intermediate carry is lost and the internal overflow assertion never fires, provided the modulus is odd, the stored constant inv is -p^-1 mod 2^64 and the modulus leaves its top bit clear.", "quantifier": "every limb count n, every odd modulus with 2p <= 2^(64n), every pair of elements", "why_tests_cant": "Montgomery reduction errors show only on rare carry patterns; the input space cannot be enumerated.", "anchors": ["libff/algebra/fields/prime_base/fp.tcc: mul_reduce, operator*=, squared"]}
{"id": "C03", "title": "Prime field inversion is exact", "statement": "For every nonzero a of a prime field a.inverse() is canonical and a * a.inverse() = 1; no buffer used by the computation is overrun; inverting zero is rejected by an assertion and never returns a value.", "quantifier": "every prime modulus, every nonzero element, every result of the extended gcd primitive that meets GMP's documented contract", "why_tests_cant": "Sign and size of the Bezout cofactor vary with the input; tests see only the common cases.", "anchors": ["libff/algebra/fields/prime_base/fp.tcc: invert, inverse"]}
{"id": "C04", "title": "Prime fields obey the field axioms and match the integers mod p", "statement": "With the library's own +, -, *, inverse, zero and one, Fp is a field and is isomorphic to Z/pZ by the map that as_bigint computes; in particular equality of elements (operator==) holds exactly when they represent the same residue.", "quantifier": "all prime moduli meeting the parameter conditions, all elements", "why_tests_cant": "Axioms quantify over all triples of elements.", "anchors": ["libff/algebra/fields/prime_base/fp.tcc: operator+=, operator-=, operator*=, operator==, is_zero, zero, one, invert"]}
{"id": "C05", "title": "Integer conversions into and out of a prime field", "statement": "Fp(b) for any bigint b (even b >= p) represents b mod p, as_bigint returns the unique representative below p, Fp(as_bigint(x)) = x, and Fp(long) represents the signed or unsigned integer mod p; as_ulong returns the low limb of as_bigint.", "quantifier": "every n-limb integer, every element, every 64-bit signed or unsigned long for which the code is defined", "why_tests_cant": "2^256 inputs; negative and out of range values are corner cases.", "anchors": ["libff/algebra/fields/prime_base/fp.tcc: Fp_model(const bigint<n>&), Fp_model(long,bool), as_bigint, as_ulong"]}
{"id": "C06", "title": "Big integer primitives compute on values", "statement": "bigint equality, comparison, is_zero, num_bits, test_bit, bit clearing, max_bits and construction from an unsigned long agree with the natural number value of the limbs; test_bit beyond the range is false; num_bits is the position of the highest set bit plus one.", "quantifier": "every limb count and every limb content", "why_tests_cant": "2^(64n) values and all bit positions.", "anchors": ["libff/algebra/field_utils/bigint.tcc: operator==, operator<, is_zero, num_bits, test_bit, bigint(unsigned long), clear"]}
{"id": "C07", "title": "Big integer decimal and raw forms round trip", "statement": "Constructing a bigint from the decimal text of a value below 2^(64n) yields that value, writing and reading a bigint in text and in binary mode returns the same value; the decimal constructor rejects or overflows exactly when documented.", "quantifier": "every value below 2^(64n), every digit string", "why_tests_cant": "Unbounded digit strings, 2^(64n) values.", "anchors": ["libff/algebra/field_utils/bigint.tcc: bigint(const char*), operator<<, operator>>"]}
{"id": "C08", "title": "Exponentiation is repeated multiplication", "statement": "power(base, e) and the ^ operator return base multiplied with itself e times for every exponent representation (bigint, unsigned long, vector of words), with power(base,0)=one.", "quantifier": "every monoid with the group/field operations, every exponent of any size, every base", "why_tests_cant": "Exponents and bases unbounded.", "anchors": ["libff/algebra/field_utils/algorithms.tcc: power", "libff/algebra/fields/prime_base/fp.tcc: operator^"]}
{"id": "C09", "title": "Square roots of squares are found and the search terminates", "statement": "For every nonzero square a of a field whose Tonelli-Shanks constants (s, t, (t-1)/2, nqr^t) are correct, sqrt(a) terminates and returns x with x*x = a; sqrt(0) = 0.", "quantifier": "every finite field of odd characteristic with valid constants, every square", "why_tests_cant": "Loop counts depend on the order of the element; termination for all squares needs an invariant.", "anchors": ["libff/algebra/field_utils/algorithms.tcc: tonelli_shanks_sqrt"]}
{"id": "C10", "title": "Square root search never returns on a non-square", "statement": "When a is not a square, sqrt(a) never returns a value (the code documents that it does not terminate) in a release build; it cannot return a wrong root.", "quantifier": "every finite field of odd characteristic with valid constants, every non-square", "why_tests_cant": "Non-termination cannot be observed by a test.", "anchors": ["libff/algebra/field_utils/algorithms.tcc: tonelli_shanks_sqrt"]}
{"id": "C11", "title": "Roots of unity have exactly the requested order", "statement": "get_root_of_unity(n) returns an element of multiplicative order exactly n when n is a power of two not exceeding 2^s, and throws otherwise; it never returns an element of a different order.", "quantifier": "every field with valid constants, every n for which the code is defined", "why_tests_cant": "Every n and every field.", "anchors": ["libff/algebra/field_utils/field_utils.tcc: get_root_of_unity"]}
{"id": "C12", "title": "Prime field elements survive serialization", "statement": "Writing an element and reading it back yields the same element, both in the Montgomery output format and in the plain integer format, in text and in binary mode; reading consumes exactly what was written so sequences of elements round trip.", "quantifier": "all elements, all four build configurations, all following stream contents", "why_tests_cant": "All p elements, all concatenations.", "anchors": ["libff/algebra/fields/prime_base/fp.tcc: operator<<, operator>>", "libff/common/serialization.tcc"]}
{"id": "C13", "title": "Word vectors of field elements round trip and the validity flag", "statement": "from_words(to_words(x)) restores x and returns true; for a words vector encoding an integer v after the documented truncation, from_words represents v mod p, and its returned flag is true exactly when v is below the modulus as documented.", "quantifier": "all prime fields, all word vectors of sufficient length", "why_tests_cant": "All 64-bit word vectors.", "anchors": ["libff/algebra/fields/prime_base/fp.tcc: from_words, to_words", "libff/algebra/fields/prime_base/fp.hpp"]}
{"id": "C14", "title": "Random field elements are canonical and unbiased", "statement": "Whenever random_element (and SHA512_rng) returns, the stored value is below the modulus, every canonical value is reachable, and among the random words that the loop accepts every canonical value has exactly the same number of preimages.", "quantifier": "all moduli, all streams of random words", "why_tests_cant": "A property of all random tapes; a test cannot see bias of 1 in 2^60.", "anchors": ["libff/algebra/fields/prime_base/fp.tcc: random_element", "libff/common/rng.tcc"]}
{"id": "C15", "title": "Quadratic extension arithmetic", "statement": "Fp2 operations: addition, subtraction, negation, Karatsuba multiplication, both squaring variants, multiplication by a base field element are those of K[u]/(u^2-beta); inverse is exact for nonzero elements when beta is a non-residue.", "quantifier": "all fields K, all non-residues beta, all elements", "why_tests_cant": "Identity over all p^4 operand pairs and all fields.", "anchors": ["libff/algebra/fields/prime_extension/fp2.tcc: operator*, squared_karatsuba, squared_complex, inverse"]}
{"id": "C16", "title": "Cubic extension arithmetic", "statement": "Fp3 operations are those of K[u]/(u^3-beta): Karatsuba multiplication, CH-SQR2 squaring, inverse (Algorithm 17 of Beuchat et al.) exact on nonzero elements when X^3-beta is irreducible.", "quantifier": "all fields K, all beta, all elements", "why_tests_cant": "Identity over all elements.", "anchors": ["libff/algebra/fields/prime_extension/fp3.tcc: operator*, squared, inverse"]}
{"id": "C17", "title": "Quartic tower arithmetic", "statement": "Fp4 (quadratic over Fp2 with the Fp2 generator as non-residue) multiplication, squaring, inversion, and multiplication by non-residue are those of K[u,v]/(u^2-beta, v^2-u).", "quantifier": "all base fields, all elements", "why_tests_cant": "Identity over all elements.", "anchors": ["libff/algebra/fields/prime_extension/fp4.tcc: operator*, squared, inverse, mul_by_non_residue"]}
{"id": "C18", "title": "Sextic tower (2 over 3) arithmetic", "statement": "Fp6_2over3 multiplication, squaring, inversion are those of K[u,v]/(u^3-beta, v^2-u).", "quantifier": "all base fields, all elements", "why_tests_cant": "Identity over all elements.", "anchors": ["libff/algebra/fields/prime_extension/fp6_2over3.tcc: operator*, squared, inverse"]}
{"id": "C19", "title": "Sextic tower (3 over 2) arithmetic", "statement": "Fp6_3over2 multiplication, squaring, inversion are those of K2[v]/(v^3-xi) over K2 = K[u]/(u^2-beta).", "quantifier": "all base fields, all xi, all elements", "why_tests_cant": "Identity over all elements.", "anchors": ["libff/algebra/fields/prime_extension/fp6_3over2.tcc: operator*, squared, inverse"]}
{"id": "C20", "title": "Dodecic tower arithmetic", "statement": "Fp12 multiplication, both squarings (Karatsuba and complex) and inversion are those of K6[w]/(w^2-v).", "quantifier": "all base fields, all elements", "why_tests_cant": "Identity over all elements.", "anchors": ["libff/algebra/fields/prime_extension/fp12_2over3over2.tcc: operator*, squared_karatsuba, squared_complex, inverse"]}
{"id": "C21", "title": "Sparse multiplications equal full multiplications", "statement": "mul_by_023 (Fp4), mul_by_2345 (Fp6_2over3), mul_by_024 and mul_by_045 (Fp12) return the full product by the sparse element they denote.", "quantifier": "all base fields, all elements, all sparse operands", "why_tests_cant": "Polynomial identity over all operands.", "anchors": ["libff/algebra/fields/prime_extension/fp4.tcc: mul_by_023", "libff/algebra/fields/prime_extension/fp6_2over3.tcc: mul_by_2345", "libff/algebra/fields/prime_extension/fp12_2over3over2.tcc: mul_by_024, mul_by_045"]}
{"id": "C22", "title": "Cyclotomic operations agree with ordinary ones on the cyclotomic subgroup", "statement": "On elements of the cyclotomic subgroup (the only ones final exponentiation feeds them) cyclotomic_squared equals squaring, unitary_inverse equals inversion and cyclotomic_exp(e) equals raising to e; the subgroup hypothesis is stated by the norm and cyclotomic equations, and outside it the squaring shortcut really differs.", "quantifier": "all base fields, all elements of the subgroup, all exponents", "why_tests_cant": "Holds on a subgroup no test can enumerate, exponents unbounded.", "anchors": ["libff/algebra/fields/prime_extension/fp4.tcc", "libff/algebra/fields/prime_extension/fp6_2over3.tcc", "libff/algebra/fields/prime_extension/fp12_2over3over2.tcc: cyclotomic_squared, unitary_inverse, cyclotomic_exp"]}
{"id": "C23", "title": "Frobenius maps are powers of the field characteristic", "statement": "Frobenius_map(k) returns x^(p^k) for every k when the stored coefficients are the defining powers of the non-residue, in every extension; the constants stored for the supported curves satisfy that.", "quantifier": "all elements, all k, all towers", "why_tests_cant": "All elements and all powers.", "anchors": ["libff/algebra/fields/prime_extension/fp2.tcc, fp3.tcc, fp4.tcc, fp6_2over3.tcc, fp6_3over2.tcc, fp12_2over3over2.tcc: Frobenius_map", "libff/algebra/curves/alt_bn128/alt_bn128_fields.cpp", "libff/algebra/curves/bls12_381/bls12_381_fields.cpp"]}
{"id": "C24", "title": "Extension field serialization and word vectors round trip", "statement": "Extension elements written and read back are equal, vectors too; to_words/from_words concatenate coefficient words and round trip.", "quantifier": "all towers, all elements", "why_tests_cant": "All elements.", "anchors": ["libff/algebra/fields/prime_extension/fp2.tcc: operator<<, operator>>, to_words, from_words", "libff/algebra/fields/prime_extension/fp12_2over3over2.tcc"]}
{"id": "C25", "title": "Scalar multiplication is repeated addition", "statement": "scalar * P equals P added to itself scalar times for every scalar, independently of leading zero bits.", "quantifier": "every group, every scalar of any size, every point", "why_tests_cant": "Scalars up to 2^256 and all points.", "anchors": ["libff/algebra/curves/curve_utils.tcc: scalar_mul"]}
{"id": "C26", "title": "wNAF recoding represents the scalar", "statement": "find_wnaf(w, k) returns digits d_i, each zero or odd with absolute value below 2^w, non-adjacent within w+1 positions, with sum d_i 2^i = k, for all scalars not within 2^w of the top of the bigint range; for scalars at the very top of the range the carry is lost and the sum is wrong.", "quantifier": "every window size, every limb count, every scalar", "why_tests_cant": "2^(64n) scalars times windows; the failing scalars have probability 2^-190 under random testing.", "anchors": ["libff/algebra/scalar_multiplication/wnaf.tcc: find_wnaf"]}
{"id": "C27", "title": "wNAF exponentiation equals scalar multiplication", "statement": "fixed_window_wnaf_exp and opt_window_wnaf_exp return scalar * base for every window size and every window table.", "quantifier": "every group, scalar, window, table", "why_tests_cant": "All scalars and tables.", "anchors": ["libff/algebra/scalar_multiplication/wnaf.tcc: fixed_window_wnaf_exp, opt_window_wnaf_exp"]}
{"id": "C28", "title": "Multi-exponentiation methods agree with the sum of scalar multiples", "statement": "multi_exp with the naive, naive_plain, BDLO12 and bos_coster methods returns sum of scalar_i * base_i for every input length including zero.", "quantifier": "every group, every vector of (base, scalar) of any length, all methods", "why_tests_cant": "Vectors of any length; bucket boundaries and heap behaviour depend on scalars.", "anchors": ["libff/algebra/scalar_multiplication/multiexp.tcc: multi_exp_inner, multi_exp"]}
{"id": "C29", "title": "Chunking does not change multi-exponentiation results", "statement": "multi_exp over any positive number of chunks returns the same group element as over one chunk; inner_product equals the sum of products; zero chunks is undefined behaviour.", "quantifier": "every vector, every chunk count", "why_tests_cant": "All (length, chunks) pairs.", "anchors": ["libff/algebra/scalar_multiplication/multiexp.tcc: multi_exp, inner_product"]}
{"id": "C30", "title": "Multi-exponentiation with 0/1 shortcuts is equivalent", "statement": "multi_exp_with_mixed_addition returns the same element as plain multi_exp for all scalars, including 0 and 1 mixed with arbitrary others.", "quantifier": "every vector of scalars and special bases", "why_tests_cant": "All interleavings of zero, one and large scalars.", "anchors": ["libff/algebra/scalar_multiplication/multiexp.tcc: multi_exp_with_mixed_addition"]}
{"id": "C31", "title": "Fixed base window tables", "statement": "windowed_exp(scalar_size, window, get_window_table(scalar_size, window, g), k) = k * g for every k < 2^scalar_size; the table entry at (outer, inner) is inner * 2^(outer*window) * g. For larger k nothing is reported: with rows = ceil(scalar_size/window), the result is (k mod 2^(rows*window)) * g if that is below 2^scalar_size, else (k mod 2^((rows-1)*window)) * g.", "quantifier": "every window, scalar size, base and scalar in range", "why_tests_cant": "Every scalar and window size.", "anchors": ["libff/algebra/scalar_multiplication/multiexp.tcc: get_window_table, windowed_exp"]}
{"id": "C32", "title": "Batch exponentiation equals elementwise exponentiation", "statement": "batch_exp(v)[i] = v[i]*g and batch_exp_with_coeff(c,v)[i] = (c*v[i])*g, output length equals input length.", "quantifier": "every vector", "why_tests_cant": "All vectors.", "anchors": ["libff/algebra/scalar_multiplication/multiexp.tcc: batch_exp, batch_exp_with_coeff"]}
{"id": "C33", "title": "Batch normalisation preserves points", "statement": "batch_to_special leaves every element of the vector the same group element, makes every element special, keeps zeros at their places.", "quantifier": "every vector of points incl. zeros", "why_tests_cant": "All patterns of zeros in vectors of any length.", "anchors": ["libff/algebra/scalar_multiplication/multiexp.tcc: batch_to_special", "libff/algebra/curves/alt_bn128/alt_bn128_g1.cpp: batch_to_special_all_non_zeros"]}
{"id": "C34", "title": "Batch inversion equals elementwise inversion", "statement": "batch_invert replaces each element by its inverse; if any is zero it asserts.", "quantifier": "every field, every vector", "why_tests_cant": "Vectors of any length.", "anchors": ["libff/algebra/field_utils/field_utils.tcc: batch_invert"]}
{"id": "C35", "title": "Jacobian curve arithmetic is the elliptic curve group law", "statement": "On y^2=x^3+b, operator+, add, mixed_add (with a special right operand), dbl, unary minus and operator- on any two well-formed points (including zero, equal, opposite and 2-torsion points) return a well-formed point representing the group sum; == holds exactly for equal group elements; to_affine_coordinates and to_special preserve the element.", "quantifier": "every field of characteristic not 2 (and 3 where needed), every b with nonsingular curve, all points in any Jacobian representation", "why_tests_cant": "All pairs of points and representations; exceptional cases have probability about 2^-254 in random tests.", "anchors": ["libff/algebra/curves/alt_bn128/alt_bn128_g1.cpp", "libff/algebra/curves/alt_bn128/alt_bn128_g2.cpp", "libff/algebra/curves/bls12_381/bls12_381_g1.cpp", "libff/algebra/curves/bls12_381/bls12_381_g2.cpp"]}
{"id": "C36", "title": "Projective curve arithmetic is the elliptic curve group law", "statement": "On y^2=x^3+ax+b the mnt4/mnt6 G1 and G2 operators on well-formed points, including zero, equal, opposite and 2-torsion points, return well-formed points representing the group sum; == is equality of group elements.", "quantifier": "every field of characteristic not 2, all nonsingular a,b, all points and representations", "why_tests_cant": "Same as for Jacobian points.", "anchors": ["libff/algebra/curves/mnt/mnt4/mnt4_g1.cpp", "libff/algebra/curves/mnt/mnt4/mnt4_g2.cpp", "libff/algebra/curves/mnt/mnt6/mnt6_g1.cpp", "libff/algebra/curves/mnt/mnt6/mnt6_g2.cpp"]}
{"id": "C37", "title": "Edwards curve arithmetic is the Edwards addition law", "statement": "On (twisted) Edwards curves in inverted coordinates, +, mixed_add, dbl, minus compute the affine Edwards addition law for points without zero coordinate whose sum is not of order 2 or 4; zero is neutral; results stay on the curve.", "quantifier": "every field of odd characteristic, curve coefficients, points", "why_tests_cant": "All pairs of points.", "anchors": ["libff/algebra/curves/edwards/edwards_g1.cpp", "libff/algebra/curves/edwards/edwards_g2.cpp"]}
{"id": "C38", "title": "Point membership test is exact", "statement": "is_well_formed returns true exactly for zero and for representations of points on the curve; the group operators preserve it; generators of each supported curve satisfy it.", "quantifier": "all coordinate triples", "why_tests_cant": "All triples of field elements.", "anchors": ["libff/algebra/curves/alt_bn128/alt_bn128_g1.cpp: is_well_formed", "libff/algebra/curves/mnt/mnt4/mnt4_g1.cpp: is_well_formed", "libff/algebra/curves/edwards/edwards_g1.cpp: is_well_formed"]}
{"id": "C39", "title": "Point serialization round trips", "statement": "Writing a G1 point and reading it back, compressed or not, alone or in a vector, returns an equal point. G2 points are read back when stored uncompressed, and when stored compressed if their affine Y is zero or has a nonzero first coefficient; otherwise the compressed outputs of P and -P coincide, so no reader can restore both.", "quantifier": "all points of the curve in all coordinates, all build options, all streams that continue after the point", "why_tests_cant": "All points; failing G2 points have a zero coordinate.", "anchors": ["libff/algebra/curves/alt_bn128/alt_bn128_g1.cpp: operator<<, operator>>", "libff/algebra/curves/alt_bn128/alt_bn128_g2.cpp: operator<<, operator>>"]}
{"id": "C40", "title": "Binary field multiplication is polynomial multiplication modulo the documented polynomial", "statement": "For gf32, gf64, gf128, gf192 and gf256 the product (and square) is the product of GF(2) polynomials reduced modulo the documented polynomial, addition and subtraction are xor; hence commutative ring laws hold.", "quantifier": "all pairs of elements", "why_tests_cant": "2^512 operand pairs.", "anchors": ["libff/algebra/fields/binary/gf32.cpp, gf64.cpp, gf128.cpp, gf192.cpp, gf256.cpp: operator*=, squared, operator+="]}
{"id": "C41", "title": "Carry-less multiply path equals the portable path", "statement": "The PCLMULQDQ implementation of binary field multiplication returns the same element as the portable one.", "quantifier": "all pairs of elements", "why_tests_cant": "2^512 operand pairs.", "anchors": ["libff/algebra/fields/binary/gf64.cpp, gf128.cpp, gf192.cpp, gf256.cpp: operator*= (USE_ASM)"]}
{"id": "C42", "title": "Binary field inversion, exponentiation and square roots", "statement": "For nonzero x, x*x.inverse()=1; x.sqrt().squared() = x for every x.", "quantifier": "all elements of all five fields", "why_tests_cant": "2^256 elements.", "anchors": ["libff/algebra/fields/binary/gf32.cpp ... gf256.cpp: inverse, sqrt"]}
{"id": "C43", "title": "Binary fields are fields and the documented generator is primitive", "statement": "The documented reduction polynomials are irreducible, so the types are fields of 2^d elements, and multiplicative_generator generates the whole multiplicative group.", "quantifier": "five fields, all elements", "why_tests_cant": "Irreducibility and primitivity need number theory, not sampling.", "anchors": ["libff/algebra/fields/binary/gf32.hpp ... gf256.hpp", "libff/algebra/fields/binary/gf64.cpp: multiplicative_generator"]}
{"id": "C44", "title": "Integer logarithm and power-of-two helpers", "statement": "log2(n) is the least k with n <= 2^k (0 for n = 0), round_to_next_power_of_2, get_power_of_two and is_power_of_2 agree with their mathematical meaning, bitreverse(n,l) reverses the low l bits and is an involution.", "quantifier": "every 64-bit n, every l up to 64", "why_tests_cant": "2^64 inputs.", "anchors": ["libff/common/utils.cpp: log2, get_power_of_two, round_to_next_power_of_2, is_power_of_2, bitreverse"]}
{"id": "C45", "title": "Two's complement helpers are inverse", "statement": "from_twos_complement(to_twos_complement(i,b),b) = i for every i in range and to_twos_complement is i mod 2^b.", "quantifier": "every b from 1 to 64 in the defined range, every i in range", "why_tests_cant": "2^64 inputs per width.", "anchors": ["libff/common/utils.cpp: to_twos_complement, from_twos_complement"]}
{"id": "C46", "title": "Bit vector conversions round trip", "statement": "convert_field_element_to_bit_vector and convert_bit_vector_to_field_element, pack_bit_vector_into_field_element_vector and the inverse direction, int_list_to_bits, packing with chunking: unpack(pack(bits)) = bits padded.", "quantifier": "all vectors, chunk sizes", "why_tests_cant": "Vectors of any length.", "anchors": ["libff/algebra/field_utils/field_utils.tcc: pack_bit_vector_into_field_element_vector, convert_field_element_vector_to_bit_vector, convert_bit_vector_to_field_element, convert_field_element_to_bit_vector", "libff/common/utils.cpp: int_list_to_bits"]}
{"id": "C47", "title": "Container serialization round trips", "statement": "Vectors, maps, sets and bool vectors of serializable values written and read back are equal, given the element codec round trips.", "quantifier": "all containers of any size", "why_tests_cant": "Unbounded sizes.", "anchors": ["libff/common/serialization.tcc: operator<<, operator>> for vector, map, set; output_bool_vector", "libff/common/utils.cpp: serialize_bit_vector, deserialize_bit_vector"]}
{"id": "C48", "title": "Pairing of two pairs in one loop is the product of two pairings", "statement": "double_miller_loop(P1,Q1,P2,Q2) = miller_loop(P1,Q1) * miller_loop(P2,Q2) for arbitrary precomputed inputs.", "quantifier": "all precomputations, all curves", "why_tests_cant": "All precomputed coefficient vectors.", "anchors": ["libff/algebra/curves/alt_bn128/alt_bn128_pairing.cpp: alt_bn128_ate_miller_loop, alt_bn128_ate_double_miller_loop", "libff/algebra/curves/bls12_381/bls12_381_pairing.cpp", "libff/algebra/curves/mnt/mnt4/mnt4_pairing.cpp"]}
{"id": "C49", "title": "Final exponentiation is a fixed power with result of order dividing r", "statement": "For every nonzero f, final_exponentiation(f) = f^E for the fixed documented E, a multiple of (q^k-1)/r, so it is multiplicative and its result raised to r is one.", "quantifier": "all nonzero elements of the extension field", "why_tests_cant": "All q^12 elements.", "anchors": ["libff/algebra/curves/alt_bn128/alt_bn128_pairing.cpp: alt_bn128_final_exponentiation", "libff/algebra/curves/bls12_381/bls12_381_pairing.cpp: bls12_381_final_exponentiation", "libff/algebra/curves/mnt/mnt4/mnt4_pairing.cpp: mnt4_final_exponentiation"]}
{"id": "C50", "title": "Miller loop steps follow the curve group law", "statement": "The doubling and mixed-addition steps of the pairing precomputation replace the running point R by 2R and R+Q and emit coefficients of the tangent/chord line through those points.", "quantifier": "all points of the twist", "why_tests_cant": "All points.", "anchors": ["libff/algebra/curves/alt_bn128/alt_bn128_pairing.cpp: doubling_step_for_flipped_miller_loop, mixed_addition_step_for_flipped_miller_loop", "libff/algebra/curves/mnt/mnt4/mnt4_pairing.cpp"]}
{"id": "C51", "title": "Bilinearity of the reduced pairing", "statement": "reduced_pairing(aP, bQ) = reduced_pairing(P,Q)^(ab) for all scalars a,b and subgroup points P,Q.", "quantifier": "all scalars and points", "why_tests_cant": "All scalars and points; the repository test checks one random instance.", "anchors": ["libff/algebra/curves/alt_bn128/alt_bn128_pairing.cpp: alt_bn128_ate_reduced_pairing", "libff/algebra/curves/tests/test_bilinearity.cpp"]}
{"id": "C52", "title": "Curve and field constants are consistent", "statement": "For each supported curve the stored moduli are prime, the Montgomery constants R^2, R^3, inv, the Tonelli-Shanks constants, the non-residues and the generator (on the curve, of order r) are correct, so the general theorems apply.", "quantifier": "every stored constant of alt_bn128, bls12_381, mnt4, mnt6, edwards", "why_tests_cant": "Primality and orders need proofs, not sampling.", "anchors": ["libff/algebra/curves/alt_bn128/alt_bn128_fields.cpp, alt_bn128_init.cpp", "libff/algebra/curves/bls12_381/bls12_381_fields.cpp, bls12_381_init.cpp", "libff/algebra/curves/mnt/mnt4/mnt4_fields.cpp", "libff/algebra/curves/mnt/mnt6/mnt6_fields.cpp", "libff/algebra/curves/edwards/edwards_fields.cpp"]}
{"id": "C53", "title": "Assembly field kernels equal the portable code", "statement": "The x86-64 addition, subtraction and Montgomery multiplication code for 3, 4 and 5 limbs computes the same canonical result as the portable path for all inputs.", "quantifier": "all inputs, all moduli with clear top bit", "why_tests_cant": "2^512 inputs; carry patterns.", "anchors": ["libff/algebra/field_utils/fp_aux.tcc", "libff/algebra/fields/prime_base/fp.tcc: mul_reduce, operator+=, operator-= (USE_ASM)"]}
{"id": "C54", "title": "Frobenius endomorphism on the twist", "statement": "mul_by_q maps well-formed G2 points to well-formed points and is a group homomorphism.", "quantifier": "all G2 points", "why_tests_cant": "All points.", "anchors": ["libff/algebra/curves/alt_bn128/alt_bn128_g2.cpp: mul_by_q", "libff/algebra/curves/bls12_381/bls12_381_g2.cpp: mul_by_q", "libff/algebra/curves/mnt/mnt4/mnt4_g2.cpp: mul_by_q"]}
{"id": "C55", "title": "The scalar field acts faithfully on the generators", "statement": "For each group G1, G2 of every curve, and all field elements x, y of the scalar field: (x+y)*one == x*one + y*one, (x-y)*one == x*one - y*one, (x*y)*one == x*(y*one), 1*one == one; x*one == y*one only if x == y; x*one is the neutral element only if x is zero; order()*one is the neutral element.", "quantifier": "all scalars x, y; the ten groups of alt_bn128, bls12_381, mnt4, mnt6, edwards; also the two groups of bn128, given that the external ECAdd and ECDouble are right", "why_tests_cant": "About 2^600 pairs of scalars; injectivity is a statement about all of them.", "anchors": ["libff/algebra/curves/*/*_g1.hpp, *_g2.hpp: operator*(Fp_model, G)", "libff/algebra/curves/curve_utils.tcc: scalar_mul", "libff/algebra/curves/*/*_init.cpp: G1_one, G2_one"]}
{"id": "C56", "title": "Binary field elements survive words and text", "statement": "For gf32 ... gf256: from_words(to_words(x)) gives x and returns true, also when more words follow; every vector of enough words is accepted and gives the element with these low bits; a shorter vector is undefined behaviour; the text written by << is read back by >> as the same element, leaving the rest of the stream, whatever non-digit follows.", "quantifier": "all elements, all word vectors, all continuations of the stream", "why_tests_cant": "2^256 elements and unbounded continuations.", "anchors": ["libff/algebra/fields/binary/gf32.cpp ... gf256.cpp: to_words, from_words, operator<<, operator>>"]}
{"id": "C57", "title": "Multi-exponentiation on the curve groups, end to end", "statement": "For each of the ten groups G1, G2 of alt_bn128, bls12_381, mnt4, mnt6 and edwards, run on raw coordinates with scalars of the group's scalar field: multi_exp with every method (naive, plain, BDLO12 with and without mixed addition, Bos-Coster), multi_exp_with_mixed_addition, windowed_exp on a table from get_window_table, batch_exp and batch_exp_with_coeff return, without failing any assertion, objects denoting the point sum(s_i * P_i), respectively the points s_i * P.", "quantifier": "all vectors of valid points (any coordinates denoting a point; special ones where mixed addition is used) and scalars, all chunk counts, all execution orders of the parallel loops, all window sizes up to 32, debug and release builds; also the two groups of bn128, given that the external ECAdd and ECDouble are right", "why_tests_cant": "Unbounded vectors, about 2^254 scalars and many coordinates per point; rare coincidences (equal or opposite points meeting in a bucket) are never hit by random tests.", "anchors": ["libff/algebra/scalar_multiplication/multiexp.hpp: multi_exp, multi_exp_with_mixed_addition, get_window_table, windowed_exp, batch_exp, batch_exp_with_coeff", "libff/algebra/curves/*/*_g1.cpp, *_g2.cpp: operator+, dbl, mixed_add, batch_to_special_all_non_zeros"]}
{"id": "C58", "title": "Precomputed pairing arguments survive a stream", "statement": "Writing an object of any class of precomputed pairing arguments (G1 and G2 precomputations of the ate pairings of alt_bn128, bls12_381, mnt4, mnt6, edwards, of the Tate pairing of edwards, and their coefficient classes) and reading it back gives an equal object and leaves the stream just behind it, in text and binary builds, with and without MONTGOMERY_OUTPUT.", "quantifier": "all objects with reduced field elements and fewer than 2^64 coefficients, all continuations of the stream that end a token, all admissible moduli and non-residues", "why_tests_cant": "Coefficient vectors of any length and all field values; the readers mix explicit separators, newlines and white-space skipping, so an error shows only for particular values or build modes.", "anchors": ["libff/algebra/curves/alt_bn128/alt_bn128_pairing.cpp: operator<<, operator>>", "libff/algebra/curves/bls12_381/bls12_381_pairing.cpp: operator<<, operator>>", "libff/algebra/curves/mnt/mnt4/mnt4_pairing.cpp, mnt6_pairing.cpp: operator<<, operator>>", "libff/algebra/curves/edwards/edwards_pairing.cpp: operator<<, operator>>"]}
{"id": "C59", "title": "The affine pairings of mnt4 and mnt6", "statement": "mnt4_affine_reduced_pairing and mnt6_affine_reduced_pairing succeed on non-zero arguments and are bilinear and non-degenerate there. The one of mnt4 returns the same value as mnt4_reduced_pairing; the one of mnt6, which does not look at the sign of the loop count, returns the inverse of mnt6_reduced_pairing.", "quantifier": "all non-zero points of the first group and all non-zero multiples of the second group's generator, in all coordinates", "why_tests_cant": "About 2^600 pairs of arguments; the library's tests only compare values of the same function with each other, never the affine pairing with the projective one.", "anchors": ["libff/algebra/curves/mnt/mnt4/mnt4_pairing.cpp: mnt4_affine_ate_precompute_G1, mnt4_affine_ate_precompute_G2, mnt4_affine_ate_miller_loop, mnt4_affine_reduced_pairing", "libff/algebra/curves/mnt/mnt6/mnt6_pairing.cpp: mnt6_affine_ate_precompute_G1, mnt6_affine_ate_precompute_G2, mnt6_affine_ate_miller_loop, mnt6_affine_reduced_pairing", "libff/algebra/scalar_multiplication/wnaf.tcc: find_wnaf"]}
{"id": "C60", "title": "The Edwards Tate pairing", "statement": "edwards_tate_reduced_pairing succeeds on non-zero arguments of order r, is bilinear and non-degenerate there. With a zero argument it aborts.", "quantifier": "all non-zero multiples of the generators of the two groups, in all coordinates; all objects denoting zero", "why_tests_cant": "About 2^360 pairs of arguments; no test of the library calls this pairing with a zero argument.", "anchors": ["libff/algebra/curves/edwards/edwards_pairing.cpp: edwards_tate_precompute_G1, edwards_tate_precompute_G2, edwards_tate_miller_loop, edwards_tate_reduced_pairing"]}
{"id": "C61", "title": "bn128 on top of the external library", "statement": "Provided that the external point addition and doubling are correct on different non-zero points (addition) and on all points (doubling), the bn128 group classes implement the groups of the curve and its twist: +, -, dbl, mixed_add, ==, is_zero, is_well_formed, to_affine_coordinates, batch_to_special, scalar multiplication, mul_by_cofactor and multi-exponentiation are correct; the generators have order r; sqrt finds a root of every non-zero square. Provided that field elements are read back from streams, so are points, vectors of points and target group elements. (Precomputed arguments are not: reading leaves the object, or its point, unchanged.)", "quantifier": "all points in all coordinates, all scalars, all vectors, all build modes (text, binary, compressed or not, debug or release), all implementations of the external operations that meet the contract", "why_tests_cant": "The wrapper decides which external function to call from the coordinates; equal points in different coordinates, zeros in different positions and the special values of y are too many to list. The tests of the library do not exercise the stream operators of the precomputations.", "anchors": ["libff/algebra/curves/bn128/bn128_g1.cpp, bn128_g2.cpp", "libff/algebra/curves/bn128/bn128_gt.cpp: unitary_inverse, operator<<, operator>>", "libff/algebra/curves/bn128/bn128_pairing.cpp: operator<<, operator>>", "libff/algebra/curves/bn128/bn_utils.tcc: bn_batch_invert", "libff/algebra/curves/bn128/bn128_init.cpp"]}
{"id": "C62", "title": "Group orders and mul_by_cofactor", "statement": "The number of elements of each Weierstrass group class is the stored cofactor times the announced order. mul_by_cofactor maps every well-formed element to a multiple of the generator, is additive and is injective on the elements of order r. An element is a multiple of the generator if and only if order() * p == zero(). So in the groups with cofactor 1 every non-zero well-formed element, and elsewhere every one that passes this test or comes out of mul_by_cofactor non-zero, is an argument for which the pairing is bilinear and non-degenerate. (is_well_formed alone does not imply it: with cofactor greater than 1 there are well-formed elements outside the group of order r.)", "quantifier": "all well-formed objects of alt_bn128, bls12_381, mnt4, mnt6 and bn128 G1 and G2, in all coordinates", "why_tests_cant": "The groups have between 2^254 and 2^894 elements; the tests clear the cofactor of a few random points. Nothing in the library computes a group order: that it is h * r is a fact about the curve that must be proved.", "anchors": ["libff/algebra/curves/*/*_g1.cpp, *_g2.cpp: mul_by_cofactor, is_well_formed, order", "libff/algebra/curves/*/*_init.cpp: G1::h, G2::h"]}
{"id": "C63", "title": "Reading bytes from an unknown source yields valid objects or none", "statement": "Whatever the bytes in the stream, operator>> of a prime field class in the default (non-Montgomery) format succeeds exactly when the stream starts with an integer v that fits the words of the class, and the object then is the reduced representative of v mod p. operator>> of a curve group class in the default compressed format returns only elements that pass is_well_formed and are in affine form; an abscissa without a point on the curve yields no element. operator>> of a vector returns only vectors of the announced length, all of whose elements satisfy this. (The encoding is not unique: v and v + p are read as the same element. MONTGOMERY_OUTPUT and NO_PT_COMPRESSION builds check nothing, and there streams exist whose reading succeeds with an invalid object.)", "quantifier": "all byte streams, text and binary format, debug and release builds, all valid moduli, all twelve curve group classes of alt_bn128, bls12_381, bn128, mnt4, mnt6 and edwards, and vectors of all lengths", "why_tests_cant": "Tests read back what the library wrote. An attacker chooses the bytes: the claim is about every byte string, including non-canonical and malformed ones.", "anchors": ["libff/algebra/field_utils/bigint.tcc: operator>>", "libff/algebra/fields/prime_base/fp.tcc: operator>>", "libff/algebra/curves/*/*_g1.cpp, *_g2.cpp: operator>>, is_well_formed"]}
{"id": "C64", "title": "Profiling blocks balance and their totals are right", "statement": "In every properly nested history of enter_block / leave_block no assertion fails and nothing is undefined, the open blocks and the indentation are as before, and each name's invocation count has grown by the number of its blocks; if no block is inside a block of the same name, the cumulative, last and CPU times and (with output not inhibited) the operation counts are those of the blocks. With assertions in a single-core build exactly the properly nested histories run through. print_cumulative_times never fails, after any history. Every library function that enters blocks is properly nested, whatever its arguments and the state of the profile. (The last claim is wrong for edwards_tate_reduced_pairing, which leaves a block it has not entered and so aborts in a single-core build with assertions; recursion and changing the inhibit flags inside a block give wrong totals or undefined behaviour.)", "quantifier": "all histories of blocks, all initial profiling states, all clock and counter readings, all builds (MULTICORE, NDEBUG, PROFILE_OP_COUNTS), all library functions that enter blocks", "why_tests_cant": "The profile is global mutable state whose correctness depends on the whole history of the program; tests neither check the totals nor run every function with assertions on, and the mismatched name in edwards_tate_reduced_pairing has gone unnoticed.", "anchors": ["libff/common/profiling.cpp: enter_block, leave_block, clear_profiling_counters, print_cumulative_times, op_profiling_enter", "libff/algebra/curves/*/*_pairing.cpp: all functions with enter_block", "libff/algebra/scalar_multiplication/multiexp.tcc: multi_exp_with_mixed_addition, batch_to_special"]}
{"id": "C65", "title": "A stream cut off while being written never reads as another object", "statement": "If a writer stops at any point (crash, full disk, broken connection), then no proper prefix of its output is read successfully: in BINARY_OUTPUT builds for elements of all field classes, vectors of them, points, vectors of points and precomputed pairing arguments; in both formats for bools, vectors of bools, maps, sets, vectors of Fp, Fp4 and Fp6_2over3 elements, compressed points, vectors of points and the precomputations that end in a vector. A cut bit vector (serialize_bit_vector) is not read or read as the same vector. In binary builds reading is defined on every input, so the cut is reported by the stream state. (In text builds an object that ends in a decimal number is not protected: every nonempty prefix of a field element is accepted as a different element, the same happens to vectors of Fp2, Fp3, Fp6_3over2 and Fp12, and where an element is missing altogether the behaviour is undefined.)", "quantifier": "all crash points, all objects of the classes named, all field parameters and curves, text and binary format, compressed and uncompressed points", "why_tests_cant": "The crash point is any byte position of the output of any object; tests only read complete outputs.", "anchors": ["libff/common/serialization.tcc", "libff/common/utils.cpp: serialize_bit_vector, deserialize_bit_vector", "libff/algebra/field_utils/bigint.tcc: operator>>", "libff/algebra/fields/*/*.tcc: operator>>", "libff/algebra/curves/*/*_g1.cpp, *_g2.cpp, *_pairing.cpp: operator>>"]}
{"id": "C66", "title": "Results do not depend on the threads", "statement": "In a MULTICORE build without operation counters, multi_exp and multi_exp_with_mixed_addition (any method, any number of chunks), batch_exp and batch_exp_with_coeff return, in every interleaving of the memory accesses of the threads and for every distribution of the iterations to threads, the same object or vector as the sequential build; no execution has a data race or goes on for ever; where the sequential build fails an assertion or is undefined, no execution returns normally. (With PROFILE_OP_COUNTS the unsynchronised static counters are a data race as soon as two chunks count an addition. enter_block and leave_block, which every pairing function calls, may not be called from two threads at a time unless inhibit_profiling_counters is set, although they contain critical sections.)", "quantifier": "all interleavings of the accesses of all threads, all assignments of iterations to threads, all inputs, all groups and methods", "why_tests_cant": "A test sees the few interleavings that its machine happens to produce; races show up rarely or never.", "anchors": ["libff/algebra/scalar_multiplication/multiexp.tcc: multi_exp, multi_exp_with_mixed_addition, batch_exp, batch_exp_with_coeff, windowed_exp", "libff/common/profiling.cpp: enter_block, leave_block", "libff/algebra/curves/*/*_g1.cpp: add_cnt"]}
{"id": "C67", "title": "Initialisation in any order, any number of times", "statement": "Calling init_public_params of the six curves in any order and any number of times, from any contents of the static variables, gives every static parameter of every curve that was initialised (moduli, Montgomery constants, square root data, Frobenius coefficients, curve and twist coefficients, generators, cofactors, loop counts, window tables) the value that a single initialisation of that curve alone gives it, and changes no other variable: no initialisation reads a variable it has not set before, tables do not grow when a curve is initialised again, and mnt4 and mnt6, which share two fields, give the shared variables equal values. No assertion fails. Every static member the field and group classes declare is set, and the values are the constants that all other properties are about.", "quantifier": "all histories of initialisation calls of the six curves, all initial contents of the variables, all meanings of the functions called on the right-hand sides", "why_tests_cant": "A test program initialises each curve once, in one order, from zeroed memory.", "anchors": ["libff/algebra/curves/*/*_fields.cpp: init_*_fields", "libff/algebra/curves/*/*_init.cpp: init_*_params", "libff/algebra/curves/*/*_pp.cpp: init_public_params", "libff/algebra/curves/mnt/mnt46_common.cpp"]}
{"id": "C68", "title": "The mnt4/mnt6 cycle; bn128 and alt_bn128 are the same groups", "statement": "The scalar field of mnt4 is the base field of mnt6 and the base field of mnt4 is the scalar field of mnt6, with all the constants of the field classes equal, and the number of elements of each curve's G1 is the number of elements of the other curve's base field: a statement about one curve's points can be computed with the other curve's scalars, in both directions. bn128_G1 and alt_bn128_G1, and bn128_G2 and alt_bn128_G2, are the same groups: coordinates that are a valid element for one class are valid for the other, elements are equal for one exactly when they are for the other, and zero, sums, differences, doubles and scalar multiples agree. The two curves' generators of G1 are the same; their generators of G2 are different elements of the same group of order r.", "quantifier": "all elements and scalars; every implementation of the external bn128 formulas that is correct", "why_tests_cant": "The equality of group orders and fields is a fact about numbers of 298 bits; the agreement of the two classes is for all elements, and the tests never mix the curves.", "anchors": ["libff/algebra/curves/mnt/mnt46_common.cpp", "libff/algebra/curves/bn128/bn128_g1.cpp", "libff/algebra/curves/bn128/bn128_g2.cpp", "libff/algebra/curves/bn128/bn128_init.cpp", "libff/algebra/curves/alt_bn128/alt_bn128_init.cpp", "libff/algebra/curves/alt_bn128/alt_bn128_g1.cpp", "libff/algebra/curves/alt_bn128/alt_bn128_g2.cpp"]}
{"id": "C69", "title": "Random elements are uniform", "statement": "If the words delivered by the operating system's generator are independent and uniform, random_element() of every field and group class returns each element of the field, of the group, with the same probability, also conditionally on the number of words consumed; it returns with probability one and never aborts. random_element_non_zero, random_element_non_zero_one and random_element_exclude return each of the remaining elements with the same probability. For the groups the range is exactly the group of order r.", "quantifier": "all valid moduli, all tapes of random words of every length, all elements, all excluded elements", "why_tests_cant": "A bias of a few parts in 2^64, or a value that is never returned, does not show in any number of samples one can draw; that the rejection loop ends is a statement about unbounded histories.", "anchors": ["libff/algebra/fields/prime_base/fp.tcc: random_element", "libff/algebra/field_utils/bigint.tcc: randomize", "libff/algebra/fields/prime_extension/*.tcc: random_element", "libff/algebra/fields/binary/gf*.cpp: randomize, random_element", "libff/algebra/curves/*/*_g1.cpp, *_g2.cpp: random_element", "libff/common/utils.tcc: random_element_non_zero_one, random_element_non_zero, random_element_exclude"]}
{"id": "C70", "title": "Pairing equations can be checked with one final exponentiation", "statement": "For every curve with an own pairing (alt_bn128, bls12_381, mnt4, mnt6, edwards) and all arguments on which reduced_pairing succeeds: final_exponentiation of double_miller_loop is the product of the two reduced pairings; final_exponentiation of miller_loop(P,Q) * miller_loop(P',Q').unitary_inverse() is their quotient (although unitary_inverse is not the inverse of a Miller value before the final exponentiation); and the verifier's program final_exponentiation(miller_loop(P,Q) * double_miller_loop(P',Q',P'',Q'').unitary_inverse()) == GT::one() returns true exactly if e(P,Q) = e(P',Q') e(P'',Q''). On multiples of the generators it returns true exactly if a b = c d + e f modulo the group order: no false statement is accepted and no true one rejected. The affine methods affine_ate_e_over_e_miller_loop and affine_ate_e_times_e_over_e_miller_loop of mnt4 and mnt6 compute the corresponding quotients.", "quantifier": "all tuples of group elements on which reduced_pairing is defined; all scalars of any length, with those of the second group (for mnt also the first) not divisible by the group order", "why_tests_cant": "Soundness of a verifier is a statement about all false equations among about 2^1500 tuples of scalars; a test checks a handful of true ones and rarely any false one.", "anchors": ["libff/algebra/curves/public_params.hpp", "libff/algebra/curves/alt_bn128/alt_bn128_pp.cpp", "libff/algebra/curves/bls12_381/bls12_381_pp.cpp", "libff/algebra/curves/mnt/mnt4/mnt4_pp.cpp:affine_ate_e_over_e_miller_loop", "libff/algebra/curves/mnt/mnt6/mnt6_pp.cpp:affine_ate_e_times_e_over_e_miller_loop", "libff/algebra/curves/edwards/edwards_pp.cpp"]}
{"id": "C71", "title": "Operation counters count the operations", "statement": "In builds with PROFILE_OP_COUNTS, after any sequence of calls of +, -, *, squared and inverse with any arguments, the results are those of a build without counters, and each of add_cnt, sub_cnt, mul_cnt, sqr_cnt, inv_cnt of the field class has grown by exactly the number of calls of its kind, although squared and inverse are implemented with other counted operations of the same class. Every operation of an extension field adds a fixed number of prime field operations, independent of the arguments (for example 147 additions, 98 subtractions and 100 products per Fp12 product), and power adds (bits - 1) + (one bits) products. For prime fields of three limbs in USE_ASM builds the claim is false: each squaring lowers mul_cnt by one.", "quantifier": "all finite sequences of calls with all arguments, all initial counter values, all field classes (prime, extension, binary), builds with and without assertions and USE_ASM, all exponents of any length", "why_tests_cant": "The amounts that the code subtracts in advance must match data-independent totals on every path; a test checks one path of one class, and the counters are compiled out of the test builds.", "anchors": ["libff/algebra/fields/prime_base/fp.tcc:squared", "libff/algebra/fields/prime_extension/fp12_2over3over2.tcc", "libff/algebra/fields/binary/gf192.cpp:inverse", "libff/algebra/fields/binary/gf64.cpp:inverse", "libff/algebra/field_utils/algorithms.tcc:power"]}
{"id": "C72", "title": "Builds without assertions return what builds with assertions return", "statement": "PERFORMANCE=ON compiles the library with NDEBUG. Whenever a call returns a value in a build with assertions, the same call returns the same value in a build without: no assertion has an effect beyond stopping the program. In particular the prime field classes stay exact without assertions on every element the API can produce. Where an assertion fails, a build without it does not stop: among others Fp(x) for x < -p is off by 2^(64n), surplus scalars of a multi-exponentiation are ignored, a too large GMP integer is cut off, batch inversion of a vector with a zero in a binary field returns zeros, and alt_bn128's e(P, 0) inverts zero.", "quantifier": "all arguments of all asserting functions of fields, bigints, groups, multi-exponentiation, pairings, streams, random elements and utilities, including inconsistent parameters; all distributions to threads and interleavings for the parallel multi-exponentiation", "why_tests_cant": "Tests run in one build mode; that two builds agree, and what happens behind a failed assertion, concerns every input of either build.", "anchors": ["CMakeLists.txt:PERFORMANCE", "libff/algebra/fields/prime_base/fp.tcc", "libff/algebra/scalar_multiplication/multiexp.tcc", "libff/algebra/curves/alt_bn128/alt_bn128_pairing.cpp:alt_bn128_ate_precompute_G2", "libff/algebra/field_utils/field_utils.tcc:batch_invert", "libff/common/utils.cpp", "libff/common/serialization.tcc:input_bool"]}
{"id": "C73", "title": "Operation counters of the groups count the group operations", "statement": "In builds with PROFILE_OP_COUNTS, every + or - of two group elements returns what it returns without counters and is counted once: as an addition when the two elements differ, as a doubling when they are equal, and not at all when one of them is zero; dbl is counted once. Hence multiplying an element of order r by a scalar 0 < k < r is counted as (bits of k) - 1 doublings and (one bits of k) - 1 additions. This holds for alt_bn128 and bn128. It is false for bls12_381, mnt4 and mnt6, whose + and - do not count additions, and for edwards, which counts the sum of two equal elements as an addition; mixed_add of mnt4, mnt6 and edwards counts an addition also when it makes none.", "quantifier": "all group elements in all coordinates that denote them, all initial values of the counters, all group classes, all scalars of any number of limbs whose value is between 1 and r - 1", "why_tests_cant": "The counters are compiled out of test builds, and each special case (zero, equal elements, inverse elements) takes another path; that the loop of scalar multiplication never takes a special path needs the order of the element.", "anchors": ["libff/algebra/curves/alt_bn128/alt_bn128_g1.cpp:operator+", "libff/algebra/curves/bls12_381/bls12_381_g1.cpp:operator+", "libff/algebra/curves/mnt/mnt4/mnt4_g1.cpp:mixed_add", "libff/algebra/curves/edwards/edwards_g1.cpp:add", "libff/algebra/curves/bn128/bn128_g1.cpp:add", "libff/algebra/curves/curve_utils.tcc:scalar_mul"]}
{"id": "C74", "title": "edwards_G1 outside the group of order r", "statement": "The curve of edwards_G1 has 4 * order() points; all but the three of order two and four are elements, and they pass is_well_formed. dbl() and the product with an integer below order() are right for every element; p.dbl().dbl() is always a multiple of one(). operator+ is right for every pair whose sum is an element; if the sum is the point of order two the result passes is_zero(), and if it is a point of order four the result is (0, Y, 0). The test (order() - 1) * p == -p holds exactly for the multiples of one(), so for arguments of the pairing as C51 wants them. (The usual test order() * p == zero() holds exactly if p.dbl() is a multiple of one(), so it also accepts elements outside the group of order r, for instance one() with X and Y negated.)", "quantifier": "all elements of edwards_G1 that denote a point, in all coordinates, all pairs of them, and all scalars below order()", "why_tests_cant": "The tests work with multiples of the generator only. The exceptional pairs are one in 2^180; whether the addition formulas have further ones depends on d not being a square, and the number of points is not computed anywhere.", "anchors": ["libff/algebra/curves/edwards/edwards_g1.cpp: operator+, add, dbl, is_zero, operator==, is_well_formed", "libff/algebra/curves/edwards/edwards_init.cpp: edwards_coeff_d, G1_one", "libff/algebra/curves/curve_utils.tcc: scalar_mul"]}
{"id": "C75", "title": "Written bytes identify the element", "statement": "What operator<< writes depends only on the element, not on how it is stored: elements that compare equal are written as the same bytes, and elements that compare different as different bytes, whatever is written after them, so that a hash of a sequence of written elements commits to exactly that sequence. This holds for every field class, for G1 of every curve, for uncompressed G2 elements, for elements of order r of edwards_G2, and for vectors of all of these. The only exception are compressed elements of the G2 of the other curves whose affine Y has c0 = 0: such an element and its negative, and no others, are written as the same bytes.", "quantifier": "all elements in all coordinates that denote them, all continuations of the stream that end a token, text and binary builds, with and without point compression and Montgomery output, all moduli of any number of limbs and all curve coefficients", "why_tests_cant": "a test compares the bytes of a few elements; that no two of the 2^256 elements collide, and that no coordinate representation leaks into the bytes, is a statement about all pairs", "anchors": ["libff/algebra/curves/alt_bn128/alt_bn128_g1.cpp: operator<<", "libff/algebra/curves/bls12_381/bls12_381_g2.cpp: operator<<", "libff/algebra/curves/mnt/mnt6/mnt6_g2.cpp: operator<<", "libff/algebra/curves/edwards/edwards_g2.cpp: operator<<", "libff/algebra/curves/bn128/bn128_g1.cpp: operator<<", "libff/algebra/fields/prime_base/fp.tcc: operator<<", "libff/common/serialization.tcc: operator<<"]}
{"id": "C76", "title": "Every curve group class is an abelian group in its own terms", "statement": "On valid elements operator== is an equivalence relation and equal elements can be exchanged in +, -, dbl, is_zero and scalar multiplication; with equality read as operator==, + is associative and commutative, zero() is neutral, unary - inverts, p - q = p + (-q), dbl(p) = p + p, is_zero(p) iff p == zero(); scalar multiplication obeys 0p = 0, (k+1)p = kp + p, (j+k)p = jp + kp, (jk)p = j(kp), k(p+q) = kp + kq; to_special succeeds and returns an equal special element; mixed_add(p, q) with special q succeeds and equals p + q. All results are valid again.", "quantifier": "all valid elements (those that pass is_well_formed; for edwards those that denote a point killed by r), all coordinates that represent them, all integers of any length, debug and release builds, all twelve classes (bn128 given correct point functions of the external library)", "why_tests_cant": "Tests check a few laws on a few random points; special cases of the formulas (equal operands, opposite operands, zero with unusual coordinates, points of small order) are not met by random points.", "anchors": ["libff/algebra/curves/*/*_g1.cpp, *_g2.cpp: operator==, operator+, operator-, dbl, is_zero, mixed_add, to_special", "libff/algebra/curves/curve_utils.tcc: scalar_mul"]}
{"id": "C77", "title": "What the field and group classes report about their size is true", "statement": "field_char() is a prime and the characteristic of the field, the field has field_char()^extension_degree() elements, at most 2^ceil_size_in_bits() and at least 2^floor_size_in_bits(). For a group, order() is a prime and the number of multiples of one(), field_char() is the characteristic of the coordinates, and the curve has at most 2^size_in_bits() points. log_of_field_size_helper and soundness_log_of_field_size_helper bound the size of a prime field from above and below and are exact for binary fields. get_word_of_field_elem(x, i) is bits 64i to 64i+63 of the canonical value for every index inside the element. Multiplication by coset_shift() maps the n-th roots of unity to a disjoint set, for every n that get_root_of_unity accepts.", "quantifier": "all prime fields with consistent constants, all extension fields and groups of the six curves, all binary fields (helpers: gf64 to gf256), all elements, all word indices, all n, all pairs of exponents", "why_tests_cant": "The size of a field or of a group of 2^254 elements cannot be found by enumeration, and disjointness of cosets concerns all pairs of elements of domains of up to 2^31 elements.", "anchors": ["libff/algebra/fields/prime_base/fp.hpp, prime_extension/*.hpp, binary/gf*.hpp: ceil_size_in_bits, floor_size_in_bits, extension_degree, field_char", "libff/algebra/curves/*/*_g1.hpp, *_g2.hpp: size_in_bits, field_char, order", "libff/algebra/field_utils/field_utils.tcc: log_of_field_size_helper, soundness_log_of_field_size_helper, get_word_of_field_elem, coset_shift"]}
{"id": "C78", "title": "Assigning operators work in place, also on one object twice", "statement": "After a += b, a -= b, a *= b, a.square() (and for extension fields every operation of the form *this = f(*this, other)) the object a holds the sum, difference, product, square of the values that a and b had before, also if a and b are the same object (a += a, a *= a, as gf*.cpp promises: \"Does not require *this and other to be different\"), and no memory outside a changes: not b, not the static modulus, not a neighbouring object. With USE_ASM the assembly of the addition and subtraction stores only into *this, and that of the multiplication and squaring only into its local array.", "quantifier": "all memory contents, all addresses of the two objects (equal or disjoint), all values, all five binary fields in all code variants, all prime fields with consistent constants (portable and assembly, all register contents before), the six extension field models over any base", "why_tests_cant": "Whether an operand is read after part of the result has been stored shows only for particular operands that are the same object, and a stray store shows only in memory that the test does not look at.", "anchors": ["libff/algebra/fields/binary/gf32.cpp, gf64.cpp, gf128.cpp, gf192.cpp, gf256.cpp: operator+=, operator*=, square", "libff/algebra/fields/prime_base/fp.tcc: operator+=, operator-=, operator*=, mul_reduce, squared", "libff/algebra/field_utils/fp_aux.tcc", "libff/algebra/fields/prime_extension/*.tcc: operator+=, operator-=, operator*=, square, invert"]}
{"id": "C79", "title": "Platforms with limbs of 32 bits give the same field elements", "statement": "Where mp_limb_t has 4 bytes, the constants in the branches sizeof(mp_limb_t) == 4 of the init functions are right for all twelve prime fields, and the prime field arithmetic on those limbs is that of Z/pZ as on 8-byte limbs: addition, subtraction, negation, multiplication, squaring, inversion, conversion from and to integers. Moreover every operation gives the same bytes on both kinds of (little-endian) platform, so elements computed or written on the one are those of the other: big integers (bits, comparison, text), written and read streams in all formats, powers, scalar multiples and wNAF digits agree too. Only as_ulong differs (the low 32 bits instead of the low 64), and the conversion of LONG_MIN (undefined on the narrow platform for -2^31, which the wide one converts).", "quantifier": "all residues, all integers of n words, all longs, all gcd routines that meet GMP's contract, all prime fields with consistent constants and in particular all twelve", "why_tests_cant": "The continuous integration runs on 64 bits only; these branches are never executed there, and a wrong constant or carry shows only for particular operands.", "anchors": ["libff/algebra/curves/*/*_fields.cpp: init_*_fields, sizeof(mp_limb_t) == 4", "libff/algebra/fields/prime_base/fp.tcc: mul_reduce, operator+=, operator-=, operator-, invert, Fp_model(bigint), Fp_model(long), as_bigint, as_ulong"]}
{"id": "C80", "title": "Double computes exactly on small integers and with bounded error elsewhere", "statement": "Double (complex floating point numbers with the interface of a field, for testing algorithms) adds, subtracts, negates, multiplies and squares Gaussian integers exactly, in programs of any size, as long as no intermediate result exceeds 2^53; otherwise each part is off by at most 2^-53 (sums) or 2^-52 + 2^-106 (products) relative to the numbers added. Sums and products commute, zero and one are neutral; sums are not associative, not even up to ==. == is a comparison with tolerance 10^-6: reflexive, symmetric, exact on integers, not transitive, and it can hold together with <. as_ulong and as_bigint cut off the fraction (a number == 3 can give 2) and are undefined exactly for real parts <= -1 or >= 2^64. random_element returns the integers 0 to 1000.", "quantifier": "all pairs of floating point numbers (without overflow and underflow), all expressions over Gaussian integers of any size", "why_tests_cant": "Rounding shows only for particular operands; that no program with small intermediate results is ever rounded is a statement about all programs.", "anchors": ["libff/common/double.cpp", "libff/common/double.hpp"]}
{"id": "C81", "title": "The fast methods cost what they promise", "statement": "scalar * point calls + once per one in the scalar and dbl once per bit after the first. Exponentiation with window w (fixed_window_wnaf_exp, and opt_window_wnaf_exp with the window it chooses) calls + or - at most 2^(w-1) + bits/(w+1) + 1 times and dbl at most bits + 1 times. Building a window table costs one + per entry and w per row; windowed_exp then costs one + per row and no dbl, whatever the scalar. batch_exp and batch_exp_with_coeff on n scalars cost n times that, in any order of the entries; multi_exp in several chunks costs what the chunks cost and one + per chunk. multi_exp with method naive_plain or naive costs the sum of the single multiplications; with bos_coster, on n scalars of at most B bits (B < 2^20), it ends after at most 2*B*B*n rounds and as many calls of +, plus n+1 exponentiations (polynomial, not proportional to the scalars); with BDLO12, for windows of c bits and g windows, at most g*(length + 2*(2^c-1)) calls of + and (g-1)*c of dbl. batch_invert of n elements takes exactly one inversion and 3n products; batch_to_special_all_non_zeros takes one inversion, 6n products and n squarings (Jacobian) or 5n products (projective). The results are those of the same functions without the record.", "quantifier": "all groups, bases, scalars, windows, vector lengths; all classes with operation counters", "why_tests_cant": "The tests check results, not the number of operations; worst-case cost is a maximum over all scalars, and a quadratic slip or a lost batch saving changes no result.", "anchors": ["libff/algebra/curves/curve_utils.tcc: scalar_mul", "libff/algebra/scalar_multiplication/wnaf.tcc: fixed_window_wnaf_exp, opt_window_wnaf_exp", "libff/algebra/scalar_multiplication/multiexp.tcc: get_window_table, windowed_exp, batch_exp, batch_exp_with_coeff, multi_exp", "libff/algebra/field_utils/field_utils.tcc: batch_invert", "libff/algebra/curves/*: batch_to_special_all_non_zeros"]}
{"id": "C82", "title": "Curves can be initialised from several threads if they share no variables", "statement": "Let several threads call init_public_params of curves, each for its own list of curves, where no curve of one thread is the same as a curve of another and mnt4 and mnt6 are not in different threads; and let further threads compute with curves that no thread is initialising. In a build without PROFILE_OP_COUNTS there is no data race, every execution ends, and, if no assertion fails, there is one outcome: every parameter of every initialised curve has the value a single initialisation gives it, every computation gives the result it gives alone, other static variables are unchanged. Two threads that initialise the same curve, or one mnt4 and the other mnt6, have a data race (undefined behaviour): calls must be synchronised by the user.", "quantifier": "all sets of threads and curves, all contents of the static variables before, all interleavings, all computations on other curves; whatever the functions on the right-hand sides compute", "why_tests_cant": "The tests initialise each curve once, in one thread; races show only in particular interleavings, and there are more of them than can be run.", "anchors": ["libff/algebra/curves/*/*_pp.cpp: init_public_params", "libff/algebra/curves/*/*_init.cpp: init_*_params", "libff/algebra/curves/*/*_fields.cpp: init_*_fields"]}
{"id": "C83", "title": "What is printed identifies the value", "statement": "print of an integer writes its value in decimal (print_hex: in hexadecimal) without leading zeros; print of an element of a prime field writes the residue it stands for; print of an extension field element writes its coefficients line by line; the binary fields write a decimal number (gf32) or a hexadecimal number of fixed length, most significant digit first. In every class two elements print the same exactly if they are equal, although towers are written without closing marks. print of a group element writes O exactly for zero and otherwise the affine coordinates, whatever coordinates are stored: two objects print the same exactly if they are the same group element. print_coordinates writes the stored coordinates: nonzero objects print the same exactly if they are stored alike. None of these fails on a valid object; an Edwards object that is_well_formed wrongly accepts cannot be printed (the program aborts).", "quantifier": "all integers of any width, all elements of all fields and towers over any valid prime, all binary field elements, all objects denoting a point in any of the coordinate systems", "why_tests_cant": "No test looks at printed output, and that no two of the astronomically many elements print alike is a statement about all pairs.", "anchors": ["libff/algebra/field_utils/bigint.tcc: print, print_hex", "libff/algebra/fields/prime_base/fp.tcc: print", "libff/algebra/fields/prime_extension/*.hpp: print", "libff/algebra/fields/binary/*.cpp: print", "libff/algebra/curves/*/*_g1.cpp, *_g2.cpp: print, print_coordinates"]}
{"id": "C84", "title": "Writing and reading an object at once normalises it", "statement": "reserialize returns field elements, binary field elements and containers exactly as they were. For a group element it returns an element equal to the argument, which reserialize leaves unchanged from then on, and two elements give the same object exactly when they are equal; so it computes a normal form. For compressed G2 this excludes the elements whose affine Y has first coefficient zero without being zero: on every native curve there are two different well formed elements for which any reader gives the same result.", "quantifier": "all elements of all field classes, all well formed elements of the ten groups of the native curves in all coordinates, all build options; for the exclusion: all readers", "why_tests_cant": "The unit tests call reserialize on a few random elements; the elements it loses have density 1/q, and a test never meets them.", "anchors": ["libff/common/serialization.tcc: reserialize", "libff/algebra/curves/alt_bn128/alt_bn128_g1.cpp: operator<<, operator>>", "libff/algebra/curves/alt_bn128/alt_bn128_g2.cpp: operator<<, operator>>", "libff/algebra/fields/prime_base/fp.tcc: operator<<, operator>>"]}
{"id": "C85", "title": "Pairing values can be handled with the cheap operations of the target group", "statement": "On the values of a reduced pairing of admissible arguments, unitary_inverse is the inverse, cyclotomic_squared the square and cyclotomic_exp the power, although these operations are wrong on general elements of the same class. Negating either argument of the pairing gives the unitary_inverse of its value.", "quantifier": "all well formed first arguments (non-zero on mnt4 and mnt6), all second arguments that are non-zero multiples of G2::one(), all exponents with two values of headroom in their limbs, on alt_bn128, bls12_381, mnt4, mnt6 and edwards", "why_tests_cant": "The tests check unitary_inverse and cyclotomic operations on a few final exponentiations of random elements; that they are right for every pair of arguments rests on r dividing the cyclotomic polynomial's value and on bilinearity.", "anchors": ["libff/algebra/fields/prime_extension/fp12_2over3over2.tcc: unitary_inverse, cyclotomic_squared, cyclotomic_exp", "libff/algebra/fields/prime_extension/fp6_2over3.tcc: unitary_inverse, cyclotomic_squared, cyclotomic_exp", "libff/algebra/fields/prime_extension/fp4.tcc: unitary_inverse, cyclotomic_squared, cyclotomic_exp", "libff/algebra/curves/alt_bn128/alt_bn128_pairing.cpp: alt_bn128_reduced_pairing", "libff/algebra/curves/mnt/mnt4/mnt4_pairing.cpp: mnt4_reduced_pairing"]}
{"id": "C86", "title": "With one argument fixed the pairing is a bijection onto the target group", "statement": "For non-zero elements of the two groups of order r: two reduced pairings with the same second argument have the same value exactly if the first arguments are == (whatever their coordinates), likewise with the roles exchanged; and every r-th root of unity other than 1 is the pairing of a given element with some element of the other group.", "quantifier": "all non-zero multiples of G1::one() and G2::one() in all coordinates, and all r-th roots of unity of the target field, on alt_bn128, bls12_381, mnt4, mnt6 and edwards", "why_tests_cant": "A test compares a few pairing values; that no two of about 2^256 elements share a value, and that none of the target group is missed, needs the algebra. Signature and commitment schemes rest on it.", "anchors": ["libff/algebra/curves/alt_bn128/alt_bn128_pairing.cpp: alt_bn128_reduced_pairing", "libff/algebra/curves/bls12_381/bls12_381_pairing.cpp: bls12_381_reduced_pairing", "libff/algebra/curves/mnt/mnt4/mnt4_pairing.cpp: mnt4_reduced_pairing", "libff/algebra/curves/mnt/mnt6/mnt6_pairing.cpp: mnt6_reduced_pairing", "libff/algebra/curves/edwards/edwards_pairing.cpp: edwards_reduced_pairing"]}
{"id": "C87", "title": "The pairing of a multi-exponentiation is the product of the powers of the pairings", "statement": "If each base b_i has reduced pairing v_i with a fixed element q, then multi_exp and multi_exp_with_mixed_addition (method BDLO12) on the bases with scalars s_i succeed, and the reduced pairing of the result with q is the product of the v_i^s_i; likewise with multi-exponentiations in the second argument. A result that is zero is excluded where the pairing does not accept zero (second argument everywhere, first argument on mnt4 and mnt6).", "quantifier": "all vectors of at most 2^42 bases that are admissible pairing arguments (special ones for the mixed entry point), all vectors of scalars of the same length, every positive number of chunks in every order of execution, both build modes, on alt_bn128, bls12_381, mnt4, mnt6 and edwards", "why_tests_cant": "Verifiers replace a product of pairings by one pairing of a multi-exponentiation. That this is sound ranges over all vectors, scalars and thread schedules; a test tries a few short vectors.", "anchors": ["libff/algebra/scalar_multiplication/multiexp.tcc: multi_exp, multi_exp_with_mixed_addition", "libff/algebra/curves/alt_bn128/alt_bn128_pairing.cpp: alt_bn128_reduced_pairing", "libff/algebra/curves/bls12_381/bls12_381_pairing.cpp: bls12_381_reduced_pairing", "libff/algebra/curves/mnt/mnt4/mnt4_pairing.cpp: mnt4_reduced_pairing", "libff/algebra/curves/mnt/mnt6/mnt6_pairing.cpp: mnt6_reduced_pairing", "libff/algebra/curves/edwards/edwards_pairing.cpp: edwards_reduced_pairing"]}
{"id": "C88", "title": "A batched pairing check lets a false equation pass for at most one value of its scalar", "statement": "A verifier checks the equations reduced_pairing(b_i, q) = c_i (c_i r-th roots of unity) at once: it compares the reduced pairing of multi_exp(b, s) with the product of the c_i^s_i. If the equation j is false then, whatever the other scalars are and whatever the other claims are, at most one of the r values of s_j lets the check pass, so a random s_j misses the fault with probability at most 1/r. Likewise for equations reduced_pairing(p, b_i) = c_i. (That true equations always pass is C87.) Checks whose multi-exponentiation gives zero are excluded where the pairing does not accept zero.", "quantifier": "all vectors of at most 2^42 admissible bases, all claims in the target group, all scalars, every number and order of chunks, multi_exp and multi_exp_with_mixed_addition (method BDLO12), on alt_bn128, bls12_381, mnt4, mnt6 and edwards", "why_tests_cant": "The claim counts the scalars, among about 2^256, for which a wrong input is accepted; no test can show that there is no second one.", "anchors": ["libff/algebra/scalar_multiplication/multiexp.tcc: multi_exp, multi_exp_with_mixed_addition", "libff/algebra/curves/alt_bn128/alt_bn128_pairing.cpp: alt_bn128_reduced_pairing", "libff/algebra/curves/bls12_381/bls12_381_pairing.cpp: bls12_381_reduced_pairing", "libff/algebra/curves/mnt/mnt4/mnt4_pairing.cpp: mnt4_reduced_pairing", "libff/algebra/curves/mnt/mnt6/mnt6_pairing.cpp: mnt6_reduced_pairing", "libff/algebra/curves/edwards/edwards_pairing.cpp: edwards_reduced_pairing"]}
{"id": "C89", "title": "A commitment with a key made by batch_exp is the multiple by the inner product", "statement": "For a generator: get_window_table succeeds, batch_exp makes of the table and of any vector v of scalars a key (v_i * one), and multi_exp (BDLO12) of the key with any scalars s is == to (sum of v_i s_i) * one; after batch_to_special of the key, which succeeds, multi_exp_with_mixed_addition gives the same. With v the powers of tau, the commitment to the coefficients of p is p(tau) * one.", "quantifier": "all vectors of at most 2^42 scalars, all windows from 1 to 32, all orders of execution of the parallel loops and all positive numbers of chunks, both build modes, on the ten curve groups of alt_bn128, bls12_381, mnt4, mnt6 and edwards (and on the two of bn128, given that the external ECAdd and ECDouble are right)", "why_tests_cant": "Every proving system built on the library generates its keys with one function and uses them with another. Agreement for all vectors and scalars, including zeros, repeated entries and reductions mod r, is beyond sampling.", "anchors": ["libff/algebra/scalar_multiplication/multiexp.tcc: get_window_table, batch_exp, multi_exp, multi_exp_with_mixed_addition", "libff/algebra/curves/curve_utils.tcc: scalar_mul"]}
