#!/usr/bin/env python3
"""Writes /verif/properties.jsonl from the table below."""
import json, os
P = []
def prop(title, statement, quantifier, why, anchors):
    P.append(dict(id=f"C{len(P)+1:02d}", title=title, statement=statement, quantifier=quantifier,
                  why_tests_cant=why, anchors=anchors))
S = "src/field/scalar.rs"
E = "src/curve/edwards/extended.rs"
T = "src/curve/twedwards/"
M = "src/curve/montgomery/montgomery.rs"
D = "src/decaf/decaf.rs"
BIG = "The input space has about 2^446 elements or more; unit tests touch a handful of literals."
# ---- scalars
prop("Scalar addition is addition modulo the group order",
 "For canonical scalars a, b (value below l), a + b returns without panicking a canonical scalar whose value is (a + b) mod l.",
 "all pairs of canonical 448-bit scalars", BIG + " Carry/borrow chains fail only on rare limb patterns.",
 [S+": add, sub_extra, impl Add"])
prop("Scalar subtraction is subtraction modulo the group order",
 "For canonical scalars a, b, a - b returns without panicking the canonical scalar whose value is (a - b) mod l.",
 "all pairs of canonical scalars", BIG, [S+": sub_extra, impl Sub"])
prop("Scalar multiplication is multiplication modulo the group order, for unreduced inputs too",
 "For every two Scalar values a, b that can be built, including unreduced ones from Scalar::from_bytes, a * b never panics and returns the canonical scalar with value a*b mod l.",
 "all pairs of 14-limb scalars", BIG + " The Montgomery carry word is non-zero only for rare operand pairs.",
 [S+": montgomery_multiply, impl Mul, R2"])
prop("Scalar inversion",
 "For every Scalar s, s.invert() never panics and returns a canonical scalar; if s is not divisible by l then s * s.invert() == Scalar::one(), otherwise s.invert() == Scalar::zero().",
 "all 14-limb scalars, canonical or not", BIG + " The sliding window schedule and primality of l decide the result.",
 [S+": invert"])
prop("Halving",
 "For every Scalar s, 2 * s.halve() is congruent to s modulo l, halve never panics, and halving a canonical scalar gives a canonical scalar.",
 "all 14-limb scalars", BIG, [S+": halve"])
prop("Scalar byte codec is a bijection",
 "Scalar::from_bytes(s.to_bytes()) has the same limbs as s, from_bytes(b).to_bytes() == b, and the bytes are the little-endian value.",
 "all scalars and all 56-byte strings", BIG, [S+": from_bytes, to_bytes"])
prop("Canonical scalar decoding accepts exactly the canonical encodings",
 "from_canonical_bytes(b) is Some(s) iff the little-endian value of the 57 bytes is below l, then s has that value, and to_bytes_rfc_8032 is its inverse on canonical scalars.",
 "all 57-byte strings", "2^456 inputs; acceptance must be exact at the boundary l.", [S+": from_canonical_bytes, to_bytes_rfc_8032, sub_extra"])
prop("Wide reduction",
 "from_bytes_mod_order_wide(b) never panics and returns the canonical scalar equal to the 912-bit little-endian value of b modulo l.",
 "all 114-byte strings", "2^912 inputs.", [S+": from_bytes_mod_order_wide, R, R2"])
prop("Random scalars are canonical and almost uniform",
 "Scalar::random is the wide reduction of the RNG's 114 bytes: the result is canonical and every residue modulo l is hit by either floor(2^912/l) or floor(2^912/l)+1 byte strings.",
 "all RNG outputs, all residues", "Uniformity over 2^912 inputs is a counting statement.", [S+": random"])
prop("Bit decomposition",
 "s.bits() has 448 entries, least significant first, and their weighted sum is the value of s.",
 "all scalars", BIG, [S+": bits"])
prop("Scalar arithmetic on unreduced scalars",
 "Claim a user might rely on: a + b and a - b are correct modulo l for every two Scalar values that the public API can build (Scalar::from_bytes does not reduce).",
 "all pairs of 14-limb scalars", "Only unreduced operands expose it.", [S+": add, sub_extra, from_bytes"])
prop("Canonical scalars form a field under the API's operators",
 "On canonical scalars +, -, * and == satisfy the commutative ring axioms and every non-zero scalar has a multiplicative inverse; == is equality of values.",
 "all triples of canonical scalars", BIG, [S+": impl Add, impl Sub, impl Mul, invert, ConstantTimeEq"])
# ---- Edwards
prop("Edwards points stay on the curve",
 "Every point produced by any sequence of public operations (identity, generator, decompress, add, sub, negate, double, torque, scalar multiplication, sum, conditional selection) is a valid extended point of x^2+y^2=1-39081x^2y^2 with Z != 0 and T Z = X Y.",
 "all finite operation histories", "Histories are unbounded; an exceptional case of an incomplete formula would be hit with negligible probability by random tests.",
 [E+": add, double, negate, torque, scalar_mul, decompress", "src/curve/edwards/affine.rs: to_extended"])
prop("Point addition is the complete group law",
 "For all points P, Q (equal, opposite, identity, torsion), P + Q represents the affine Edwards sum, and with negation and identity this is an abelian group: associative, commutative, P - P is the identity.",
 "all triples of curve points and all projective representatives", "Associativity and completeness are statements about every pair of points of a 2^448-element group.",
 [E+": add, negate, identity, impl Sub, impl Neg"])
prop("Point equality is equality of group elements",
 "P == Q holds iff both represent the same affine point, whatever their projective representatives; it is an equivalence relation and a congruence for all operations.",
 "all pairs of points and representatives", "Representatives range over every non-zero Z.", [E+": ConstantTimeEq, PartialEq"])
prop("Variable-base scalar multiplication",
 "For every curve point P, including torsion points, and every Scalar s (448 bits, canonical or not), s * P never panics and represents the s-fold sum of P.",
 "all points, all 448-bit scalars", "The isogeny strategy uses incomplete twisted formulas, exceptional only on negligible sets.",
 [E+": scalar_mul, scalar_mod_four, to_twisted", T+"extended.rs: to_untwisted", "src/curve/scalar_mul/variable_base.rs", S+": to_radix_16, div_by_four"])
prop("Scalar multiplication is linear",
 "s*(P+Q) = s*P + s*Q for all points and scalars; for torsion-free P, (a+b)*P = a*P + b*P and (a*b)*P = a*(b*P) with canonical scalar arithmetic.",
 "all scalars, all points", BIG, [E+": scalar_mul", S+": add, impl Mul"])
prop("Torsion-freeness test",
 "P.is_torsion_free() is true iff P is a multiple of the generator, iff l*P is the identity.",
 "all curve points", "A universally quantified membership statement about the group of order 4l.", [E+": is_torsion_free", "src/constants.rs: BASEPOINT_ORDER"])
prop("Group orders and cofactor",
 "The generator has order exactly l (a prime), the curve has exactly 4*l points, and for every point P, 4*P is torsion-free.",
 "all curve points", "Counting about 2^448 points.", ["src/field/u32/constants.rs: GOLDILOCKS_BASE_POINT", "src/constants.rs: BASEPOINT_ORDER", "readme.md"])
prop("Edwards compression round-trip",
 "For every point P, P.compress().decompress() is Some(Q) with Q == P.",
 "all points and representatives", BIG, [E+": compress, decompress"])
prop("Edwards compression is injective and representation independent",
 "P.compress() and Q.compress() give the same 57 bytes iff P == Q.",
 "all pairs of points", BIG, [E+": compress, to_affine"])
prop("Edwards decompression accepts exactly encodings of curve points",
 "decompress(b) is Some iff some curve point has y-coordinate equal to the first 56 bytes modulo p; the result then has that y, and x has the parity of the top bit of byte 56 unless x = 0.",
 "all 57-byte strings", "2^456 inputs.", [E+": CompressedEdwardsY::decompress", "src/field/mod.rs: sqrt_ratio"])
prop("Edwards encodings are unique",
 "Claim a user might rely on (RFC 8032): if decompress(b) is Some(P) then P.compress() == b, i.e. non-canonical encodings are rejected.",
 "all 57-byte strings", "Only non-canonical strings expose it.", [E+": decompress, compress"])
prop("Torque adds the point of order two",
 "P.torque() represents P + (0,-1); applying it twice gives P; P and P.torque() are never equal.",
 "all points", BIG, [E+": torque"])
prop("Isogenies compose to multiplication by four",
 "Mapping a curve point to the twisted curve and back gives 4*P; both maps are defined everywhere (no zero denominator), and send sums to sums; the map to the twisted curve kills exactly the 4-torsion, the map back exactly (0, 1) and (0, -1) among the affine points.",
 "all curve points", "Zero denominators would occur on negligible sets.", [E+": edwards_isogeny, to_twisted", T+"extended.rs: edwards_isogeny, to_untwisted"])
prop("All scalar multiplication routines agree",
 "On the twisted image of any curve point, windowed variable-base multiplication and double-and-add give equal points for every scalar, and double-base multiplication gives a*A + b*B.",
 "all scalars, all image points", BIG, ["src/curve/scalar_mul/variable_base.rs", "src/curve/scalar_mul/double_and_add.rs", "src/curve/scalar_mul/double_base.rs"])
prop("Signed radix-16 recoding",
 "The recoding used by scalar multiplication has 113 digits, each in [-8, 8) except the last in {0,1}, weighted sum equal to the scalar, and never overflows i8.",
 "all 448-bit scalars", BIG, [S+": to_radix_16"])
prop("Window table selection",
 "The precomputed table of a point selects i*P for index i in 0..=8 (and the identity for any other index), and conditional negation yields -i*P.",
 "all points, all indices", BIG, ["src/curve/scalar_mul/window/wnaf/mod.rs: LookupTable", T+"projective.rs: conditional_negate"])
prop("Iterator sum",
 "Summing any iterator of points gives the group sum, independent of the order of the items; the empty sum is the identity.",
 "all finite sequences of points", "Unbounded length, all permutations.", [E+": impl Sum"])
# ---- Montgomery
prop("Edwards to Montgomery map",
 "to_montgomery(P) is the canonical encoding of y^2/x^2 (0 when x = 0), depends only on the group element, and is unchanged by negation and torque.",
 "all points and representatives", BIG, [E+": to_montgomery"])
prop("Montgomery scalar multiplication",
 "Claim a user relies on: scalar * u is the u-coordinate of scalar*P for every point P of Curve448 or its twist with u-coordinate u (0 for the point at infinity).",
 "all 56-byte u, all 448-bit scalars", "The existing test uses one even scalar; the claim depends on the scalar's low bit.", [M+": impl Mul, differential_add_and_double"])
prop("Montgomery and Edwards multiplication commute with the map",
 "to_montgomery(s*P) == s * to_montgomery(P).",
 "all points, all scalars", "Same as above.", [M+": impl Mul", E+": to_montgomery, scalar_mul"])
prop("Diffie-Hellman agreement on u-coordinates",
 "a * (b * u) == b * (a * u) as byte strings.",
 "all 56-byte u (points on the curve and on the twist), all pairs of scalars", BIG, [M+": impl Mul"])
prop("Montgomery multiplication reads u modulo p and writes canonically",
 "s * u depends only on the value of the 56 bytes modulo p and its output is always the canonical encoding (value below p).",
 "all byte strings, all scalars", BIG, [M+": impl Mul, to_affine"])
prop("Low order check",
 "Claim: is_low_order(u) is true iff u decodes to the u-coordinate of a point of order dividing 4 on Curve448 or its twist.",
 "all 56-byte strings", "Non-canonical encodings are not in the tests.", [M+": is_low_order, LOW_A, LOW_B, LOW_C"])
# ---- Decaf
prop("Decaf points stay valid",
 "Every DecafPoint produced by any history of identity, generator, decompress, add, sub, neg, scalar multiplication is a valid point on which every later operation is defined (no zero denominators although the twisted addition law is incomplete).",
 "all finite operation histories", "Exceptional pairs have negligible density.", [D+": decompress", "src/decaf/ops.rs"])
prop("Decaf round-trip",
 "For every DecafPoint P reachable through the API, P.compress().decompress() is Some(Q) with Q equal to P.",
 "all reachable Decaf points and representatives", BIG, [D+": compress, decompress"])
prop("Decaf encodings are unique",
 "If decompress(b) is Some(P) then P.compress() == b: each group element has exactly one accepted encoding.",
 "all 56-byte strings", "2^448 inputs.", [D+": compress, decompress"])
prop("Decaf decoding acceptance criterion",
 "decompress(b) is Some iff the value s of b is below p, even, and (1-s^2)^2 + 4*39082*s^2 is a non-zero square; in particular every non-canonical or odd string is rejected.",
 "all 56-byte strings", "2^448 inputs.", [D+": decompress"])
prop("Decaf equality is equality of encodings",
 "P.equals(Q) iff P.compress() == Q.compress(); equals is an equivalence relation and all operations respect it.",
 "all reachable Decaf points", "equals compares only X/Y; that this ignores exactly the 2-torsion is a statement about all points.", [D+": equals", "src/decaf/ops.rs"])
prop("Decaf is a group of prime order",
 "Under add, sub, neg and equals reachable Decaf points form an abelian group of order l: l*P equals the identity, and every element is a multiple of the generator.",
 "all reachable Decaf points", "A statement about the whole group.", [D, "src/decaf/ops.rs"])
prop("Decaf scalar multiplication",
 "For every Decaf point P and scalar s, s*P is the s-fold sum; with canonical scalar arithmetic (a+b)*P equals a*P + b*P and (a*b)*P equals a*(b*P).",
 "all Decaf points, all scalars", BIG, ["src/decaf/ops.rs", "src/curve/scalar_mul/double_and_add.rs"])
prop("Decaf identity encoding",
 "A Decaf point encodes to 56 zero bytes iff it equals the identity.",
 "all reachable Decaf points", BIG, [D+": compress, CompressedDecaf::identity"])
# ---- field backends
prop("32-bit backend field arithmetic is correct and never panics",
 "For every field element that can arise, +, -, *, square and negate of the 32-bit backend compute the operation modulo p, preserve the limb bound and never hit a checked-arithmetic overflow.",
 "all limb vectors within the invariant", "Carry and overflow behaviour depends on limb magnitudes no test enumerates.", ["src/field/u32/prime_field.rs", "src/field/u32/karatsuba.rs"])
prop("32-bit backend serialisation is canonical",
 "to_bytes returns the unique little-endian encoding below p and its internal assertions never fire; from_bytes reads the value modulo p; two elements are == iff congruent modulo p.",
 "all limb vectors within the invariant, all 56-byte strings", BIG, ["src/field/u32/prime_field.rs: strong_reduce, to_bytes, from_bytes", "src/field/mod.rs: ct_eq"])
prop("Field inversion and square roots",
 "invert(x) is 1/x (0 for 0); inverse_square_root reports success iff x is a non-zero square and then returns r with r^2 x = 1; sqrt_ratio(u,v) succeeds iff u = 0 or u*v is a non-zero square and then r^2 v = u for v != 0.",
 "all field elements", BIG, ["src/field/mod.rs: invert, inverse_square_root, sqrt_ratio"])
prop("Backends are interchangeable",
 "Every byte string, boolean or Option produced by the public API is the same for the 32-bit backend and for any 64-bit backend meeting the fiat-crypto contract.",
 "all inputs, all operation sequences", "Two implementations over 2^448 inputs.", ["src/field/mod.rs: FieldElement", "src/field/fiat_u64/prime_field.rs", "src/field/u32/prime_field.rs"])
prop("64-bit backend respects the fiat-crypto bounds",
 "The wrapper only calls fiat functions on inputs within their documented limb bounds, although four constants exceed the tight bound.",
 "all operation sequences", "fiat functions do not check their preconditions.", ["src/field/fiat_u64/prime_field.rs", "src/field/fiat_u64/constants.rs"])
prop("Published constants have their documented values",
 "In both backends the curve constants, base points, order, Montgomery R and R^2 have their documented values; the twisted base point is the isogeny image of the base point.",
 "all listed constants", "A finite table, but the relations (on curve, order l, prime) quantify over the group.", ["src/field/u32/constants.rs", "src/field/fiat_u64/constants.rs", "src/constants.rs", S+": R, R2"])
prop("Unfinished API panics",
 "RistrettoPoint::encode, CompressedRistretto::decode and MontgomeryPoint::to_edwards panic on every input.",
 "all inputs", "A universal statement; tests do not call them.", ["src/ristretto/ristretto.rs: encode, decode", M+": to_edwards"])
prop("Ristretto point equality",
 "RistrettoPoint::equals is an equivalence relation on points of the twisted curve. On the isogeny image (up to sign) it holds iff the two points differ by the identity or the point of order two; on the whole twisted curve it holds iff they do or one is the translate of the other by a point of order 4 at infinity.",
 "all valid points", BIG, ["src/ristretto/ristretto.rs: equals"])
prop("Cached affine points are consistent with addition",
 "Claim: converting an affine point to the cached affine form and adding it gives the sum, and converting back gives the point.",
 "all image points", "The code path is not exercised by tests.", [T+"affine.rs: to_affine_niels, AffineNielsPoint::to_extended", T+"extensible.rs: add_affine_niels"])
prop("Secret-independent timing",
 "The running time and memory access pattern of scalar multiplication do not depend on the scalar.",
 "all scalars", "Timing is a property of the compiled code and the machine.", ["src/curve/scalar_mul/variable_base.rs", "src/curve/scalar_mul/window/wnaf/mod.rs", M])
prop("Twisted addition is complete on the isogeny image",
 "Adding two twisted points of the form +-phi(R) never produces Z = 0. On the whole twisted curve addition fails exactly when (39082 x x' y y')^2 = 1, and such pairs exist, because the twisted coefficient is a square.",
 "all pairs of twisted points", "Exceptional pairs are a negligible fraction of the inputs.", [T+"extended.rs: add", T+"extensible.rs: add_extended"])
prop("Affine twisted points follow the group law",
 "On the isogeny image, AffinePoint::add, negate and identity are the group operations and agree with the projective ones; is_on_curve is the equation y^2 - x^2 = 1 - 39082 x^2 y^2; to_affine followed by to_extended is the same point.",
 "all affine points of the isogeny image; on-curve test for all pairs of field elements", BIG, [T+"affine.rs: add, negate, identity, is_on_curve, to_extensible, to_extended", T+"extended.rs: to_affine"])
prop("All twisted addition routines agree",
 "add_extensible, add_extended, add_projective_niels, sub_extended and conditional negation compute the same sums and differences whatever coordinate form the operand is in; the conversions between extended, extensible and projective Niels form keep the point.",
 "all points of the isogeny image up to sign", BIG, [T+"extensible.rs", T+"projective.rs", T+"extended.rs"])
prop("Known answers",
 "The unit tests of the repository that run the modelled code, the 16 libdecaf multiples, the X448 vectors of RFC 7748 and two Ed448 vectors of RFC 8032 (digests given) hold on every lawful backend. This is a finite table, listed separately because it checks the model against published data.",
 "all lawful backends; the listed vectors", "The tests run one backend per build.", ["src/decaf/decaf.rs: test_vectors_lib_decaf", "src/curve/edwards/extended.rs: tests", T+"extended.rs: tests", S+": tests"])
prop("Ed448 signatures on top of the library",
 "With the RFC 8032 equations written over the API, signing never panics and its output always verifies; verification accepts iff S is below l, key and R decode, and S B = R + k A on the curve; for given key, R and challenge at most one S is accepted.",
 "all secrets, nonces, challenges, keys and signatures", BIG, [S+": from_bytes_mod_order_wide, from_canonical_bytes, to_bytes_rfc_8032", "src/curve/edwards/extended.rs: scalar_mul, compress, decompress"])
prop("X448 on top of the library",
 "The ladder on a clamped scalar returns the canonical u-coordinate of the multiple for every u, on the curve or its twist; both parties of a Diffie-Hellman exchange agree; the public key is the Montgomery form of the Edwards multiple of the base point.",
 "all 56-byte scalars and u-coordinates", BIG, [M+": Mul"])
prop("Operators are the group operations",
 "Every variant of +, -, unary -, *, +=, -=, *= on Edwards points (and scalar * point for Edwards, Decaf and Montgomery points) computes the group operation without panic; == on cached, affine and compressed points compares the points, coordinates or bytes; Default is the identity.",
 "all points and scalars", BIG, ["src/macros.rs", "src/curve/edwards/extended.rs: Add, AddAssign, Sub, SubAssign, Neg, Mul, MulAssign", "src/decaf/ops.rs", T+"projective.rs: PartialEq, Default"])
prop("Limb access of scalars",
 "scalar[i] is the i-th base-2^32 digit of the value and assignment to it changes that digit only; both panic exactly for i >= 14. From<u32> has the value of its argument; == compares integers, not residues; square returns a^2 / 2^448 mod l.",
 "all scalars, indices and words", BIG, [S+": Index, IndexMut, From<u32>, Default, ConstantTimeEq, square"])
prop("Zero outputs of X448",
 "X448 over the library returns zero exactly when u is 0, 1 or -1 mod p (a point of order dividing 4, on the curve or its twist), or when the clamped scalar is 4 l and u is on the curve. Curve448 has 4 l points and its quadratic twist 4 l' points with l and l' prime.",
 "all 56-byte scalars and u-coordinates", "There is one exceptional scalar and five exceptional byte strings.", [M+": Mul, is_low_order"])
prop("Keys and inputs with the same X448 output",
 "On an input not of small order, two secret keys give the same output iff their clamped values agree or add up to 8 l (on the curve) or 4 l' (on the twist); for public keys iff they agree or add up to 8 l. Whether two inputs give the same output does not depend on the key, the key 4 l aside.",
 "all pairs of 56-byte keys and inputs", "Colliding keys are a negligible fraction of the inputs.", [M+": Mul"])
prop("Scalar arithmetic, stated on the translated source",
 "For the functions of src/field/scalar.rs as translated mechanically, on raw arrays: +, - (canonical operands), * (any words), invert, halve, the byte encodings, the wide reduction, bits and to_radix_16 never panic and return the values C01-C08, C10 and C27 require.",
 "all arrays of 14 words, 56, 57 and 114 bytes", BIG, [S])
prop("32-bit field arithmetic, stated on the translated source",
 "For the functions of src/field/u32 as translated mechanically: on limbs at most 2^28 + 2^8 they never panic, stay within that bound and compute +, -, *, square and negation mod p; to_bytes writes the canonical residue; from_bytes reads any 56 bytes.",
 "all limb arrays within the bound; all 56-byte strings", BIG, ["src/field/u32/prime_field.rs", "src/field/u32/karatsuba.rs"])
prop("The field interface is the translated backend",
 "Each operation and constant that the curve code uses through the field interface equals, limb for limb, the mechanically translated function of the 32-bit backend, and of the 64-bit wrapper around any functions meeting the documented contract.",
 "all field elements of both backends", "One build has one backend; limb equality is checked nowhere.", ["src/field/u32/prime_field.rs", "src/field/u32/constants.rs", "src/field/fiat_u64/prime_field.rs", "src/field/fiat_u64/constants.rs"])
prop("Points, stated on the translated source",
 "For the translated functions of src/curve and src/decaf on any lawful backend: Edwards operations are the group operations including multiplication by any 14 words and the torsion check; the Edwards and Decaf codecs, the Decaf group of prime order and the Montgomery ladder are as in C14-C22, C33, C34, C37-C42.",
 "all points, arrays of words and byte strings", BIG, ["src/curve/edwards/extended.rs", M, "src/decaf/ops.rs", D])
prop("Constant time, scalars and field",
 "In a leakage model of the source in which branches, short-circuit operators, loop counts, computed array indices, variable shift amounts and array comparisons are visible: scalar +, -, *, ==, square, invert, halve, div_by_four, the codecs and recodings, and every operation of the 32-bit field and of the 64-bit wrapper show one fixed sequence of events for all operands, reduced or not; an accepted canonical encoding shows only that it was accepted.",
 "all arrays of words, limbs and bytes in the domain of each function", "A leak changes no output; a test sees outputs.", [S, "src/field/u32/prime_field.rs", "src/field/u32/karatsuba.rs", "src/field/fiat_u64/prime_field.rs"])
prop("Constant time, curves",
 "In the same leakage model: scalar multiplication of Edwards, twisted, Montgomery and Decaf points, the group operations, equality, selection, encoding, the torsion check and field inversion show one fixed sequence of events for all scalars and points; decoding shows only whether the input was accepted. The low-order test and rejected scalar encodings do show more.",
 "all 14-word scalars, all coordinates, all byte strings, both backends", "A leak changes no output; a test sees outputs.", ["src/curve/scalar_mul", "src/curve/edwards/extended.rs", M, D, "src/field/mod.rs"])
# ---- exact behaviour where an expected claim fails
prop("When sums and differences of unreduced scalars are right",
 "For every two Scalar values a + b returns a value congruent to the sum modulo l exactly if a + b < 2^448 + l as integers, and a - b a value congruent to the difference exactly if b <= a + l.",
 "all pairs of 14-limb scalars", BIG + " The wrong results need operands close to 2^448 and no panic or check reveals them.",
 [S+": add, sub_extra, from_bytes"])
prop("All encodings of an Edwards point",
 "A 57-byte string decodes to the point (x, y) exactly if its low 448 bits are y modulo p and its top bit is the parity of x or x = 0; the seven bits between are ignored. A decoder that also requires compress to give the string back accepts exactly one string for each point.",
 "all 57-byte strings, all curve points", BIG + " The sets of duplicates are invisible unless one searches for them.",
 [E+": decompress, compress"])
prop("What the Montgomery ladder computes, and its repair",
 "For every point P of Curve448 or its twist, scalar * u(P) is u([s + s mod 2] P). With the swap after the loop that Algorithm 8 of Costello and Smith has, the result is u([s] P) for every scalar, commutes with the map from Edwards points, and is unchanged for even scalars.",
 "all 56-byte u, all 448-bit scalars, all Edwards points", BIG + " The only test uses an even scalar.",
 [M+": impl Mul<&Scalar> for &MontgomeryPoint, differential_add_and_double", E+": to_montgomery"])
prop("What the low order check accepts, and its repair",
 "is_low_order(u) is true exactly if u is below p and the u-coordinate of a point of order dividing 4; applied to the canonical encoding of u it is true exactly for all of those points.",
 "all 56-byte strings, all points of Curve448 and its twist", BIG + " The two missed strings are p and p + 1.",
 [M+": is_low_order, LOW_A, LOW_B, LOW_C"])
prop("What adding a cached affine point computes, and its repair",
 "Adding the cached form of an affine point gives the sum with both affine coordinates doubled. With the halving documented on AffineNielsPoint the sum is right and converting back gives the point.",
 "all points of the isogeny image", "No test adds a cached affine point.",
 [T+"affine.rs: to_affine_niels, AffineNielsPoint::to_extended", T+"extensible.rs: add_affine_niels"])
prop("The crate's own tests, translated",
 "Each of the forty #[test] functions of the crate, translated by the same tool as the source, runs to its end on the translated source: every assertion holds and nothing panics. The test of the 64-bit backend does so for all external functions that keep their documented contract.",
 "the forty test functions; for the 64-bit backend all fiat-crypto functions within the contract", "The tests cannot be run here; this ties the translation to the expectations they record.",
 [S+": mod test", "src/field/u32/karatsuba.rs: tests", "src/field/fiat_u64/prime_field.rs: mod tests", E+": mod tests", T+"extended.rs: mod tests", D+": mod test", "src/curve/scalar_mul"])
prop("Release builds return what debug builds return",
 "With overflow checks off, arithmetic wraps around instead of panicking. Every function of the crate still returns, and returns the same result as with the checks on: scalar arithmetic and codecs on any words or bytes, the 32-bit field within its limb bound, and all point operations on any coordinates. Outside the limb bound there are sums and differences where the checked build panics and the unchecked build returns a wrong field element.",
 "all 14-word scalars, all byte strings, all limbs up to 2^28 + 2^8, all coordinates, both backends", "Tests run in a debug build only; a wrapped intermediate value appears for rare operands.",
 [S, "src/field/u32", "src/field/mod.rs", "src/curve", D])
prop("The repaired source meets the claims that the source fails",
 "The patches in repairs/ change the Rust text so that: + and - are right for all scalars, reduced or not (C11); decompress accepts exactly one string for each Edwards point (C23); the Montgomery ladder computes u([s] P) for every scalar and commutes with the map from Edwards points (C31, C32); is_low_order is right for all 56-byte strings (C35); the 64-bit backend stays within the documented fiat-crypto bounds in every program over the library (C48); cached affine points add and convert correctly (C52). Where the source was right the patched source returns the same, and the tests of the crate that use a patched function still pass.",
 "all scalars, all byte strings, all points of the curves and the twist, all fiat-crypto functions within the contract", BIG + " A repair is itself code that needs checking.",
 [S+": add, impl Sub", E+": decompress", M+": impl Mul, is_low_order", T+"affine.rs: to_affine_niels, to_extended", T+"extensible.rs: add_affine_niels", "src/field/fiat_u64/constants.rs", "src/field/fiat_u64/prime_field.rs: minus_one"])
prop("Decaf is the decaf448 of RFC 9496",
 "Against the algorithms of section 5 of RFC 9496 as written there: the library accepts the same strings, and what the two sides decode from a string stays related under addition, subtraction, negation and scalar multiplication (on the RFC's side the group law of edwards448); related points have the same encoding and compare equal to the same points; identity and generator are related.",
 "all 56-byte strings, all points reached from decoded ones, all scalars", BIG + " The library computes in other coordinates on another curve than the RFC.",
 [D+": compress, decompress, add, sub, neg, scalar mul, equals", "src/constants.rs: DECAF_FACTOR, DECAF_BASEPOINT"])
prop("Edwards encodings against RFC 8032",
 "compress is the encoding of section 5.2.2 of RFC 8032. decompress decodes everything that section 5.2.3 decodes, to the same point; it accepts more, exactly the strings that are not the encoding of the point decoded. With the patch of repairs/ it is the decoding of the RFC.",
 "all 57-byte strings, all curve points", BIG + " The RFC's vectors hold canonical strings only.",
 [E+": compress, decompress"])
prop("The ladder and X448 against RFC 7748",
 "With the patch of repairs/, the Montgomery ladder returns what the ladder of section 5 of RFC 7748 returns, for every scalar and every string; without it, for every even scalar. X448 written over the library (clamp, read u, multiply) is the X448 of the RFC for all inputs.",
 "all 56-byte u, all 448-bit scalars", BIG,
 [M+": impl Mul<&Scalar> for &MontgomeryPoint, differential_add_and_double", S+": from_bytes"])
prop("What a verified signature means",
 "For Ed448 verification over the library: two accepted signatures with one R and challenges different modulo the order determine the logarithm of the key by one division, and a signer who reuses a nonce gives the secret away; for every key, challenge and S there is exactly one canonical R that is accepted, and the signer's output has the same distribution as that simulation; under a key of small order signatures are accepted without any secret; verification with the cofactor accepts more, by exactly the small order components, and agrees for keys and R in the prime order subgroup; a batch with a signature that does not verify is accepted for at most one coefficient of it modulo the order.",
 "all keys, R, S as strings, all challenges, secrets and nonces, all batches", BIG + " These are statements about pairs of signatures and about all choices of coefficients.",
 [E+": decompress, compress, scalar_mul, add, sub, double, eq, is_torsion_free", S+": from_canonical_bytes, from_bytes_mod_order_wide, mul, add"])
prop("Protocols on Decaf strings",
 "On 56-byte strings: Diffie-Hellman agrees; blinding, evaluating and unblinding gives the evaluation, and every blinded string comes from exactly one blinding modulo the order; Pedersen commitments hide perfectly, bind (two openings give the logarithm of the second base) and add up; two accepted proofs of equal logarithms with one first message show that the logarithms are equal, and honest proofs are accepted.",
 "all accepted strings, all scalars", BIG + " Perfect hiding is a count over all openings.",
 [D+": compress, decompress, add, scalar mul, equals", S+": invert, mul, add"])
prop("The repaired source is constant time and the same in release builds",
 "For the functions changed by the patches in repairs/: addition, subtraction and wide reduction of scalars, the Montgomery ladder and the operations on cached points show an observer of branches, loop counts and addresses one fixed list of events, for all inputs. The decoder shows which of three things happened (no square root, not the encoding of the point found, accepted) and nothing else; the low order test shows which of the three encodings the reduced coordinate is. With overflow checks off all of them return the same results.",
 "all 14-word scalars, reduced or not, all byte strings, all coordinates, both backends", "A repair can bring back a secret branch without changing any result.",
 [S+": add, impl Sub, from_bytes_mod_order_wide", E+": decompress", M+": impl Mul, is_low_order", T+"affine.rs: to_affine_niels, to_extended", T+"extensible.rs: add_affine_niels"])
prop("Ed448, X448 and Decaf Diffie-Hellman on the translated source are those of the RFCs",
 "Written over the functions translated from the Rust text, in debug and in release builds, of the source and of the repaired source: key generation and signing give byte for byte what sections 5.2.5 and 5.2.6 of RFC 8032 give, whatever the hash function; verification never panics, on the repaired source accepts exactly what section 5.2.7 accepts, on the source as it is all of that and exactly the equation on the points its decoder accepts; X448 is X448 of RFC 7748; Decaf Diffie-Hellman is that of RFC 9496. What one build signs every build verifies, and two parties on different builds agree. With SHAKE256 written after FIPS 202, the test vectors of RFC 8032 come out.",
 "all private keys, flags, contexts, messages, signatures, public keys and hash functions; all keys and strings of Diffie-Hellman; both backends; four builds", BIG + " Test vectors cover a handful of keys and one build.",
 [S+": from_bytes_mod_order_wide, from_bytes, from_canonical_bytes, add, mul, to_bytes_rfc_8032", E+": scalar_mul, add, double, eq, compress, decompress", M+": impl Mul<&Scalar> for &MontgomeryPoint", D+": compress, decompress, scalar mul"])
prop("The protocols show nothing of the secrets",
 "Key generation and signing as in C84 show an observer of branches, loop counts and addresses one fixed list of events, for all private keys, contexts and messages (the hash aside); X448 does for all keys and strings, Decaf Diffie-Hellman for all keys and all accepted strings; for signing and X448 also on the repaired source.",
 "all private keys, flags, contexts, messages and hash functions; all keys and strings; both backends", "Timing tests see a sample of secrets; the claim is that no secret changes the observations of a whole protocol.",
 [S+": from_bytes_mod_order_wide, from_bytes, add, mul, to_bytes_rfc_8032", E+": scalar_mul, compress", M+": impl Mul<&Scalar> for &MontgomeryPoint", D+": compress, decompress, scalar mul"])
prop("Every program over the library runs the same on the translated source, in debug and in release builds",
 "A program (any sequence of calls to functions of the library, where the caller may compute anything between the calls from bytes, scalars and Booleans) whose calls are those translated from the Rust text returns what it returns over the model, or panics where it does. In a release build it returns the same whenever the debug build returns. With either backend the results are the same.",
 "all programs, all their inputs, both backends, debug and release", "Tests run finitely many programs.",
 [S, E, T, D, M, "src/field"])
prop("Programs that keep their secrets as data are constant time",
 "Take any program over the library that passes its secrets to functions and looks at a value only after it has declared it public. Then it always returns what the source returns, and what an observer sees (branches, loop bounds, indices) is a function of the declared values: it does not depend on any secret. A program that declares nothing shows one and the same thing for all secrets. A decoder declares whether it accepts, and for Decaf and scalar strings the rejected string.",
 "all programs, all secrets and inputs, both backends, original and repaired functions", "Timing tests run finitely many programs with finitely many secrets.",
 [S, E, T, D, M, "src/curve/scalar_mul", "src/field"])
prop("All forms of the operators, defaults and accessors",
 "Every operator exists on values and references, with the scalar on either side, and with assignment: each form computes the same group operation, shows the same (constant) observations, and is the same in release builds. Defaults are the neutral elements, indexing reads or replaces one word and panics out of range, accessors and comparisons of byte strings are exact, the Montgomery generator is u = 5. Functions that are not implemented panic on every input. The tests for membership of the curve, and the comparison of affine cached points, show nothing beyond their outcome when it is true.",
 "all points, scalars, arrays, strings and indices; both backends; debug and release", "A form that is not called by a test can be wrong; operators are written out once per form.",
 [E+": ops", T, D+": ops", M, S, "src/field/u32", "src/field/fiat_u64", "src/ristretto"])
prop("Scalar::random for any generator",
 "Translated from the Rust text with an arbitrary generator (a state and a function giving bytes and the next state): random asks once, for 114 bytes, never panics, returns their value modulo l in reduced form, and leaves the generator in the state after these bytes. If the bytes are uniform the distribution of the scalar is within 2^-466 of uniform on every set of scalars, every Decaf element is the public key for floor(2^912/l) or one more of the strings, and scalars drawn one after another are independent. It shows nothing of the bytes (the generator aside), in a release build it is the same, and on the repaired source too.",
 "all generators and states, all sets of scalars, all numbers of draws", "Statistical distance 2^-466 cannot be measured; a generator in a test gives one stream.",
 [S+": random, from_bytes_mod_order_wide", D+": scalar mul, equals"])
prop("Every program over the repaired library computes what it computes over mathematical objects",
 "Take any program that calls public functions of the library on scalars, Edwards points, Montgomery strings and Decaf elements, and computes anything in between from the bytes, bits and Booleans it has seen. On the repaired source, for both field backends, with overflow checks and in release builds, it returns what the same program returns when scalars are numbers, Edwards points are points of the curve, Decaf elements are exponents modulo l and the encodings are those of RFC 8032, RFC 7748 and RFC 9496; it panics where that program has no value. On the source as it stands this holds for programs that add and subtract reduced scalars, use even scalars on the Montgomery ladder, decode strings without a second reading and ask reduced coordinates for low order. So programs that agree mathematically cannot be told apart.",
 "all programs and inputs, both backends, four builds", "Tests run finitely many programs, and compare with stored values and not with the mathematical objects.",
 [S, E, M, D, "src/curve/scalar_mul", "src/field", "repairs/"])
prop("What the original source computes, for every program and all inputs",
 "The source as it stands departs from C90 in four groups of calls. With these described exactly (the sum with one subtraction of l, and what happens above 2^448 + l; the difference with one addition of l; a decoder that reduces y, ignores seven bits and takes either sign for x = 0; a ladder that multiplies by twice the half rounded up; a test for low order that compares unreduced strings) every program on the original source returns exactly what the program over mathematical objects returns, with overflow checks and in release builds, on both backends. The departures are exactly: sums of 2l or more, differences from l or below -l, strings that are a second encoding, the two strings p and p+1 for low order, and for the ladder odd scalars s with coordinate not 0 and (2s+1)P not 0.",
 "all programs and inputs, both backends, debug and release", "A defect found by a test says nothing about where else the code is wrong; this says where it is right, for whole programs.",
 [S+": add, sub_extra", E+": decompress", M+": impl Mul, is_low_order"])
prop("Numbers of operations in the field",
 "On every input the functions perform the same number of multiplications, squarings, additions, subtractions, negations, selections, reductions, decodings and encodings of field elements, and these numbers are known: inversion takes 13 multiplications and 447 squarings, the 460 of the comment in field/mod.rs; adding a projective cached point takes the 8 multiplications of its comment in extensible.rs; multiplication of an Edwards point by a scalar takes 2694 multiplications and 4954 squarings, the Montgomery ladder 2702 and 2239; the numbers for the other formulas, maps between the curves, tests and codecs likewise. The decoder for Edwards points does one multiplication less for a string it rejects.",
 "all inputs, also coordinates that are on no curve; every field backend", "A benchmark measures time on some inputs; it does not count, and it cannot see that the count is the same for all scalars.",
 ["src/field/mod.rs: invert, inverse_square_root, sqrt_ratio", T+"extensible.rs: double, add_extended, add_affine_niels, add_projective_niels", "src/curve/scalar_mul", M+": impl Mul, differential_add_and_double", E+": to_twisted, to_montgomery, is_torsion_free, compress, decompress", D+": compress, decompress, add, sub, equals"])
prop("The points of the twisted curve",
 "The twisted curve y^2 - x^2 = 1 - 39082 x^2 y^2 has exactly 4l - 2 affine points over the field and two points at infinity, 4l together, as many as the Edwards curve. Every affine point is, up to sign, the image of a point of the Edwards curve under the isogeny, or else becomes one when moved by a point at infinity, and never both. The comparison of Ristretto and Decaf points does not see the difference: every valid point of the twisted curve is equal to the images of exactly one class of Edwards points modulo four-torsion.",
 "all points of the twisted curve, both backends", "The curve has about 2^448 points; the two kinds cannot be enumerated.",
 [T+"extended.rs: is_on_curve, add, to_untwisted", T+"affine.rs: is_on_curve", E+": to_twisted", D+": equals", "src/ristretto"])
prop("What Debug prints, Hash and Zeroize",
 "The text that {:?} prints for a scalar determines all its limbs, and no text of a scalar is the beginning of another one: whoever sees the log knows the secret. The same for Montgomery points and compressed elements (their bytes) and for Edwards, twisted and Decaf points (their coordinates, not only the element): points that are equal, also Decaf points that the library itself produces, can print differently. The texts of field elements of the two backends never agree. Montgomery points are equal exactly if they give a hasher the same calls. Wiping a Montgomery point leaves the string of zeros whatever it held, which is recognised as low order.",
 "all scalars, byte strings, coordinates and texts; both backends", "That no two of 2^448 scalars print the same is no statement about a sample.",
 [S+": derive(Debug)", "src/field/u32/prime_field.rs: derive(Debug)", "src/field/fiat_u64/prime_field.rs: impl Debug", E+": derive(Debug)", T+"extended.rs: derive(Debug)", D+": derive(Debug), impl Debug for CompressedDecaf", M+": impl Debug, derive(Hash), derive(Zeroize)", "src/ristretto/ristretto.rs: impl Debug"])
prop("Known shortcuts for discrete logarithms do not apply to the group",
 "The group of the Edwards curve given by the constants of the source is cyclic, of order 4l. No homomorphism from it into the units of a field with p^k elements, k below 2^192, moves the multiples of the base point away from 1 (for the twist: l' divides p^k - 1 only for k from 2^167). The orders l, l' and 4l differ from p and are above 2^445, the trace of Frobenius is not divisible by p, and the invariants c4, c6 and the discriminant of Curve448 are not zero, so j is neither 0 nor 1728.",
 "all extensions of the field below these degrees, all homomorphisms, all points", "A wrong constant can give a group of the right size in which every test passes and logarithms are easy.",
 ["src/constants.rs: GOLDILOCKS_BASE_POINT, BASEPOINT_ORDER", "src/field/u32/constants.rs: EDWARDS_D", "src/field/fiat_u64/constants.rs: EDWARDS_D", S+": MODULUS"])
prop("The model is the translated source, function by function",
 "For every function and constant of src/field, src/curve, src/decaf, src/ristretto and src/constants.rs, the mechanical translation of the Rust text and the hand-written function of the model that the other properties are about return the same on all inputs, and panic on the same inputs. This includes limbs and words outside the ranges the library produces, every form of the operators, and points on no curve.",
 "all inputs of all functions, every field backend", "A model tested on samples can differ from the program elsewhere; a proof about the wrong function says nothing.",
 [S, E, T+"extended.rs", T+"extensible.rs", T+"affine.rs", T+"projective.rs", M, D, "src/decaf/ops.rs", "src/ristretto/ristretto.rs", "src/curve/scalar_mul", "src/field", "src/constants.rs"])
prop("What the comments and the readme say, where no other property does",
 "True: the number in the comment on the modulus; the map to the twisted curve and back multiplies by 4; multiplication by a scalar clears the cofactor of every point exactly if the scalar is a multiple of 4, and keeps points of the prime-order subgroup there; the formulas beside the ladder step; points with Z = 0 go to (0, 0) and infinity to the zero string; DECAF_FACTOR is the non-negative inverse square root named; the cached projective form; the correction by s mod 4 costs less than a hundredth of a scalar multiplication; a weak reduction gives a number below 2p, and bias adds b times p. Refuted, with what holds instead: the modulus is not 4q, the sign in the order of the base point (that multiple of it is not the identity), the sign in two equations of the curve (on the curve they hold only where T = 0), the kernel of the map called a 2-isogeny has four points, the table holds all multiples from 1 to 8 and not the odd ones, sub_extended subtracts its argument from the receiver, the cached affine form is not halved, a weakly reduced number can be 0, and weak_reduce panics on full words.",
 "all points, scalars, coordinates and limbs; both backends", "Comments are not executed.",
 [S+":10", "src/constants.rs:13", E+":145-148, 218", "src/curve/edwards/mod.rs:4-10", T+"affine.rs:12, 84", T+"extended.rs:91", T+"extensible.rs:94", T+"projective.rs:14", M+":163-188", "src/curve/scalar_mul/window/wnaf/mod.rs:9", "src/field/u32/constants.rs:37", "src/field/u32/prime_field.rs:196, 257", "readme.md"])
prop("The words that multiplication and squaring of field elements need",
 "The comment above mul in karatsuba.rs asks to check the bounds of the type that was changed to i128. The multiplication never overflows, whatever the sixteen words of its arguments are, and returns limbs below 2^29. With limbs up to 1.75 times 2^28, more than the 2^28 + 2^8 the backend keeps, the same source with i64 for i128 returns the same; with 2^29 - 1 in every limb it overflows. The product is right for limbs below 2^31 and the square, which is computed modulo 2^64, for limbs below 2^29. With one bit more each is wrong without a panic, and for 2^30 - 1 in every limb the square is not the product of the number with itself.",
 "all limbs within the ranges named", "A test with reduced numbers sees neither the largest intermediate value nor the first input for which the result is wrong.",
 ["src/field/u32/karatsuba.rs:15-284 mul, 287-394 square"])
prop("The formulas of the model are those in the text of the source files",
 "Ten source files are part of the model as they are, byte for byte. A reader of Rust, a lexer and a parser written in Lean and evaluated by the kernel, applied to these bytes and followed by an interpreter of the result, gives for each of the functions named the model function of the other properties, whatever the arguments are, for every implementation of the field. No tool outside Lean translates anything for this.",
 "all arguments of some ninety functions, every field backend (also unlawful ones)", "Whether a model is the model of this program cannot be tested without running the program.",
 ["src/field/mod.rs", E, "src/curve/edwards/affine.rs", T+"affine.rs", T+"extended.rs", T+"extensible.rs", T+"projective.rs", M, D, "src/ristretto/ristretto.rs"])
prop("The integer code, run from its text",
 "The bytes of src/field/scalar.rs, src/field/u32/prime_field.rs and src/field/u32/karatsuba.rs, read by the parser and run by an interpreter written in Lean, return what the mechanical translation returns: addition, subtraction, Montgomery and Karatsuba multiplication, squaring, inversion, halving, reduction, the encodings, and the recodings into bits and signed digits. The agreement does not depend on the arithmetic: it holds for arbitrary operations on machine integers in place of +, *, <<, as and so on, hence for the wrapping ones of a release build. So the text of Scalar::mul returns the product modulo the order for any 14 words, that of invert an inverse, that of the field multiplication a product modulo p, and that of to_bytes the canonical bytes.",
 "all arrays of 14 words, of 16 limbs within the bound, of 56 and 114 bytes; for the agreement any arithmetic", "Whether a model is the model of this program cannot be tested without running the program, and a wrong carry shows for one input in 2^32 or less.",
 [S, "src/field/u32/prime_field.rs", "src/field/u32/karatsuba.rs"])
prop("The constants, read from the text",
 "The bytes of src/constants.rs, of the files of constants of both field backends, and of the files in which the scalar constants and the low order points are defined, read by the parser written in Lean, give the constants of the model: limb for limb, coordinate for coordinate. Their values are those of the standards: the curve constants and the base point of RFC 8032 (the same in both backends), the order, R and R^2 modulo it, and the points 0, 1 and -1 of low order.",
 "all constants of the named files, both backends", "A wrong limb in a constant of the backend that is not compiled shows in no test run, and a test compares a constant with a copy of it.",
 ["src/constants.rs", "src/field/u32/constants.rs", "src/field/fiat_u64/constants.rs", S, M])
prop("The scalar multiplications, run from their text",
 "The bytes of the files in src/curve/scalar_mul, of src/decaf/ops.rs and of the scalar multiplications in src/curve/edwards/extended.rs and src/curve/montgomery/montgomery.rs, read by the parser and run by the interpreter written in Lean, return what the model returns: the table of eight multiples and the lookup in it, double-and-add, the signed window method, the double-base product, scalar_mod_four, scalar_mul, is_torsion_free, the ladder, and the operators on Decaf and Edwards points. Bits, digits and quotients of the scalar are those that the text of scalar.rs returns. So the text of scalar_mul returns the multiple for every 14 words and every point of the curve, that of is_torsion_free decides membership in the subgroup, and two parties who run the text of the ladder agree.",
 "all points, all 14 words, all byte strings; every field backend", "A loop that starts one digit too low or swaps once too often can be right for every scalar that a test uses.",
 ["src/curve/scalar_mul/double_and_add.rs", "src/curve/scalar_mul/double_base.rs", "src/curve/scalar_mul/variable_base.rs", "src/curve/scalar_mul/window/wnaf/mod.rs", "src/decaf/ops.rs", E+": scalar_mul, scalar_mod_four, is_torsion_free, impl Add, Sub, Neg, Mul", M+": impl Mul"])
prop("The encodings of points and the canonical encoding of scalars, run from their text",
 "The bytes of compress and CompressedEdwardsY::decompress in src/curve/edwards/extended.rs and of CompressedDecaf::decompress in src/decaf/decaf.rs, read by the parser and run by the interpreter written in Lean, return what the model returns, with None for each early return. So the text of compress writes y in canonical form and the parity of x in the top bit of byte 56, the text of decompress gives back every point that the text of compress has written and refuses exactly the strings whose y belongs to no point, and what the text for Decaf accepts encodes to the same bytes. The bytes of Scalar::from_canonical_bytes in src/field/scalar.rs, run in the same way, accept exactly the strings of 57 bytes whose number is below the order, and return that number.",
 "all points, all strings of 57 and 56 bytes; every field backend", "A test decodes strings made by the encoder; a wrong condition of an early return or a sign taken from the wrong byte shows only for others.",
 [E+":40-66 decompress, 158-176 compress", D+":91-128 decompress", S+": from_canonical_bytes"])
with open(os.path.join(os.path.dirname(__file__), "..", "properties.jsonl"), "w") as f:
    for x in P: f.write(json.dumps(x) + "\n")
print(len(P))
