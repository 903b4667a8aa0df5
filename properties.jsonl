{"id": "C01", "title": "RangeCheck accepts exactly the canonical Goldilocks values", "statement": "With the range checks enforced, the constraints emitted by RangeCheck(x) can be satisfied by some choice of prover hints if and only if the integer value of x is below the Goldilocks modulus p = 2^64-2^32+1; for such x the honest hint values satisfy them.", "quantifier": "for every BN254 scalar x and every value a (possibly malicious) prover supplies for the hints", "why_tests_cant": "A test picks finitely many x and always runs the honest hint function; soundness quantifies over all 2^254 values and over all dishonest hint assignments.", "anchors": ["goldilocks/base.go:RangeCheck", "goldilocks/base.go:SplitLimbsHint"]}
{"id": "C02", "title": "Add, Sub, Mul and MulAdd compute Goldilocks arithmetic and nothing else is accepted", "statement": "For canonical operands the only output value the constraints of MulAdd(a,b,c), Add(a,b), Mul(a,b), Sub(a,b) admit is a*b+c, a+b, a*b, a-b modulo p in canonical form, and the honest prover produces it.", "quantifier": "for all canonical a, b, c and all hint values", "why_tests_cant": "Tests evaluate honest hints on samples; a missing range check would be invisible to them because the honest hint is still right.", "anchors": ["goldilocks/base.go:MulAdd", "goldilocks/base.go:Add", "goldilocks/base.go:Sub", "goldilocks/base.go:Mul", "goldilocks/base.go:MulAddHint"]}
{"id": "C03", "title": "Reduce is exact on every value produced by a no-reduce chain", "statement": "For every natural number n < 2^144 * p the only output Reduce admits on the circuit value n is n mod p, and the honest prover produces it.", "quantifier": "for all n < 2^144*p and all hint values", "why_tests_cant": "Uniqueness is a statement about all hint assignments of a 254-bit field equation.", "anchors": ["goldilocks/base.go:Reduce", "goldilocks/base.go:ReduceHint"]}
{"id": "C04", "title": "ReduceWithMaxBits has a unique correct result whenever the quotient bound keeps q*p below the BN254 modulus", "statement": "The outputs admitted by ReduceWithMaxBits(x,n) are exactly the values (x+k*r) mod p for the integers k >= 0 with (x+k*r)/p < 2^n; hence for n <= 189 the output is unique and equals x mod p, and for n >= 190 with small x it is not unique.", "quantifier": "for every BN254 scalar x, every n, and all hint values", "why_tests_cant": "The failing assignments are wrap-arounds modulo r that an honest hint never produces.", "anchors": ["goldilocks/base.go:ReduceWithMaxBits", "goldilocks/base.go:ReduceHint"]}
{"id": "C05", "title": "Inverse returns the field inverse, or says there is none", "statement": "For canonical x != 0, Inverse(x) admits exactly (x^-1, hasInv=1); for x = 0 the second component is 0 in every satisfying assignment.", "quantifier": "for every canonical x and all hint values", "why_tests_cant": "The claim is about every hint value offered as inverse, and about all of GF(p).", "anchors": ["goldilocks/base.go:Inverse", "goldilocks/base.go:InverseHint"]}
{"id": "C06", "title": "Quadratic-extension arithmetic is F_p[X]/(X^2-7)", "statement": "AddExtension, SubExtension, MulExtension, MulAddExtension, SubMulExtension, ScalarMulExtension on canonical operands admit exactly one output, the result in GF(p)[X]/(X^2-7).", "quantifier": "for all canonical operands and all hint values", "why_tests_cant": "Algebraic identity over p^4 operand pairs plus absence of any other satisfying hint.", "anchors": ["goldilocks/quadratic_extension.go:AddExtension", "goldilocks/quadratic_extension.go:SubExtension", "goldilocks/quadratic_extension.go:MulExtension", "goldilocks/quadratic_extension.go:MulAddExtension", "goldilocks/quadratic_extension.go:SubMulExtension", "goldilocks/quadratic_extension.go:ScalarMulExtension"]}
{"id": "C07", "title": "InverseExtension and DivExtension are exact and reject zero", "statement": "For a nonzero extension element a, InverseExtension(a) admits exactly a^-1 and DivExtension(b,a) exactly b/a; for a = 0 the constraints are unsatisfiable.", "quantifier": "for all canonical a, b and all hint values", "why_tests_cant": "Includes that no nonzero element of the extension has norm zero (7 is a non-residue), and unsatisfiability over all hints.", "anchors": ["goldilocks/quadratic_extension.go:InverseExtension", "goldilocks/quadratic_extension.go:DivExtension"]}
{"id": "C08", "title": "ExpExtension computes powers", "statement": "ExpExtension(a,n) admits exactly a^n for every exponent.", "quantifier": "for all canonical a and every natural n below 2^64", "why_tests_cant": "Unbounded exponent loop; tests use a couple of exponents.", "anchors": ["goldilocks/quadratic_extension.go:ExpExtension"]}
{"id": "C09", "title": "ReduceWithPowers is the polynomial evaluation sum_i terms[i]*s^i", "statement": "ReduceWithPowers(terms,s) admits exactly sum_i terms[i] * s^i.", "quantifier": "for every list length, all canonical terms and s", "why_tests_cant": "List induction over arbitrary length.", "anchors": ["goldilocks/quadratic_extension.go:ReduceWithPowers"]}
{"id": "C10", "title": "Lazy-reduction chains never wrap modulo the BN254 field", "statement": "InnerProductExtension(c, a, pairs) admits exactly a + c * sum_i pairs[i].0*pairs[i].1 for every list of fewer than 2^63 pairs; every other NoReduce chain followed by Reduce in the code stays below 2^144*p.", "quantifier": "for all canonical operands and every list length below 2^63", "why_tests_cant": "Worst-case magnitude analysis over all operand values and lengths.", "anchors": ["goldilocks/quadratic_extension.go:InnerProductExtension", "goldilocks/quadratic_extension.go:MulExtensionNoReduce", "goldilocks/quadratic_extension.go:SubExtensionNoReduce", "goldilocks/base.go:SubNoReduce"]}
{"id": "C11", "title": "Lookup, Lookup2 and Select multiplexers return the selected element and force boolean selectors", "statement": "Lookup(b,x,y) admits exactly x when b=0 and y when b=1, is unsatisfiable when b is not boolean; Lookup2(b0,b1,q0..q3) admits exactly q_{b0+2 b1}.", "quantifier": "for every selector value and all extension operands", "why_tests_cant": "Non-boolean selectors are malicious witness values not produced by tests.", "anchors": ["goldilocks/quadratic_extension.go:Lookup", "goldilocks/quadratic_extension.go:Lookup2"]}
{"id": "C12", "title": "Extension-algebra operations form QE[Y]/(Y^2-7)", "statement": "AddExtensionAlgebra, SubExtensionAlgebra, MulExtensionAlgebra, ScalarMulExtensionAlgebra admit exactly the results in the algebra QE[Y]/(Y^2-7).", "quantifier": "for all canonical operands", "why_tests_cant": "Identity over 2^256-sized operand space and all hints.", "anchors": ["goldilocks/quadratic_extension_algebra.go:MulExtensionAlgebra", "goldilocks/quadratic_extension_algebra.go:AddExtensionAlgebra", "goldilocks/quadratic_extension_algebra.go:SubExtensionAlgebra", "goldilocks/quadratic_extension_algebra.go:ScalarMulExtensionAlgebra"]}
{"id": "C13", "title": "PartialInterpolateExtAlgebra is a barycentric step that chains over sub-lists", "statement": "PartialInterpolateExtAlgebra over domain points x_i, values v_i, weights w_i started at (e0,p0) admits exactly the pair (e0*prod_i(pt-x_i) + p0*sum_i w_i*v_i*prod_{j!=i}(pt-x_j), p0*prod_i(pt-x_i)); hence processing a list in consecutive pieces gives the same result as processing it at once. An empty list of values, or lists of different lengths, are refused (panic).", "quantifier": "for all list lengths and all canonical operands", "why_tests_cant": "Unbounded list induction.", "anchors": ["goldilocks/quadratic_extension_algebra.go:PartialInterpolateExtAlgebra"]}
{"id": "C14", "title": "PrimitiveRootOfUnity and TwoAdicSubgroup", "statement": "For every n <= 32 PrimitiveRootOfUnity(n) has multiplicative order exactly 2^n in GF(p), and TwoAdicSubgroup(n) lists its 2^n distinct powers in order starting from 1; n > 32 panics.", "quantifier": "for every n", "why_tests_cant": "Exact order and distinctness for sizes up to 2^32 cannot be enumerated by tests.", "anchors": ["goldilocks/base.go:PrimitiveRootOfUnity", "goldilocks/base.go:TwoAdicSubgroup"]}
{"id": "C15", "title": "OptimalWidth returns the first minimiser of the constraint-count estimate", "statement": "getOptimalBasewidth returns the smallest width in 2..17 attaining the minimum of the cost function over that range, for both cost functions, for every list of collected checks.", "quantifier": "for every list of collected checks", "why_tests_cant": "Unbounded list of inputs.", "anchors": ["goldilocks/range_checker_utils.go:optimalWidth", "goldilocks/range_checker_utils.go:getOptimalBasewidth"]}
{"id": "C16", "title": "Every range-checker backend enforces the requested bound", "statement": "Whatever backend New selects (native range checker, commit-based checker, bit decomposition), a witness violating a requested n-bit bound is rejected.", "quantifier": "for every backend, value and bit width", "why_tests_cant": "Rejection for all violating witnesses; tests run a single backend with honest witnesses.", "anchors": ["goldilocks/base.go:New", "goldilocks/base.go:rangeCheckerCheck", "goldilocks/base.go:RangeCheckWithMaxBits"]}
{"id": "C17", "title": "The commit-based checker either enforces the exact bit width or aborts compilation", "statement": "With the commit-based checker, compilation aborts unless every collected width is a multiple of 16 and 16 is the optimal base width; when it does not abort, exactly the bound v < 2^n is enforced for every collected (v,n), for both the R1CS and the SCS builder. When all widths are multiples of 16 (16..256) and at least 65536 checks were collected compilation does not abort.", "quantifier": "for every sequence of requested checks", "why_tests_cant": "All multisets of requested checks.", "anchors": ["goldilocks/base.go:rangeCheckerCheck", "goldilocks/base.go:checkCollected"]}
{"id": "C18", "title": "New is safe and memoising under every interleaving", "statement": "Concurrent calls of New with the same api all return the same chip; calls with different apis return different chips; the deferred width check is registered exactly once per api; this holds for every interleaving of any number of callers.", "quantifier": "for every number of goroutines and every schedule", "why_tests_cant": "Schedules cannot be enumerated by tests.", "anchors": ["goldilocks/base.go:New"]}
{"id": "C19", "title": "The Poseidon-Goldilocks S-box is uniquely determined by its input", "statement": "For every canonical x the constraints of the S-box step admit exactly x^7 mod p.", "quantifier": "for every canonical x and all hint values", "why_tests_cant": "A dishonest quotient hint exploiting wrap-around modulo r is never produced by the hint function used in tests.", "anchors": ["poseidon/goldilocks.go:sBoxMonomial", "goldilocks/base.go:ReduceWithMaxBits"]}
{"id": "C20", "title": "Poseidon over Goldilocks computes the textbook permutation", "statement": "For every canonical 12-element state the honest run of GoldilocksChip.Poseidon yields the textbook Poseidon permutation (30 rounds, dense MDS, no fast partial-round tricks), and every output admitted by the constraints agrees with it.", "quantifier": "for all 12-element canonical states and all hint values", "why_tests_cant": "Equality of two algorithms over p^12 inputs; soundness over hints.", "anchors": ["poseidon/goldilocks.go:Poseidon", "poseidon/goldilocks.go:partialRounds", "poseidon/goldilocks.go:fullRounds", "poseidon/goldilocks_constants.go:FAST_PARTIAL_ROUND_VS"]}
{"id": "C21", "title": "HashNToMNoPad / HashNoPad are the overwrite-mode sponge", "statement": "HashNToMNoPad(input,n) on canonical inputs returns the first n outputs of the overwrite-mode rate-8 sponge over the permutation, for any input and output length; HashNoPad first reduces each input modulo p and squeezes 4.", "quantifier": "for every input list (any length) and every number of outputs", "why_tests_cant": "Arbitrary lengths incl. partial last chunk and repeated squeezing.", "anchors": ["poseidon/goldilocks.go:HashNToMNoPad", "poseidon/goldilocks.go:HashNoPad"]}
{"id": "C22", "title": "The PoseidonGate constraints force a correct permutation row", "statement": "All constraints of PoseidonGate vanish on a row iff swap is boolean, the deltas are swap*(rhs-lhs) and the wires contain the S-box inputs and outputs of the textbook Poseidon permutation of the (swapped) inputs; in particular output wires equal the permutation.", "quantifier": "for every assignment of wires in the quadratic extension", "why_tests_cant": "Constraint polynomials of degree 7 in 135 wires; must hold for all assignments.", "anchors": ["plonk/gates/poseidon_gate.go:EvalUnfiltered", "poseidon/goldilocks.go:MdsPartialLayerFastExtension"]}
{"id": "C23", "title": "The duplicated constant tables agree and are canonical", "statement": "MDS_MATRIX_CIRC/_VARS, MDS_MATRIX_DIAG/_VARS, W_HATS/_VARS tables agree entry for entry, every constant is a canonical Goldilocks element, and the skipped final partial-round constant is zero, so base-field and extension-field layers act identically.", "quantifier": "for every index and every state", "why_tests_cant": "Agreement of the base and extension layers for all states.", "anchors": ["poseidon/goldilocks_constants.go", "poseidon/goldilocks.go:MdsLayerExtension", "poseidon/goldilocks.go:mdsLayer"]}
{"id": "C24", "title": "Poseidon over BN254 equals textbook Poseidon", "statement": "BN254Chip.Poseidon on any state equals the textbook Poseidon permutation (t=4, 8 full + 56 partial rounds, x^5) with round constants from the Grain LFSR of the Poseidon paper and the corresponding Cauchy MDS matrix.", "quantifier": "for every 4-element state of BN254 scalars", "why_tests_cant": "Equality over r^4 inputs of the optimised and textbook algorithms.", "anchors": ["poseidon/bn254.go:Poseidon", "poseidon/bn254.go:partialRounds", "poseidon/bn254_constants.go"]}
{"id": "C25", "title": "HashOrNoop / HashNoPad packing is injective before hashing", "statement": "For canonical inputs of a fixed length the packing of Goldilocks elements into BN254 field elements (three per element) is injective and never wraps; inputs of length at most 3 are returned as the packed value, longer ones are absorbed nine at a time in overwrite mode.", "quantifier": "for every input list of every length", "why_tests_cant": "Injectivity over all pairs of inputs.", "anchors": ["poseidon/bn254.go:HashNoPad", "poseidon/bn254.go:HashOrNoop"]}
{"id": "C26", "title": "ToVec splits a digest into five canonical Goldilocks limbs injectively", "statement": "ToVec(h) admits exactly one vector: five limbs below 2^56 whose base-2^56 recomposition is h; distinct digests give distinct vectors and every limb is canonical.", "quantifier": "for every BN254 scalar h and every bit assignment", "why_tests_cant": "Injectivity over all pairs, and uniqueness of the bit decomposition.", "anchors": ["poseidon/bn254.go:ToVec"]}
{"id": "C27", "title": "Merkle path verification accepts exactly authentic paths", "statement": "verifyMerkleProofToCapWithCapIndex on leaf data, boolean index bits, cap index bits, cap and siblings is satisfiable iff folding the siblings from HashOrNoop(leaf) with TwoToOne in the order given by the index bits yields the cap entry selected by the cap index bits.", "quantifier": "for every leaf, every path length, every 16-entry cap and all bit values", "why_tests_cant": "All paths and all bit assignments, including non-boolean selectors.", "anchors": ["fri/fri.go:verifyMerkleProofToCapWithCapIndex"]}
{"id": "C28", "title": "Merkle openings are binding", "statement": "If two different leaves of the same length are accepted at the same index with the same number of siblings against the same cap, a collision of the two-to-one compression or of the leaf hash can be extracted.", "quantifier": "for all pairs of accepted openings", "why_tests_cant": "A reduction statement over all pairs of proofs.", "anchors": ["fri/fri.go:verifyMerkleProofToCapWithCapIndex"]}
{"id": "C29", "title": "The challenger refines a duplex sponge", "statement": "Any sequence of observe/get operations on the challenger produces the outputs of the abstract duplex (overwrite) sponge with rate 8, given the permutation: outputs depend only on the sequence of observed elements and squeezes, buffered absorption is invisible.", "quantifier": "for every finite history of operations", "why_tests_cant": "All histories of interleaved operations.", "anchors": ["challenger/challenger.go:ObserveElement", "challenger/challenger.go:GetChallenge", "challenger/challenger.go:duplexing"]}
{"id": "C30", "title": "The challenger never panics and its buffers stay bounded", "statement": "Starting from NewChip, in every history of operations the input buffer holds fewer than 8 elements, the output buffer at most 8, and the 'something weird' panics are unreachable.", "quantifier": "for every finite history of operations", "why_tests_cant": "All histories.", "anchors": ["challenger/challenger.go:duplexing", "challenger/challenger.go:GetChallenge"]}
{"id": "C31", "title": "The Fiat-Shamir transcript absorbs every commitment before the challenges that depend on it", "statement": "GetChallenges-level transcript: circuit digest, public inputs hash, wires cap are absorbed before betas and gammas; the Z-partial-products cap before alphas; the quotient cap before zeta; the openings before the FRI alpha; each commit-phase cap before its beta; final polynomial and PoW witness before the PoW response and query indices.", "quantifier": "for every proof, common data and verifier data", "why_tests_cant": "Order must hold for every shape of proof (any number of challenges, caps, reductions).", "anchors": ["verifier/verifier.go:GetChallenges", "challenger/challenger.go:GetFriChallenges"]}
{"id": "C32", "title": "The Fiat-Shamir challenges are uniquely determined by the proof", "statement": "For every proof and public inputs exactly one vector of challenges satisfies the constraints.", "quantifier": "for every proof and all hint values", "why_tests_cant": "Soundness of Fiat-Shamir against malicious hints.", "anchors": ["verifier/verifier.go:GetChallenges", "challenger/challenger.go:GetNChallenges", "poseidon/goldilocks.go:Poseidon"]}
{"id": "C33", "title": "ArithmeticGate and ArithmeticExtensionGate constraints", "statement": "All constraints of the gate vanish iff for each operation output = c0*x*y + c1*z (in the field, resp. the extension algebra).", "quantifier": "for every number of operations and every wire assignment", "why_tests_cant": "All assignments and all parameterisations.", "anchors": ["plonk/gates/arithmetic_gate.go", "plonk/gates/arithmetic_extension_gate.go"]}
{"id": "C34", "title": "ConstantGate, PublicInputGate and NoopGate constraints", "statement": "ConstantGate vanishes iff each wire equals its constant; PublicInputGate iff the first four wires equal the public-inputs hash; NoopGate imposes nothing.", "quantifier": "for every parameterisation and wire assignment", "why_tests_cant": "All assignments.", "anchors": ["plonk/gates/constant_gate.go", "plonk/gates/public_input_gate.go", "plonk/gates/noop_gate.go"]}
{"id": "C35", "title": "BaseSumGate constraints force a base-B decomposition", "statement": "The constraints vanish iff the sum wire equals sum_i limb_i*B^i and each limb wire is one of 0..B-1.", "quantifier": "for every base, number of limbs and wire assignment", "why_tests_cant": "All assignments and parameters.", "anchors": ["plonk/gates/base_sum_gate.go"]}
{"id": "C36", "title": "ExponentiationGate constraints force output = base^power", "statement": "If power bits are boolean and the constraints vanish then the output wire is base^(sum_i bit_i 2^i); conversely the honest wires satisfy them; zero power bits abort compilation.", "quantifier": "for every number of power bits and wire assignment", "why_tests_cant": "Induction on the number of bits.", "anchors": ["plonk/gates/exponentiation_gate.go"]}
{"id": "C37", "title": "RandomAccessGate constraints force the claimed element to be list[index]", "statement": "The constraints vanish iff bits are boolean, the index wire is their recomposition, the claimed element equals the list entry at that index, and the extra constants match.", "quantifier": "for every vector size 2^bits, number of copies and wire assignment", "why_tests_cant": "All sizes and assignments.", "anchors": ["plonk/gates/random_access_gate.go"]}
{"id": "C38", "title": "ReducingGate and ReducingExtensionGate constraints force a Horner evaluation", "statement": "The constraints vanish iff each accumulator is previous*alpha + coefficient; the output is then old_acc*alpha^n + sum coeff_i alpha^(n-1-i).", "quantifier": "for every number of coefficients and wire assignment", "why_tests_cant": "Induction on the number of coefficients.", "anchors": ["plonk/gates/reducing_gate.go", "plonk/gates/reducing_extension_gate.go"]}
{"id": "C39", "title": "MultiplicationExtensionGate constraints", "statement": "The constraints vanish iff each output = c0*x*y in the extension algebra.", "quantifier": "for every number of operations and wire assignment", "why_tests_cant": "All assignments.", "anchors": ["plonk/gates/multiplication_extension_gate.go"]}
{"id": "C40", "title": "CosetInterpolationGate constraints force polynomial interpolation", "statement": "If the constraints vanish then the evaluation-value wires hold the value at the evaluation point of the polynomial interpolating the given values on the coset shift*H, whenever the weights are the barycentric weights of H and shift is nonzero.", "quantifier": "for every subgroup size, degree and wire assignment", "why_tests_cant": "Interpolation identity over all polynomials and points.", "anchors": ["plonk/gates/coset_interpolation_gate.go", "goldilocks/quadratic_extension_algebra.go:PartialInterpolateExtAlgebra"]}
{"id": "C41", "title": "PoseidonMdsGate constraints", "statement": "The constraints vanish iff the output wires are the MDS matrix applied to the input wires in the extension algebra.", "quantifier": "for every wire assignment", "why_tests_cant": "All assignments.", "anchors": ["plonk/gates/poseidon_mds_gate.go"]}
{"id": "C42", "title": "Gate selector filters vanish exactly on the other gates of the group", "statement": "computeFilter(row, group, s) is nonzero iff s is not an index of another gate of the group and, with more than one selector, is not the unused marker; so on a row selecting gate i only gate i's constraints contribute.", "quantifier": "for every group range, row and selector value", "why_tests_cant": "All selector values of the extension field.", "anchors": ["plonk/gates/evaluate_gates.go:computeFilter", "plonk/gates/evaluate_gates.go:evalFiltered"]}
{"id": "C43", "title": "EvaluateGateConstraints accumulates every gate's filtered constraints at the right slot and aborts on overflow", "statement": "Result slot i = sum over gates g of filter_g * constraint_{g,i}; if some gate has more constraints than NumGateConstraints (or an index is out of range) the definition runs out of range and nothing satisfies it.", "quantifier": "for every gate list and proof", "why_tests_cant": "All gate lists.", "anchors": ["plonk/gates/evaluate_gates.go:EvaluateGateConstraints"]}
{"id": "C44", "title": "Gate identifiers are parsed to the gate they name", "statement": "For every gate kind and all parameters, the canonical plonky2 identifier string is accepted by exactly one of the registered patterns and parsed to the gate with those parameters, independently of map iteration order; identifiers matching no pattern panic.", "quantifier": "for all parameter values and all map iteration orders", "why_tests_cant": "All parameter values and orders.", "anchors": ["plonk/gates/gates.go:GateInstanceFromId", "plonk/gates/gates.go:gateRegexHandlers"]}
{"id": "C45", "title": "checkPartialProducts is the chunked grand-product check", "statement": "All partial-product terms vanish iff each consecutive pair of accumulators satisfies acc_i * prod(numerators chunk i) = acc_{i+1} * prod(denominators chunk i), from Z(x) to Z(gx); hence Z(x)*prod num = Z(gx)*prod den whenever they vanish.", "quantifier": "for every number of chunks, chunk size and values", "why_tests_cant": "All shapes and values.", "anchors": ["plonk/plonk.go:checkPartialProducts"]}
{"id": "C46", "title": "evalL0 is the first Lagrange basis polynomial", "statement": "For zeta != 1 evalL0(zeta, zeta^n) admits exactly (zeta^n-1)/(n*(zeta-1)); for zeta = 1 it is unsatisfiable.", "quantifier": "for every zeta and degree", "why_tests_cant": "All points.", "anchors": ["plonk/plonk.go:evalL0"]}
{"id": "C47", "title": "plonk.Verify enforces the quotient identity for every challenge", "statement": "plonk Verify is satisfiable iff zeta != 1 and for each challenge i, sum_j alpha_i^j * term_j(zeta) = Z_H(zeta) * sum_k zeta^{n k} quotient_{i,k}, where the terms are L0*(Z-1), the partial product checks and the gate constraints.", "quantifier": "for every opening set, challenges and circuit shape", "why_tests_cant": "All openings, all hints.", "anchors": ["plonk/plonk.go:Verify", "plonk/plonk.go:evalVanishingPoly"]}
{"id": "C48", "title": "Query point: expFromBits and the subgroup element", "statement": "expFromBitsConstBase(g,bits) admits exactly g^(sum bits_i 2^i) for boolean bits, and the query evaluation point equals 7 * g_n^(bit-reverse(index)).", "quantifier": "for every number of bits and index", "why_tests_cant": "All indices.", "anchors": ["fri/fri.go:expFromBitsConstBase", "fri/fri.go:calculateSubgroupX"]}
{"id": "C49", "title": "computeEvaluation is the fold of the coset evaluations at beta", "statement": "For arity 2^k <= 128, distinct from the special points, computeEvaluation admits exactly the value at beta of the interpolant of the 2^k evaluations over the coset of the query point in bit-reversed order; if beta hits a coset point the constraints are unsatisfiable.", "quantifier": "for every evaluation vector, index bits and beta", "why_tests_cant": "All polynomials/points.", "anchors": ["fri/fri.go:computeEvaluation", "fri/fri.go:interpolate"]}
{"id": "C50", "title": "computeEvaluation terminates for every arity its guard admits", "statement": "For every arityBits in 1..8 the evaluation of computeEvaluation terminates.", "quantifier": "for every arity accepted by the guard", "why_tests_cant": "Non-termination of a fixed-width loop counter is input dependent; tests use arity 4 only.", "anchors": ["fri/fri.go:computeEvaluation"]}
{"id": "C51", "title": "friCombineInitial computes the batched DEEP quotient", "statement": "friCombineInitial admits exactly sum over batches alpha-shifted (reduced evaluations - reduced openings)/(x - point).", "quantifier": "for every instance, alpha, x, openings", "why_tests_cant": "All values and batch shapes.", "anchors": ["fri/fri.go:friCombineInitial"]}
{"id": "C52", "title": "finalPolyEval is Horner evaluation of the final polynomial", "statement": "finalPolyEval(coeffs, x) admits exactly sum coeff_i x^i.", "quantifier": "for every coefficient list and point", "why_tests_cant": "All list lengths.", "anchors": ["fri/fri.go:finalPolyEval"]}
{"id": "C53", "title": "Proof-of-work: accepted iff the response has the required leading zeros", "statement": "assertLeadingZeros(w, config) is satisfiable iff the canonical value of w is below 2^(64 - proof_of_work_bits), for every proof_of_work_bits <= 64.", "quantifier": "for every response and PoW difficulty", "why_tests_cant": "All responses.", "anchors": ["fri/fri.go:assertLeadingZeros"]}
{"id": "C54", "title": "A FRI query round accepts exactly consistent queries", "statement": "verifyQueryRound is satisfiable iff the initial Merkle openings are authentic, and each reduction step's evaluations contain the folded value of the previous step at the right position, are authentic in their commit-phase cap, and the last folded value equals the final polynomial at the query point.", "quantifier": "for every query round, challenges and shape", "why_tests_cant": "All queries, all hints.", "anchors": ["fri/fri.go:verifyQueryRound"]}
{"id": "C55", "title": "VerifyFriProof checks every query round with its own index", "statement": "VerifyFriProof is satisfiable iff proof-of-work holds, shapes match, and every query round i is consistent at query index i.", "quantifier": "for every proof and number of queries", "why_tests_cant": "All shapes.", "anchors": ["fri/fri.go:VerifyFriProof"]}
{"id": "C56", "title": "Shape validation aborts compilation on malformed FRI proofs and rules out index panics", "statement": "validateFriProofShape panics unless all vector lengths match the parameters; if it does not panic, no query round indexes out of range.", "quantifier": "for every proof shape and parameters", "why_tests_cant": "All shapes.", "anchors": ["fri/fri_utils.go:validateFriProofShape"]}
{"id": "C57", "title": "rangeCheckProof range-checks every Goldilocks element of the proof", "statement": "If rangeCheckProof is satisfied then every field element in openings, query round evaluations, final polynomial and PoW witness is canonical; and it is satisfied by every proof with canonical elements.", "quantifier": "for every proof shape and values", "why_tests_cant": "All shapes; omission of one field would go unnoticed by honest tests.", "anchors": ["verifier/verifier.go:rangeCheckProof"]}
{"id": "C58", "title": "The overall verifier circuit accepts iff the plonky2 verification equation, FRI checks and range checks hold for the derived challenges", "statement": "VerifierChip.Verify is satisfiable iff there are challenges admitted by the transcript for which range checks, the PLONK identity and the FRI checks hold; every canonical proof accepted by the reference verifier (textbook Poseidon transcript) is accepted.", "quantifier": "for every proof, public inputs, verifier data", "why_tests_cant": "All proofs and hints.", "anchors": ["verifier/verifier.go:Verify"]}
{"id": "C59", "title": "Public inputs are not bound beyond their residue modulo p", "statement": "GetPublicInputsHash maps x and x+p (both below the reduce bound) to the same set of hashes, so the caller must range-check public inputs; for canonical public inputs no two are identified by the reduction.", "quantifier": "for every public input vector", "why_tests_cant": "All aliasing pairs.", "anchors": ["verifier/verifier.go:GetPublicInputsHash", "poseidon/goldilocks.go:HashNoPad"]}
{"id": "C60", "title": "Deserialisation preserves values and lengths", "statement": "DeserializeProofWithPublicInputs and DeserializeVerifierOnlyCircuitData map the raw decoded structures to circuit structures field by field, preserving all values, lengths and order.", "quantifier": "for every raw proof", "why_tests_cant": "All shapes.", "anchors": ["variables/deserialize.go"]}
{"id": "C61", "title": "ReadCommonCircuitData rejects hiding configurations and carries every parameter", "statement": "ReadCommonCircuitData panics when the FRI parameters request hiding and otherwise copies every parameter unchanged into the corresponding field.", "quantifier": "for every raw parameter set", "why_tests_cant": "All parameter sets.", "anchors": ["types/common_data.go"]}
{"id": "C62", "title": "Non-canonical query-index guard", "statement": "assertNoncanonicalIndicesOK panics iff the probability bound p mod-lde-size/p exceeds the documented threshold; for LDE rate bits below 16 it never panics.", "quantifier": "for every configuration", "why_tests_cant": "All configurations.", "anchors": ["fri/fri.go:assertNoncanonicalIndicesOK"]}
{"id": "C63", "title": "Opening order matches the FRI instance order", "statement": "The list produced by toOpenings and the polynomial list of GetInstance line up: k-th opening at zeta is the opening of the k-th polynomial (oracle, index) of the zeta batch, and the same for g*zeta; lengths agree for well-shaped openings.", "quantifier": "for every circuit shape", "why_tests_cant": "All shapes.", "anchors": ["fri/fri.go:ToOpenings", "fri/fri.go:GetInstance", "fri/fri_utils.go:friAllPolys"]}
{"id": "C64", "title": "trusted_setup eval is polynomial evaluation", "statement": "eval(p, x) equals sum p_i x^i in the scalar field for every non-empty coefficient list; an empty list aborts.", "quantifier": "for every coefficient list and point", "why_tests_cant": "All lengths.", "anchors": ["trusted_setup/trusted_setup.go:eval"]}
{"id": "C65", "title": "Honest completeness: no honest run of the arithmetic chip on canonical inputs fails", "statement": "Every operation of the Goldilocks chip on canonical inputs (nonzero divisors) has an honest run, and the honest run satisfies every constraint and range check it emits.", "quantifier": "for all canonical inputs", "why_tests_cant": "All inputs.", "anchors": ["goldilocks/base.go", "goldilocks/quadratic_extension.go"]}
{"id": "C66", "title": "The reference string comes from a complete chain of contributions", "statement": "DownloadAndSaveAztecIgnitionSrs builds the SRS from a contribution only if all contributions from startIdx to the last participant were fetched, each one passes Follows against its predecessor, and the contribution used is the last one; otherwise it aborts.", "quantifier": "for every list of participants, every start index and every behaviour of download and Follows", "why_tests_cant": "Any number of participants; the swap of the two buffers in the loop is only visible on long chains with a bad link.", "anchors": ["trusted_setup/trusted_setup.go:DownloadAndSaveAztecIgnitionSrs"]}
{"id": "C67", "title": "Circuit generation succeeds exactly for well-shaped proofs", "statement": "For a supported circuit whose gates fit the opened constants and wires, generating the verifier circuit completes without panic if and only if every list is as long as the circuit requires: gate constraints, coset shifts and openings of the PLONK check, initial caps, and the opening proof (exactly the sizes prescribed by the FRI parameters, as many query rounds as both copies of the FRI configuration say, a commit-phase cap for every reduction); in every other case it panics. The outcome does not depend on the values in the proof or in the public inputs.", "quantifier": "for every supported circuit, every proof shape and all values", "why_tests_cant": "All shapes and all values of hundreds of elements; a panic in one branch is only seen by a test that reaches it.", "anchors": ["verifier/verifier.go:Verify", "fri/fri.go:VerifyFriProof", "fri/fri_utils.go:validateFriProofShape", "plonk/plonk.go:Verify"]}
{"id": "C68", "title": "Proof and public inputs have the sizes of the circuit", "statement": "The verifier circuit accepts exactly what the plonky2 verifier accepts, including its validation of sizes: as many openings of constants, sigmas, wires, Zs, partial products and quotients as the circuit has, caps of the configured height, and NumPublicInputs public inputs.", "quantifier": "for every supported circuit, every proof of every shape, all values and all lists of public inputs", "why_tests_cant": "Tests use well-shaped proofs; a wrong shape that still verifies must be constructed so that all list accesses, the PLONK identity and FRI agree by accident.", "anchors": ["verifier/verifier.go:Verify", "fri/fri_utils.go:validateFriProofShape", "plonk/plonk.go:Verify", "poseidon/goldilocks.go:HashNoPad"]}
{"id": "C69", "title": "The circuit accepts only proofs accepted by plonky2", "statement": "A canonical proof of the right shape satisfies the verifier circuit if and only if the plonky2 verifier, over the textbook Poseidon permutation, accepts it.", "quantifier": "for every supported circuit, every proof, all public inputs and every choice of the hint values by the prover", "why_tests_cant": "Test witnesses are computed by the honest hint functions; the prover's other choices are never run.", "anchors": ["verifier/verifier.go:Verify", "verifier/verifier.go:GetChallenges", "poseidon/goldilocks.go:sBoxMonomial", "goldilocks/base.go:ReduceWithMaxBits"]}
{"id": "C70", "title": "The S-boxes are the prover's only freedom", "statement": "The constraints of the verifier circuit hold for some witness if and only if the proof is canonical, the public inputs are below 2^144*p and the plonky2 verifier accepts when each application of the Goldilocks S-box returns, independently, one of the (at most 36) values a*(a^3+k*r)^2+k'*r with k, k' <= 5. No other intermediate value, challenge or check can be influenced by a malicious prover; with an S-box that determines x^7 the circuit is equivalent to the plonky2 verifier.", "quantifier": "for every circuit and proof of supported sizes, all public inputs and every assignment of all hint values; for every circuit used as S-box", "why_tests_cant": "It is a statement about all witnesses of a circuit with millions of constraints; tests run one honest witness.", "anchors": ["verifier/verifier.go:Verify", "verifier/verifier.go:GetChallenges", "verifier/verifier.go:GetPublicInputsHash", "challenger/challenger.go:duplexing", "poseidon/goldilocks.go:Poseidon", "poseidon/goldilocks.go:sBoxMonomial", "goldilocks/base.go:ReduceWithMaxBits"]}
{"id": "C71", "title": "FRI accepts every honestly produced proof", "statement": "If the committed polynomials have degree at most 2^DegreeBits and the proof is produced by the FRI prover (Merkle trees over the coset in bit-reversed order, batched quotients, folding by 16, final coefficients, query answers), then VerifyFriProof is satisfied for all challenges and query indices, except when a folding challenge lies in the base field or an opening point lies on the evaluation domain.", "quantifier": "for all lists of polynomials, salts, opening points, challenges, query indices and supported FRI parameters", "why_tests_cant": "Tests run recorded proofs of a few circuits; the claim covers every polynomial, every query index and every number of reductions.", "anchors": ["fri/fri.go:VerifyFriProof", "fri/fri.go:verifyQueryRound", "fri/fri.go:friCombineInitial", "fri/fri.go:computeEvaluation", "fri/fri.go:finalPolyEval", "fri/fri.go:verifyMerkleProofToCapWithCapIndex"]}
{"id": "C72", "title": "The PLONK checks accept every satisfied trace", "statement": "If in every row the constraints of the selected gate hold and connected wires are equal, then for all beta, gamma without zero denominator there are accumulators and partial products, and for all alpha quotient chunks, of degree below n, such that the openings at every zeta other than 1 satisfy PlonkChip.Verify.", "quantifier": "for every circuit description with gates of admissible degree, every trace, all challenges", "why_tests_cant": "Requires the existence of polynomials for every trace and all challenges.", "anchors": ["plonk/plonk.go:Verify", "plonk/plonk.go:evalVanishingPoly", "plonk/plonk.go:checkPartialProducts", "plonk/gates/evaluate_gates.go:EvaluateGateConstraints"]}
{"id": "C73", "title": "The PLONK checks reject every trace that is not satisfied", "statement": "If some gate constraint or some copy constraint of a trace fails, then PlonkChip.Verify is unsatisfiable at the openings of any accumulators, partial products and quotients of degree at most n, unless challenges lie in small sets fixed before they are drawn: either zeta in a set of at most (QuotientDegreeFactor+1)*n values, or, in every single one of the NumChallenges repetitions, beta or gamma in a set of at most n*NumRoutedWires values or alpha in a set of fewer values than there are terms.", "quantifier": "for every circuit description, every trace, every adversarial choice of polynomials after each challenge, all challenges outside the stated sets, all hint values", "why_tests_cant": "A statement about all cheating strategies and almost all challenges.", "anchors": ["plonk/plonk.go:Verify", "plonk/plonk.go:evalVanishingPoly", "plonk/plonk.go:checkPartialProducts", "plonk/plonk.go:evalL0", "plonk/gates/evaluate_gates.go:EvaluateGateConstraints", "plonk/gates/evaluate_gates.go:computeFilter"]}
{"id": "C74", "title": "Completeness of the whole verifier", "statement": "For every trace satisfying the gates and the copy constraints, the honest plonky2 prover (commitments to low-degree extensions, accumulators, quotients, FRI commit and query phases, challenges from the Fiat-Shamir transcript of the proof itself) produces a proof which VerifierChip.Verify accepts with all hint values computed by the code's own hint functions, unless a challenge lies among the explicitly listed unlikely values or the proof-of-work witness is bad.", "quantifier": "for every circuit description with admissible gates and FRI parameters, every satisfied trace, all public inputs, all salts, every proof-of-work witness", "why_tests_cant": "A recorded proof settles one circuit and one witness; the claim is for every circuit, witness and transcript.", "anchors": ["verifier/verifier.go:Verify", "verifier/verifier.go:GetChallenges", "fri/fri.go:VerifyFriProof", "plonk/plonk.go:Verify"]}
{"id": "C75", "title": "FRI rejects false openings", "statement": "Provided that no two of the evaluated hash inputs collide, every cap determines polynomials of degree at most 2^DegreeBits (the committed ones, for caps of honest trees), such that a proof of openings other than their values can only be accepted at query positions from a set of fewer than 2^n - e positions fixed before the query indices are drawn, unless alpha or a folding challenge lies in a small set fixed before it is drawn: at most (openings-1)*(2^DegreeBits*e+e+1) values of alpha, 15*(2^DegreeBits*e+e+1) values of each folding challenge. Here n = DegreeBits+RateBits, and e is any number with 2e + 2^DegreeBits < 2^n.", "quantifier": "for all supported FRI parameters, caps, points, claimed openings, commit-phase caps, final polynomials, Merkle paths, query indices, all challenges outside the stated sets, all hint values", "why_tests_cant": "A statement about all cheating provers and almost all challenges; tests can only try particular corruptions of recorded proofs.", "anchors": ["fri/fri.go:VerifyFriProof", "fri/fri.go:verifyQueryRound", "fri/fri.go:friCombineInitial", "fri/fri.go:computeEvaluation", "fri/fri.go:finalPolyEval", "fri/fri.go:verifyInitialProof", "fri/fri.go:verifyMerkleProofToCapWithCapIndex"]}
{"id": "C76", "title": "The verifier circuit only accepts proofs of satisfied circuits", "statement": "Provided that no two of the evaluated hash inputs collide, the cap of the wires determines wires of degree at most n (the committed ones, for the cap of an honest tree), and a proof satisfying VerifierChip.Verify for the verifier data of a circuit has wires satisfying all gate and copy constraints of that circuit with the hash of the public inputs, unless the challenges of its transcript are exceptional: beta, gamma or alpha in every repetition, zeta, alpha of FRI, a folding challenge, or all query positions lie in sets that are fixed by what precedes them in the transcript and are of explicitly bounded size.", "quantifier": "for all circuit descriptions and circuits, all proofs and public inputs, all permutations computed by the permutation circuit (and, for the code's own circuit, all S-box outcomes its constraints admit), all hint values", "why_tests_cant": "Soundness is about every cheating prover; tests only run recorded honest proofs.", "anchors": ["verifier/verifier.go:Verify", "verifier/verifier.go:GetChallenges", "plonk/plonk.go:Verify", "fri/fri.go:VerifyFriProof", "fri/fri.go:GetInstance", "challenger/challenger.go:GetChallenge"]}
{"id": "C77", "title": "Soundness error of the interactive protocol", "statement": "Consider the interactive protocol whose Fiat-Shamir transform the verifier circuit checks: the challenges are uniform and independent, each drawn after the messages preceding it in the transcript, and the verifier makes the checks of VerifierChip.Verify. Provided that no two of the evaluated hash inputs collide, either the wires determined by the prover's first message satisfy the circuit, or the verifier accepts with probability at most min(1, 2^(64-powBits)/p) times the sum ((2 n r + t - 1)/p)^numChallenges + (d+1) n/p^2 + (o-1)(n e + e + 1)/p^2 + 15 k (n e + e + 1)/p^2 + ((2^N - e - 1) ceil(p/2^N)/p)^numQueryRounds, for r routed wires, t constraint terms, quotient degree factor d, o openings, k FRI layers, 2^N points and any e below half the minimum distance. For the parameters of testdata/step the sum is below 2^-23 and the product below 2^-39.", "quantifier": "for all circuits, all adaptive provers (each message any function of the earlier challenges), all hashes of public inputs", "why_tests_cant": "It bounds the success probability of every adaptive prover over all challenges.", "anchors": ["verifier/verifier.go:Verify", "verifier/verifier.go:GetChallenges", "plonk/plonk.go:Verify", "fri/fri.go:VerifyFriProof"]}
{"id": "C78", "title": "The inputs of a gate determine its other wires", "statement": "For every supported gate, the constraints evaluated by EvalUnfiltered are the graph of a function of the gate's input wires: given constants, public-input hash and input wires that meet the gate's conditions (base sum: the sum fits the digits and does not wrap around; random access: indices in range; Poseidon: boolean swap flag; coset interpolation: nonzero shift; reducing: at least one coefficient), exactly one assignment of the remaining wires of the gate makes all constraints computed by the circuit zero. The conditions on sums, indices and flags are implied by the constraints. With 64 binary digits the digits of a base sum are not determined.", "quantifier": "for all gates with all parameters, all rows", "why_tests_cant": "Existence and uniqueness of the completion quantify over all field values of all wires; a test evaluates one row.", "anchors": ["plonk/gates/arithmetic_gate.go:EvalUnfiltered", "plonk/gates/random_access_gate.go:EvalUnfiltered", "plonk/gates/poseidon_gate.go:EvalUnfiltered", "plonk/gates/coset_interpolation_gate.go:EvalUnfiltered", "plonk/gates/exponentiation_gate.go:EvalUnfiltered", "plonk/gates/base_sum_gate.go:EvalUnfiltered"]}
{"id": "C79", "title": "Soundness error with challenges from a random oracle", "statement": "Every challenge of the verifier's transcript is the answer of one fixed oracle to the part of the transcript that precedes it (public-input hash, messages and challenges so far); in the code the oracle is the duplex sponge over the Poseidon permutation. With a uniformly random function in its place, a prover that makes Q adaptive queries and then chooses the public inputs and the proof gets a proof accepted, although the wires determined by the proof's wires cap do not satisfy the circuit for these public inputs, with probability at most (Q + 5 + k) times the largest error of a round: 2 n r/p for beta and gamma, (t-1)/p for alpha, (d+1) n/p^2 for zeta, (o-1)(n e + e + 1)/p^2 and 15 (n e + e + 1)/p^2 for FRI, and proof of work times query error for the last round. For the parameters of testdata/step this is below 2^-39 for each query.", "quantifier": "for all circuits, all numbers of queries, all adaptive provers choosing queries, public inputs and proof", "why_tests_cant": "It bounds the success probability of every adaptive prover over all oracles.", "anchors": ["verifier/verifier.go:GetChallenges", "challenger/challenger.go:GetFriChallenges", "verifier/verifier.go:Verify", "plonk/plonk.go:Verify", "fri/fri.go:VerifyFriProof"]}
{"id": "C80", "title": "Exactly when the functions of fri.go panic", "statement": "For all arguments, also those the whole program never passes: verifyMerkleProofToCapWithCapIndex completes if and only if there is an index bit for every sibling, four cap bits and sixteen cap entries; verifyInitialProof iff there are as many evaluation proofs as caps and every path fits; calculateSubgroupX and GetInstance iff the degree bits are at most 32; friCombineInitial iff there is one reduced opening for each batch and the leaves contain every polynomial of every batch; interpolate iff its three slices have one length; computeEvaluation iff there are 2^a values with a at most 7; the sixteen-way lookup iff there are four bits and sixteen values; PartialInterpolateExtAlgebra iff there are values and as many domain points and weights. In all other cases every path panics, or for 256 values the loop does not end.", "quantifier": "for all arguments of each function", "why_tests_cant": "Both directions quantify over all lengths and all witness values; a test tries a few lengths.", "anchors": ["fri/fri.go:verifyMerkleProofToCapWithCapIndex", "fri/fri.go:verifyInitialProof", "fri/fri.go:friCombineInitial", "fri/fri.go:interpolate", "fri/fri.go:computeEvaluation", "fri/fri.go:calculateSubgroupX", "goldilocks/quadratic_extension_algebra.go:PartialInterpolateExtAlgebra"]}
{"id": "C81", "title": "Overwriting by MulAcc is harmless", "statement": "gnark's MulAcc(a, b, c) may overwrite the expression of a with its result. Whichever calls do so, MulAddNoReduce, the Poseidon permutation over BN254, HashNoPad, HashOrNoop and TwoToOne return the value that they would without overwriting, and no variable that existed before the call changes its value. MulAdd leaves the caller's variables intact too, but reads its remainder after having passed it to MulAcc: it is correct exactly as long as gnark does not overwrite there.", "quantifier": "for all variables of the caller, shared or not, constants or not, all input lengths and all choices of which calls of MulAcc overwrite", "why_tests_cant": "Whether MulAcc overwrites depends on capacities inside gnark and on the builder; tests run with one behaviour, and sharing of variables among callers cannot be enumerated.", "anchors": ["goldilocks/base.go:MulAdd", "goldilocks/base.go:MulAddNoReduce", "poseidon/bn254.go:Poseidon", "poseidon/bn254.go:HashNoPad", "poseidon/bn254.go:HashOrNoop", "poseidon/bn254.go:TwoToOne", "poseidon/bn254.go:partialRounds", "poseidon/bn254.go:mix"]}
{"id": "C82", "title": "Slices that share memory", "statement": "With slices as windows of arrays, append writing in place when the capacity suffices, and any spare capacity chosen by the runtime: ToOpenings returns the concatenation of the openings and leaves them intact, so that both of its calls return the same, provided that no opening is stored in the spare capacity of Constants; deserialisation always produces such openings. The in-place multiplication by the filter in evalFiltered and every sequence of calls to the challenger compute what they would with immutable lists, and leave every slice of the caller intact. If openings share memory, ToOpenings may corrupt them.", "quantifier": "for all heaps, slices, lengths, capacities and allocation choices, all gates, all sequences of challenger calls", "why_tests_cant": "Whether append writes in place depends on capacities chosen by the runtime; tests see one layout of memory.", "anchors": ["fri/fri.go:ToOpenings", "variables/deserialize.go:DeserializeOpeningSet", "goldilocks/utils.go:Uint64ArrayToQuadraticExtensionArray", "plonk/gates/evaluate_gates.go:evalFiltered", "challenger/challenger.go:ObserveElement", "challenger/challenger.go:GetChallenge", "challenger/challenger.go:duplexing"]}
{"id": "C83", "title": "JSON files are read as written", "statement": "A JSON document that represents a proof, verifier data or circuit data in the format of plonky2 - under each key of the format the value of the corresponding field, keys in any order, further keys allowed at every level - is decoded to exactly these data; every proof and circuit with 64-bit numbers has such a document. Followed by deserialisation, the document of a proof over the fields gives the witness values encoding it. Public inputs that do not fit into 64 bits are rejected. Absent keys are not noticed: they give zero values.", "quantifier": "for all documents, all data, all orders of keys and all further keys", "why_tests_cant": "Two test files exercise one order of keys and one shape; a tag with a typing error would silently give a zero value.", "anchors": ["types/deserialize.go:ReadProofWithPublicInputs", "types/deserialize.go:ReadVerifierOnlyCircuitData", "types/deserialize.go:ProofWithPublicInputsRaw", "types/deserialize.go:EvalProofRaw.UnmarshalJSON", "types/deserialize.go:MerkleProofRaw.UnmarshalJSON", "types/common_data.go:CommonCircuitDataRaw", "types/common_data.go:ReadCommonCircuitData"]}
{"id": "C84", "title": "64-bit gate parameters and wire numbers", "statement": "With parameters, loop counters, shifts and wire numbers computed in uint64 with wrap-around, and every check of the wire accessors, each of the fourteen gates evaluates without panic exactly when the opened constants and wires suffice for its exact, not wrapped-around, parameters and the parameters are possible for it; it is then the same program, reading the same wires, as with unbounded integers. The same holds for the loop over all gates of a circuit, with the exact condition on selectors, groups and number of constraints. Every gate read from an identifier has such parameters.", "quantifier": "for all uint64 parameters of all gates, all lists of gates and selector data, all numbers of opened constants and wires that fit in memory, all identifier strings", "why_tests_cant": "Parameters come from a file; a test would have to try 2^64 values of each. A wrapped-around wire number would silently constrain the wrong wire.", "anchors": ["plonk/gates/*_gate.go:EvalUnfiltered", "plonk/gates/vars.go:GetLocalExtAlgebra", "plonk/gates/evaluate_gates.go:EvaluateGateConstraints", "plonk/gates/coset_interpolation_gate.go:numIntermediates", "plonk/gates/random_access_gate.go:vecSize"]}
{"id": "C85", "title": "Identifiers returned by the gates", "statement": "For every gate g whose parameters fit into 64 bits, GateInstanceFromId(g.Id()) is g again, whatever the iteration order of the handler map, and distinct gates have distinct identifiers. The code violates the first claim for coset-interpolation, exponentiation and random-access gates: their Id() omits the phantom parameter that the regular expressions demand, so that GateInstanceFromId(g.Id()) panics for all of them. Id() is the identifier plonky2 writes exactly for the other gates except the two Poseidon gates.", "quantifier": "for all gates, all parameters, all iteration orders of the map and all ways to print the interpolation weights with digits and punctuation", "why_tests_cant": "A round trip over some parameters says nothing about other numbers, and the failing kinds are not tested for it; map iteration order is random.", "anchors": ["plonk/gates/*_gate.go:Id", "plonk/gates/gate.go:GateInstanceFromId"]}
{"id": "C86", "title": "What the sanity check of the reference string tests", "statement": "With a bilinear pairing: a reference string of at least 60 points passes sanityCheck for every random polynomial if and only if the first 60 points satisfy the pairing equations e(S[i+1], G2[0]) = e(S[i], G2[1]), which for a nondegenerate pairing means S[i] = tau^i S[0]. If one of these equations fails, at most one polynomial in r passes. A string of fewer than 60 points always fails. Points from the 60th on do not influence the outcome, and a string of zeros passes. DownloadAndSaveAztecIgnitionSrs saves a string exactly when all contributions from startIdx on (at least two) were fetched and each follows its predecessor, and the string built from the last of them passes the check.", "quantifier": "for all groups with a bilinear pairing, all strings, all polynomials, all lists of participants", "why_tests_cant": "The probability over the random polynomial and the quantification over all strings are out of reach of tests; the real run needs the network.", "anchors": ["trusted_setup/trusted_setup.go:sanityCheck", "trusted_setup/trusted_setup.go:randomPolynomial", "trusted_setup/trusted_setup.go:eval", "trusted_setup/trusted_setup.go:DownloadAndSaveAztecIgnitionSrs"]}
{"id": "C87", "title": "From the files to the exit status", "statement": "The program of benchmark.go ends with status 0 exactly when a circuit is named, its three files can be read, the proof system is plonk or groth16, and for the circuit and public inputs of the files compilation, key generation, proof generation and verification succeed; only with dummy Groth16 keys verification is skipped, and then saving panics since there is no verifying key. Profiling has no influence. With an ideal proof system (whatever can be solved is compiled and proved, nothing else is proved), for files that represent a plonky2 proof, verifier data and circuit data of proper sizes, the exit status is 0 exactly when the plonky2 verifier accepts the proof.", "quantifier": "for all behaviours of the proof systems, all files, all flags, all map iteration orders; the last claim for all proofs, public inputs and circuits of proper sizes", "why_tests_cant": "Tests run the program on two valid proofs; the claim is about all files and all failures of the library.", "anchors": ["benchmark.go:main", "benchmark.go:runBenchmark", "benchmark.go:plonkProof", "benchmark.go:groth16Proof", "verifier/util.go:ExampleVerifierCircuit", "verifier/util.go:Define"]}
{"id": "C88", "title": "64-bit circuit parameters of the verifier", "statement": "Go computes with circuit parameters as uint64 and int, with wrap-around. For all parameters below 2^64 and all proofs that fit in memory, with at least one query round and DegreeBits + RateBits < 2^64, the circuit generated is the one of the model with unbounded integers, or both panic; so all other properties carry over. Both conditions are needed: without query rounds the arities can wrap to total 0; and if RateBits is 64 or more, the check on noncanonical indices passes and DegreeBits + RateBits can wrap to a small number of bits, the query rounds then being those of a code of rate one, for which any values are a codeword.", "quantifier": "for all 64-bit parameters, gates with 64-bit parameters, proofs of lengths that fit in memory, public inputs, verifier data and hash functions", "why_tests_cant": "Tests use a few small circuits; wrap-around happens only for huge parameters, whose number is astronomical.", "anchors": ["types/types.go:TotalArities", "types/types.go:LdeBits", "types/types.go:FinalPolyBits", "types/types.go:FinalPolyLen", "fri/fri_utils.go:validateFriProofShape", "fri/fri_utils.go:GetInstance", "fri/fri.go:verifyQueryRound", "fri/fri.go:VerifyFriProof", "plonk/plonk.go:checkPartialProducts", "plonk/plonk.go:evalVanishingPoly", "plonk/plonk.go:Verify", "verifier/verifier.go:Verify"]}
{"id": "C89", "title": "The circuit does not depend on the values of the proof", "statement": "The hints, constraints, range-check requests and panics made while the verifier circuit is generated, with their order, numbers of outputs and bit widths, are determined by the circuit data and the sizes of the proof, the public inputs and the constants-sigmas cap; they do not depend on values of the proof, public inputs, verifier data or hints. So a circuit generated for one proof is the circuit for all proofs of the same sizes, and generation panics for all of them or for none.", "quantifier": "for all circuit data (without further assumptions), gates and map iteration orders, all proofs, public inputs and verifier data, all hint values", "why_tests_cant": "A test compiles the circuit for one proof and checks other proofs of the same program at most; a branch on a value would show for particular values only.", "anchors": ["verifier/verifier.go:Verify", "verifier/util.go:Define", "fri/fri.go:VerifyFriProof", "plonk/plonk.go:Verify", "plonk/gates/evaluate_gates.go:EvaluateGateConstraints", "challenger/challenger.go:GetChallenge"]}
{"id": "C90", "title": "Range checks of the verifier with the commit-based checker", "statement": "The range checks requested by the verifier have 32, 144 or 192 bits or, for the proof of work, 64 minus the number of proof-of-work bits. With the commit-based checker compilation therefore aborts when this number is not a multiple of 16, and does not abort when it is a multiple of 16 below 64 and at least 65536 checks are requested. For either builder, the circuit generated for one proof accepts inputs of the same sizes exactly when compilation did not abort and the constraints hold with every requested bound enforced.", "quantifier": "for all circuit data with at most 64 proof-of-work bits, gates, proofs, public inputs, verifier data and hint values; at most 2^50 requests", "why_tests_cant": "The widths requested on all paths of the generator for all circuit data, and all assignments.", "anchors": ["goldilocks/base.go:checkCollected", "goldilocks/base.go:RangeCheckWithMaxBits", "fri/fri.go:assertLeadingZeros", "verifier/verifier.go:Verify"]}
{"id": "C91", "title": "The circuit compiled from a template is the circuit for the proofs", "statement": "A template built with the constructors of variables/fri.go, the helper functions for sizes and the lengths documented for the slices is built without a panic, has the sizes of the circuit, and these are the only ones: the verifier circuit compiled from it makes the same calls as the one generated for any proof with the validated sizes. MaxArityBits, LdeSize and FinalPolyLen return the maximum of the arities, the size of the domain and the length of the final polynomial.", "quantifier": "for every circuit data with parameters that fit in 63 bits, every proof and verifier data", "why_tests_cant": "All circuit parameters and all proofs; the tests only use proofs that exist already.", "anchors": ["variables/fri.go:NewFriQueryStep", "variables/fri.go:NewFriMerkleCap", "variables/fri.go:NewFriMerkleProof", "types/types.go:FinalPolyLen", "types/types.go:MaxArityBits", "types/types.go:LdeSize"]}
{"id": "C92", "title": "The circuits shipped with the repository are within the guarantees", "statement": "The circuit data and verifier data in testdata/decode_block and testdata/step are supported: their gate identifiers name the gates whatever the iteration order of the registry, these fit in the wires and constants, degrees and constraint counts are as declared, wire positions have distinct names, and the FRI parameters are covered. Hence the verifier circuit made from either directory accepts, for every proof and public inputs of the prescribed sizes, exactly what plonky2 accepts (up to the freedom of C69), and a prover without a satisfying witness convinces the verifier with probability below 2^-39 (interactively), or at most (q+7)/2^39 with q queries to a random oracle.", "quantifier": "for all proofs, public inputs, iteration orders and provers, for the two circuits shipped", "why_tests_cant": "The tests check one proof for each circuit; the claim is about all proofs and all provers.", "anchors": ["testdata/decode_block/common_circuit_data.json", "testdata/step/common_circuit_data.json", "testdata/decode_block/verifier_only_circuit_data.json", "testdata/step/verifier_only_circuit_data.json", "verifier/verifier.go:Verify", "types/common_data.go:ReadCommonCircuitData"]}
{"id": "C93", "title": "The unit tests of the repository hold in the model", "statement": "The circuits of the unit tests in goldilocks, poseidon and plonk/gates assert, for all inputs, that the expected value is the specified one (product and sum, quotient, BN254 permutation, constraints of a gate), and the values in the tests are these: the tests pass, the range check rejects p, the eleven gates have the listed constraints, and the two Poseidon implementations have the listed outputs. The Goldilocks Poseidon test is passed by the right output with honest hints, but its circuit also accepts an output wrong in every entry.", "quantifier": "for all inputs and witnesses of the test circuits; test values as listed", "why_tests_cant": "The tests run the honest hints on one input; here the circuits are shown to accept nothing else, or, for the Goldilocks Poseidon, to accept more.", "anchors": ["goldilocks/base_test.go", "goldilocks/quadratic_extension_test.go", "poseidon/bn254_test.go", "poseidon/goldilocks_test.go", "poseidon/public_inputs_hash_test.go", "plonk/gates/gates_test.go"]}
{"id": "C94", "title": "Size of the verifier circuit", "statement": "For every supported circuit, whenever generation for inputs of the prescribed sizes does not panic, the numbers of hint calls, assertions and range-check requests (by bit width) are those of an explicit formula in the circuit data: gates, numbers of wires, challenges and queries, FRI parameters, public inputs and the number of commit-phase caps. With the sizes of the template generation never panics. For testdata/decode_block the verifier makes 428762 hint calls, 945104 assertions and 624689 range-check requests, for testdata/step 448786, 987312 and 653875; hence with the commit-based range checker both circuits compile and enforce all range checks.", "quantifier": "for all supported circuits, all proofs and public inputs of the prescribed sizes, all values of the hints", "why_tests_cant": "A compilation shows the size for one circuit; the formula covers all circuits and every operation contributing to it.", "anchors": ["verifier/verifier.go:Verify", "plonk/plonk.go:Verify", "fri/fri.go:VerifyFriProof", "challenger/challenger.go", "goldilocks/base.go:MulAdd", "poseidon/goldilocks.go:Poseidon", "plonk/gates"]}
{"id": "C95", "title": "Lookup argument behind the commit-based range checker", "statement": "The range checks requested through frontend.Rangechecker are enforced in gnark by splitting each value into limbs and comparing sums of inverses at a challenge derived from a commitment to limbs and counts. If a value is out of range then, whatever limbs and counts are committed to, the check passes for at most 2*2^w + m of the r challenges, m being the number of limbs; if all values are in range, the hints pass for every challenge outside the table. For the verifier circuits of testdata, with either builder: inputs satisfying the circuit pass for all but 65536 challenges, and for inputs that do not, every run passes with probability below 2^-231.", "quantifier": "for all lists of requests, all limbs and counts chosen by the prover, all runs of the two circuits", "why_tests_cant": "The statement counts challenges in a field of 254 bits against an arbitrary prover.", "anchors": ["goldilocks/base.go:rangeCheckerCheck", "goldilocks/base.go:RangeCheckWithMaxBits", "goldilocks/range_checker_utils.go"]}
{"id": "C96", "title": "Both Poseidon permutations are permutations", "statement": "The S-boxes x^7 over Goldilocks and x^5 over the BN254 scalar field, both MDS layers, the textbook Goldilocks Poseidon and the code's BN254 Poseidon are bijective; the Goldilocks circuit run with honest hints maps different states to different states and reaches every state. Hence lists of at most eight elements never lead the sponge to the same state, and longer lists of equal length only through two prefixes whose states agree on the four positions never overwritten. Over the quadratic extension, where PoseidonGate is evaluated, the same formulas are not injective.", "quantifier": "for all states and all lists of field elements", "why_tests_cant": "Bijectivity on 2^768 and 2^1016 states; tests compare single outputs.", "anchors": ["poseidon/goldilocks.go:Poseidon", "poseidon/bn254.go:Poseidon", "poseidon/bn254.go:TwoToOne", "poseidon/goldilocks.go:HashNToMNoPad"]}
{"id": "C97", "title": "A proof is bound to its public inputs", "statement": "A proof that satisfies the verifier circuit with some public inputs should not satisfy it with others for which the plonky2 verifier rejects it.", "quantifier": "for all circuits of the prescribed sizes, all proofs, all public inputs, all values of the hints", "why_tests_cant": "The test engine uses the honest hints, with which the circuit behaves like plonky2; the other assignments exist for a malicious prover only.", "anchors": ["verifier/verifier.go:GetPublicInputsHash", "poseidon/goldilocks.go:sBoxMonomial", "poseidon/goldilocks.go:HashNoPad", "goldilocks/base.go:ReduceWithMaxBits"]}
{"id": "C98", "title": "The proof-of-work witness of an accepted proof cannot be exchanged", "statement": "If a proof satisfies the verifier circuit, the same proof with another proof-of-work witness should satisfy it only if the plonky2 verifier accepts it; in particular what the challenger has absorbed should be determined by the challenges and the states that follow, as it is for the Poseidon permutation itself.", "quantifier": "for all circuits of the prescribed sizes, all proofs, all public inputs, all values of the hints, all sequences of absorptions and reads", "why_tests_cant": "The test engine uses the honest hints, with which the circuit behaves like plonky2; the other assignments exist for a malicious prover only.", "anchors": ["challenger/challenger.go:GetFriChallenges", "challenger/challenger.go:ObserveElement", "poseidon/goldilocks.go:sBoxMonomial", "fri/fri.go:assertLeadingZeros"]}
{"id": "C99", "title": "Conversion helpers outside the verifier's path", "statement": "StrArrayToBigIntArray converts arrays of decimal strings one by one and panics exactly if one is malformed. DeserializeMerkleProof should turn decoded siblings into a Merkle proof whose siblings are hashes.", "quantifier": "for all arrays", "why_tests_cant": "The helpers are not called by any test or by the verifier, or only on well-formed literals.", "anchors": ["goldilocks/utils.go:StrArrayToBigIntArray", "variables/deserialize.go:DeserializeMerkleProof"]}
{"id": "C100", "title": "Quotient widths of the S-box for which the verifier is the plonky2 verifier", "statement": "With quotients of n bits in the two reductions of the Poseidon S-box (the code uses 192), the S-box circuit admits x^7 and nothing else, and the whole verifier circuit accepts exactly the proofs the plonky2 verifier accepts, if and only if n is from 128 to 189. In particular calling Reduce (144 bits) there repairs the violations of C19, C20, C32, C69, C97 and C98. For these widths an honest run succeeds exactly for these proofs; with 144 bits the calls of the circuit do not depend on the proof, and the circuit compiled with the commit-based range checker of gnark accepts exactly these proofs as well.", "quantifier": "for all widths, circuits of the prescribed sizes, proofs, public inputs and values of the hints", "why_tests_cant": "The honest hints satisfy the constraints for every width from 128 on; the difference shows with other values of the hints only.", "anchors": ["poseidon/goldilocks.go:sBoxMonomial", "goldilocks/base.go:ReduceWithMaxBits", "goldilocks/base.go:Reduce", "verifier/verifier.go:Verify"]}
{"id": "C101", "title": "The verifier with a builder that has native range checks", "statement": "Compiled with a builder that offers native range checks, the circuit should enforce the same as with the other range checkers: results of the arithmetic, of the permutation and of the hash are determined, and a proof is accepted only for its public inputs and only with openings, a final polynomial and a proof-of-work witness that pass the checks.", "quantifier": "for all operands, states, lists, proofs, public inputs and values of the hints", "why_tests_cant": "Honest hints satisfy the constraints with every range checker; what is missing shows with other values only, and no test uses such a builder.", "anchors": ["goldilocks/base.go:rangeCheckerCheck", "goldilocks/base.go:MulAdd", "goldilocks/base.go:ReduceWithMaxBits", "verifier/verifier.go:GetPublicInputsHash", "plonk/plonk.go:Verify", "fri/fri.go:VerifyFriProof"]}
{"id": "C102", "title": "Keys made by the example program serve other proofs", "statement": "A constraint system made by the example program for a plonky2 circuit, and the keys made from it, should serve all proofs of that circuit: for public inputs with a proof that plonky2 accepts, the prover should succeed.", "quantifier": "for all proof systems that prove exactly what can be solved, all circuits, proofs, public inputs and keys", "why_tests_cant": "Tests and the benchmark compile, prove and verify with one and the same plonky2 proof; the claim relates a constraint system to other proofs.", "anchors": ["verifier/util.go:ExampleVerifierCircuit", "verifier/util.go:Define", "benchmark.go:runBenchmark", "benchmark.go:plonkProof", "benchmark.go:groth16Proof"]}
{"id": "C103", "title": "The loops of HashNToMNoPad as written", "statement": "HashNToMNoPad overwrites the first eight elements of the state by eight inputs at a time, leaves the others as they are when inputs run out, and returns the first nbOutputs elements of the squeezed states after the least number of permutations. For nbOutputs at most zero its endless loop never returns.", "quantifier": "for all permutations, inputs, numbers of outputs (negative ones included) and numbers of iterations", "why_tests_cant": "Tests ask for a few positive numbers of outputs; that a loop never returns cannot be seen in a run.", "anchors": ["poseidon/goldilocks.go:HashNToMNoPad"]}
