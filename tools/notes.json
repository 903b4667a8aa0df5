{
 "C05": {
  "note": "For x = 0 the inverse component is any canonical value (exact set proved) and the flag is 0."
 },
 "C10": {
  "note": "The remaining NoReduce chains are covered by the exactness theorems of the functions that contain them (C06, C12, C33-C41, C45-C54)."
 },
 "C14": {
  "note": "Also: the list is exactly the set of 2^n-th roots of unity."
 },
 "C16": {
  "note": "Violated by the native backend: C16_native_violates, C16_native_rangeCheck_accepts_all. Proved for the other two backends (widths up to 256 bits, at most 2^50 checks).",
  "status": "partial"
 },
 "C17": {
  "note": "Covers both builders although the repo's FrontendTyper interface never matches gnark's SCS builder: r1cs-optimal 16 implies plonk-optimal 16 for aligned widths."
 },
 "C18": {
  "note": "Sequentially consistent interleaving model, arbitrary number of goroutines, fine-grained steps; includes deadlock freedom."
 },
 "C19": {
  "note": "Violated by the code for every input: ReduceWithMaxBits(.,192) lets a multiple of r be slipped in (C19_sbox_violated, exact set in C19_sbox_exact). The honest run and the extension S-box are correct.",
  "status": "partial"
 },
 "C20": {
  "note": "Uniqueness is violated for every state (C20_poseidon_violated) because of C19. Honest run = textbook permutation, and uniqueness given an exact S-box.",
  "status": "partial"
 },
 "C21": {
  "note": "Honest run of the code for all lengths; uniqueness only for a permutation without freedom (C19/C20). nbOutputs = 0 does not terminate in the Go code and is excluded.",
  "status": "partial"
 },
 "C24": {
  "note": "Includes that the constants in the code come from the Grain LFSR (342 words checked one by one in the kernel and chained by a lemma)."
 },
 "C25": {
  "note": "Injectivity is per length; C25_length_needed shows that lists of different length do collide."
 },
 "C26": {
  "note": "Relies on gnark's ToBinary enforcing bits < r at full width (trusted semantics)."
 },
 "C29": {
  "note": "Parametric in a permutation circuit that computes P (given the permutation, as the property says); honest run for the code's own permutation. Operands below 2^144*p (the domain of Reduce)."
 },
 "C30": {
  "note": "Every history, any operands, any hint values."
 },
 "C31": {
  "note": "Exact transcript for every shape; prefix and binding corollaries. Uniqueness needs a permutation without freedom (see C32); the honest run of the code is covered."
 },
 "C32": {
  "note": "Violated for every circuit and proof (C32_violated, C32_not_unique) because of the S-box (C19). Uniqueness holds for a permutation circuit without freedom.",
  "status": "partial"
 },
 "C42": {
  "note": "Group ends up to p for the exact value; C42_selects assumes the standard layout of selector columns."
 },
 "C44": {
  "note": "For identifiers as plonky2 writes them: interpolation gates with at least one weight (C44_no_weights covers none), weights printed as any machine words representing them (Identifies), as the test data contain words above p. Strings that are no identifier can be order dependent: C44_order_dependent."
 },
 "C45": {
  "note": "Chunk size at least 1; the two lists have exactly chunks times chunk size entries, fewer make the code run out of range (C45_short)."
 },
 "C46": {
  "note": "DegreeBits below 63 (1 << DegreeBits is an int in the code)."
 },
 "C47": {
  "note": "For lengths and parameters as in Shape; C47_uneven_chunks: nothing is accepted when NumRoutedWires < (NumPartialProducts+1)*QuotientDegreeFactor."
 },
 "C48": {
  "note": "Bases of two-power order (all that the verifier uses): any number of bits. Other bases: up to 63 bits, beyond that Go's int64(1<<i) wraps."
 },
 "C49": {
  "note": "Arity up to 128. beta in the coset makes the constraints unsatisfiable (C49_beta_in_coset)."
 },
 "C50": {
  "note": "Violated at arityBits = 8 (C50_arity8_diverges).",
  "status": "partial"
 },
 "C53": {
  "note": "Difficulty up to 64 bits; 0-bit range checks are taken to mean 'equals zero'."
 },
 "C54": {
  "note": "For the sizes the code supports (arity 16, cap height 4, domain up to 2^32, rate bits up to 15), as spelled out in RoundFits; canonical proof data and index."
 },
 "C55": {
  "note": "For the parameters the code supports (Supported), every proof, well-shaped or not."
 },
 "C56": {
  "note": "The number of commit-phase caps is not validated: C56_violated exhibits a proof that passes validation and panics in a query round. Everything else is proved: C56_validate (exact validation), C56_rounds_partial (no panic in the rounds of a validated proof with enough caps and challenges), C56_generation (exactly when generation of the FRI circuit succeeds).",
  "status": "partial"
 },
 "C60": {
  "note": "Starts from the decoded Go structs; failures (panic, or nil big integer rejected at witness creation) are `none`."
 },
 "C61": {
  "note": "Starts from the decoded Go struct."
 },
 "C62": {
  "note": "The model computes exactly; C62_rounding shows that floating-point rounding cannot change the outcome. From 64 rate bits on the guard is silent."
 },
 "C67": {
  "note": "Supported parameters: cap height 4, arities 2^4, domain of 2^4 to 2^32 points, rate at least 2^-15, at least one challenge, gates that fit the opened constants and wires. No hypothesis on any other size of the proof or the circuit."
 },
 "C68": {
  "note": "Violated: sizes of openings and the number of public inputs are not validated. C68_openings_violated: a mis-shaped proof, under the actual Poseidon transcript, satisfies the code's circuit although its committed wire violates the gate constraint. C68_inputs_violated: trailing zeros among the public inputs are invisible. C68_shaped_partial: for validated sizes the equivalence holds. The template proof fixes the sizes when the circuit is compiled.",
  "status": "partial"
 },
 "C69": {
  "note": "Violated through the S-box (C19): C69_violated gives a proof that plonky2 rejects and the circuit accepts, under the actual Poseidon transcript. C69_chosen describes what a prover may choose; C69_honest_partial: the circuit accepts all proofs accepted by plonky2, and only those when hints are honest. Exact equivalence for an exact permutation is C58_exact. The exact set of accepted proofs is given by C70_exact.",
  "status": "partial"
 },
 "C70": {
  "note": "Spec/Freedom.lean restates permutation, sponge, challenger and verifier with S-boxes as relations; C70_function shows that it is the usual verifier when the relation is x^7. C70_repaired is about a modified S-box that is not in the code."
 },
 "C71": {
  "note": "The two excluded cases are those where the code divides by zero (C49_beta_in_coset, C51_point_hit)."
 },
 "C72": {
  "note": "The honest prover is existential: accumulators and quotients are shown to exist. Commitment and transcript are not part of this statement (C71, C58)."
 },
 "C73": {
  "note": "About openings that are values of polynomials of low degree, which is what FRI enforces; the round structure is expressed by the order of quantifiers. Needs distinct names k_j * g^m, which plonky2 guarantees by its choice of k_is."
 },
 "C74": {
  "note": "Combines C58, C71 and C72. Restricted to the parameters the code supports: all arities 16, cap height 4. The excluded challenges are those where plonky2's prover aborts or the code divides by zero."
 },
 "C75": {
  "note": "Round by round (each set of bad challenges is fixed before the challenge is drawn) and in the full unique decoding radius; not a probability statement, and the challenges are arbitrary rather than taken from the transcript. Collisions are excluded only among the evaluated inputs, and for leaves only between lists of equal length, since short leaves are packed without hashing."
 },
 "C76": {
  "note": "Extraction from the caps by unique decoding; each exceptional set depends only on what precedes the challenge in the transcript. Not a probability statement about the hash used for the transcript. For the code's own circuit the transcript is one of those its S-box constraints admit (C69, C70)."
 },
 "C77": {
  "note": "For the interactive protocol with uniform challenges, not for challenges derived with the Poseidon sponge (no random-oracle model of the transcript)."
 },
 "C78": {
  "note": "All fourteen gates. C78_ambiguous shows why base sums need B^n <= p."
 },
 "C79": {
  "note": "The random oracle is an idealisation of the sponge over the Poseidon permutation; C79_transcript shows that the code's challenges have the form to which it applies. The Merkle hashes are as in C76 (no collision among the evaluated inputs)."
 },
 "C80": {
  "note": "Non-termination of the permutation loop for 256 values is modelled as a panic (see C50)."
 },
 "C81": {
  "status": "partial",
  "note": "C81_mulAdd_partial assumes that the second MulAcc of MulAdd does not overwrite the hint output; without this the claim is false (C81_remainder_overwritten). Holds for gnark 0.9.1, where a sum of two terms does not fit into the slice of a hint output."
 },
 "C82": {
  "note": "The other slices of the code are local to one function and built by append from nil or make; they are lists in all models."
 },
 "C83": {
  "note": "The syntax of JSON and the case of a list key occurring twice (Go may reuse elements of the first list) are not modelled. C83_absent shows that absent keys are not reported."
 },
 "C84": {
  "note": "Slices are at most 2^58 long (32 bytes per element); a longer make panics."
 },
 "C85": {
  "status": "partial",
  "note": "C85_roundtrip_partial excludes interpolation, exponentiation and random-access gates, for which the claim is false (C85_lost)."
 },
 "C86": {
  "note": "Groups are abstract Fr-modules with a bilinear map; commit, open and verify of gnark-crypto's kzg package are described, not verified. Errors of the file system and the network are not modelled."
 },
 "C87": {
  "note": "gnark (compile, setup, prove, verify) is abstract; C87_end_to_end assumes that compilation and proving succeed exactly when an honest run of the circuit does. Errors when writing artifacts are ignored by the code and left out."
 },
 "C88": {
  "note": "Allocations beyond maxLen <= 2^58 elements panic; lengths of the slices in the proof are below maxLen. The number of challenges (GetNChallenges) is not limited by maxLen in either model."
 },
 "C89": {
  "note": "Additions and multiplications of the API are values in the model, not nodes, so their order is not part of the claim; sizes of all slices are. The benchmark program generates the circuit from the proof itself, so the claim is about reuse of the compiled circuit."
 },
 "C90": {
  "note": "The number of requests is a hypothesis (between 65536 and 2^50 for compilation); it is a function of the sizes by C89."
 },
 "C91": {
  "note": "The template program (Spec/Template.lean) is what a user of the constructors would write; the repository itself compiles from deserialized proofs. The one documented length that is wrong is C91_comment. Sizes exceeding the memory are not modelled."
 },
 "C92": {
  "note": "Instances of C58, C68, C77 and C79 without hypotheses on parameters. The trace (constants, sigmas, selectors of the rows) is not in the repository, only its cap: the soundness theorems are for every trace of these sizes, and speak about the cap of that trace."
 },
 "C93": {
  "note": "The Goldilocks Poseidon test and the public input hash test are stated for honest hints; C93_poseidonGL_violated shows that no more holds."
 },
 "C94": {
  "note": "Counts calls with an effect in the model (hints, assertions, range-check requests), not R1CS constraints, which are gnark's."
 },
 "C95": {
  "note": "The code of gnark v0.9.1 (rangecheck_commit.go, logderivarg) is transcribed from knowledge of the library, which is not in /repo; the commitment is idealised as a uniform challenge drawn after the committed values."
 },
 "C97": {
  "note": "Violated by the code: the S-box of poseidon/goldilocks.go reduces products of three 64-bit values with a quotient of 192 bits, so that multiples of r can be added; every value it admits for one argument it admits for another (x^7 is a bijection), hence every public input of every accepted proof can be replaced. C97_violated (all proofs), C97_example_violated (a concrete one, rejected by plonky2 for the second input). With a reduction after every multiplication the property holds in the sense of C97_repaired_partial."
 },
 "C98": {
  "note": "Violated by the code through the S-box freedom of C19/C70: C98_transcript_violated (every absorbed element of every transcript can be replaced if something is read later), C98_violated (the proof-of-work witness of every accepted proof), C98_example_violated (a concrete proof that plonky2 rejects). With a reduction after every multiplication of the S-box, and with honest hints, it holds in the sense of C98_repaired_partial."
 },
 "C99": {
  "note": "The part on DeserializeMerkleProof is violated (C99_merkleProof_violated): the type assertion fails on every value made by encoding/json, and the siblings stored are slices of Goldilocks variables, not BN254 hashes. The function is dead code. The part on StrArrayToBigIntArray holds (C99_bigInts_partial)."
 },
 "C101": {
  "note": "Violated: rangeCheckerCheck does nothing for the native range checker (C16), so that quotients are free and every value is admitted as the result of Add, Sub, Mul, MulAdd, Reduce, Poseidon and HashNoPad. A proof accepted for some public inputs is accepted for all (C101_inputs_violated), also with arbitrary openings, final polynomial and proof-of-work witness of the same lengths (C101_openings_violated); from one opening of the constants of the circuit, which are public, such a proof is made up without a witness (C101_forgery_violated). What holds is that the leaves of every query round are opened in the commitments (C101_leaves_partial), and together with the sizes this is all (C101_exact_partial); with the other range checkers the circuit is what C70 and C90 describe (C101_backends_partial)."
 },
 "C102": {
  "note": "Violated: ExampleVerifierCircuit tags Proof and VerifierOnlyCircuitData with gnark:\"-\", so they are constants of the compiled circuit. C102_violated gives two proofs of one circuit, each accepted by plonky2 for its public input, such that the constraint system compiled from the first is not provable for the public input of the second. C102_served_partial says exactly what the system serves. The circuit with the proof as a witness has the same calls for all proofs of the same sizes (C89, C91)."
 },
 "C103": {
  "note": "Model/HashLoop.lean has the loops as written, with a bound on the iterations of the endless loop; an iteration bound that is reached is the value none."
 }
}