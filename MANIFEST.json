{
 "claims": [
  {
   "property": "C01",
   "status": "proved",
   "theorems": [
    "Verif.C01_rangeCheck"
   ],
   "note": ""
  },
  {
   "property": "C02",
   "status": "proved",
   "theorems": [
    "Verif.C02_mulAdd",
    "Verif.C02_add",
    "Verif.C02_sub",
    "Verif.C02_mul"
   ],
   "note": ""
  },
  {
   "property": "C03",
   "status": "proved",
   "theorems": [
    "Verif.C03_reduce"
   ],
   "note": ""
  },
  {
   "property": "C04",
   "status": "proved",
   "theorems": [
    "Verif.C04_reduceWithMaxBits_exact",
    "Verif.C04_reduceWithMaxBits_unique",
    "Verif.C04_reduceWithMaxBits_not_unique"
   ],
   "note": ""
  },
  {
   "property": "C05",
   "status": "proved",
   "theorems": [
    "Verif.C05_inverse",
    "Verif.C05_inverse_zero",
    "Verif.C05_inverse_zero_honest"
   ],
   "note": "For x = 0 the inverse component is any canonical value (exact set proved) and the flag is 0."
  },
  {
   "property": "C06",
   "status": "proved",
   "theorems": [
    "Verif.C06_addExtension",
    "Verif.C06_subExtension",
    "Verif.C06_mulExtension",
    "Verif.C06_mulAddExtension",
    "Verif.C06_subMulExtension",
    "Verif.C06_scalarMulExtension"
   ],
   "note": ""
  },
  {
   "property": "C07",
   "status": "proved",
   "theorems": [
    "Verif.C07_inverseExtension",
    "Verif.C07_inverseExtension_zero",
    "Verif.C07_divExtension",
    "Verif.C07_divExtension_zero"
   ],
   "note": ""
  },
  {
   "property": "C08",
   "status": "proved",
   "theorems": [
    "Verif.C08_expExtension"
   ],
   "note": ""
  },
  {
   "property": "C09",
   "status": "proved",
   "theorems": [
    "Verif.C09_reduceWithPowers"
   ],
   "note": ""
  },
  {
   "property": "C10",
   "status": "proved",
   "theorems": [
    "Verif.C10_innerProductExtension",
    "Verif.C10_mulAddSubNoReduce"
   ],
   "note": "The remaining NoReduce chains are covered by the exactness theorems of the functions that contain them (C06, C12, C33-C41, C45-C54)."
  },
  {
   "property": "C11",
   "status": "proved",
   "theorems": [
    "Verif.C11_lookup",
    "Verif.C11_lookup_unsat",
    "Verif.C11_lookup2",
    "Verif.C11_lookup2_unsat"
   ],
   "note": ""
  },
  {
   "property": "C12",
   "status": "proved",
   "theorems": [
    "Verif.C12_addExtensionAlgebra",
    "Verif.C12_subExtensionAlgebra",
    "Verif.C12_mulExtensionAlgebra",
    "Verif.C12_scalarMulExtensionAlgebra"
   ],
   "note": ""
  },
  {
   "property": "C13",
   "status": "proved",
   "theorems": [
    "Verif.C13_partialInterpolate",
    "Verif.C13_chain",
    "Verif.C13_panics"
   ],
   "note": ""
  },
  {
   "property": "C14",
   "status": "proved",
   "theorems": [
    "Verif.C14_primitiveRootOfUnity",
    "Verif.C14_twoAdicSubgroup",
    "Verif.C14_panics"
   ],
   "note": "Also: the list is exactly the set of 2^n-th roots of unity."
  },
  {
   "property": "C15",
   "status": "proved",
   "theorems": [
    "Verif.C15_optimalWidth"
   ],
   "note": ""
  },
  {
   "property": "C16",
   "status": "partial",
   "theorems": [
    "Verif.C16_native_violates",
    "Verif.C16_native_rangeCheck_accepts_all",
    "Verif.C16_backends_partial",
    "Verif.C16_selection"
   ],
   "note": "Violated by the native backend: C16_native_violates, C16_native_rangeCheck_accepts_all. Proved for the other two backends (widths up to 256 bits, at most 2^50 checks)."
  },
  {
   "property": "C17",
   "status": "proved",
   "theorems": [
    "Verif.C17_commit_exact",
    "Verif.C17_commit_aborts",
    "Verif.C17_commit_compiles",
    "Verif.C17_commit_sound"
   ],
   "note": "Covers both builders although the repo's FrontendTyper interface never matches gnark's SCS builder: r1cs-optimal 16 implies plonk-optimal 16 for aligned widths."
  },
  {
   "property": "C18",
   "status": "proved",
   "theorems": [
    "Verif.C18_new_memoised",
    "Verif.C18_defer_at_most_once",
    "Verif.C18_no_deadlock"
   ],
   "note": "Sequentially consistent interleaving model, arbitrary number of goroutines, fine-grained steps; includes deadlock freedom."
  },
  {
   "property": "C19",
   "status": "partial",
   "theorems": [
    "Verif.C19_sbox_violated",
    "Verif.C19_sbox_exact",
    "Verif.C19_sbox_partial",
    "Verif.C19_sbox_extension"
   ],
   "note": "Violated by the code for every input: ReduceWithMaxBits(.,192) lets a multiple of r be slipped in (C19_sbox_violated, exact set in C19_sbox_exact). The honest run and the extension S-box are correct."
  },
  {
   "property": "C20",
   "status": "partial",
   "theorems": [
    "Verif.C20_poseidon_violated",
    "Verif.C20_poseidon_honest_partial",
    "Verif.C20_poseidon_computes_partial",
    "Verif.C20_fast_partial_rounds"
   ],
   "note": "Uniqueness is violated for every state (C20_poseidon_violated) because of C19. Honest run = textbook permutation, and uniqueness given an exact S-box."
  },
  {
   "property": "C21",
   "status": "partial",
   "theorems": [
    "Verif.C21_hashNToM_partial",
    "Verif.C21_hashNoPad_partial",
    "Verif.C21_hashNToM_honest",
    "Verif.C21_hashNoPad_honest"
   ],
   "note": "Honest run of the code for all lengths; uniqueness only for a permutation without freedom (C19/C20). nbOutputs = 0 does not terminate in the Go code and is excluded."
  },
  {
   "property": "C22",
   "status": "proved",
   "theorems": [
    "Verif.C22_poseidonGate",
    "Verif.C22_input"
   ],
   "note": ""
  },
  {
   "property": "C23",
   "status": "proved",
   "theorems": [
    "Verif.C23_tables",
    "Verif.C23_mdsLayers",
    "Verif.C23_otherLayers"
   ],
   "note": ""
  },
  {
   "property": "C24",
   "status": "proved",
   "theorems": [
    "Verif.C24_poseidon",
    "Verif.C24_grain",
    "Verif.C24_cauchy"
   ],
   "note": "Includes that the constants in the code come from the Grain LFSR (342 words checked one by one in the kernel and chained by a lemma)."
  },
  {
   "property": "C25",
   "status": "proved",
   "theorems": [
    "Verif.C25_hashOrNoop",
    "Verif.C25_hashNoPad",
    "Verif.C25_twoToOne",
    "Verif.C25_no_wrap",
    "Verif.C25_injective",
    "Verif.C25_short_leaves",
    "Verif.C25_length_needed"
   ],
   "note": "Injectivity is per length; C25_length_needed shows that lists of different length do collide."
  },
  {
   "property": "C26",
   "status": "proved",
   "theorems": [
    "Verif.C26_toVec",
    "Verif.C26_recompose",
    "Verif.C26_injective"
   ],
   "note": "Relies on gnark's ToBinary enforcing bits < r at full width (trusted semantics)."
  },
  {
   "property": "C27",
   "status": "proved",
   "theorems": [
    "Verif.C27_merkle",
    "Verif.C27_capBits_boolean",
    "Verif.C27_indexBits_boolean",
    "Verif.C27_cap_height",
    "Verif.C27_long_path"
   ],
   "note": ""
  },
  {
   "property": "C28",
   "status": "proved",
   "theorems": [
    "Verif.C28_binding",
    "Verif.C28_leaf_collision",
    "Verif.C28_short_leaf"
   ],
   "note": ""
  },
  {
   "property": "C29",
   "status": "proved",
   "theorems": [
    "Verif.C29_sponge",
    "Verif.C29_sponge_honest",
    "Verif.C29_grouping"
   ],
   "note": "Parametric in a permutation circuit that computes P (given the permutation, as the property says); honest run for the code's own permutation. Operands below 2^144*p (the domain of Reduce)."
  },
  {
   "property": "C30",
   "status": "proved",
   "theorems": [
    "Verif.C30_safe"
   ],
   "note": "Every history, any operands, any hint values."
  },
  {
   "property": "C31",
   "status": "proved",
   "theorems": [
    "Verif.C31_transcript",
    "Verif.C31_transcript_honest",
    "Verif.C31_prefixes",
    "Verif.C31_binding"
   ],
   "note": "Exact transcript for every shape; prefix and binding corollaries. Uniqueness needs a permutation without freedom (see C32); the honest run of the code is covered."
  },
  {
   "property": "C32",
   "status": "partial",
   "theorems": [
    "Verif.C32_violated",
    "Verif.C32_not_unique",
    "Verif.C32_unique_partial"
   ],
   "note": "Violated for every circuit and proof (C32_violated, C32_not_unique) because of the S-box (C19). Uniqueness holds for a permutation circuit without freedom."
  },
  {
   "property": "C33",
   "status": "proved",
   "theorems": [
    "Verif.C33_arithmetic",
    "Verif.C33_arithmeticExtension"
   ],
   "note": ""
  },
  {
   "property": "C34",
   "status": "proved",
   "theorems": [
    "Verif.C34_constant",
    "Verif.C34_publicInput",
    "Verif.C34_noop"
   ],
   "note": ""
  },
  {
   "property": "C35",
   "status": "proved",
   "theorems": [
    "Verif.C35_baseSum"
   ],
   "note": ""
  },
  {
   "property": "C36",
   "status": "proved",
   "theorems": [
    "Verif.C36_exponentiation",
    "Verif.C36_exponentiation_zero"
   ],
   "note": ""
  },
  {
   "property": "C37",
   "status": "proved",
   "theorems": [
    "Verif.C37_randomAccess",
    "Verif.C37_randomAccess_too_wide"
   ],
   "note": ""
  },
  {
   "property": "C38",
   "status": "proved",
   "theorems": [
    "Verif.C38_reducing",
    "Verif.C38_reducingExtension",
    "Verif.C38_reducing_output"
   ],
   "note": ""
  },
  {
   "property": "C39",
   "status": "proved",
   "theorems": [
    "Verif.C39_mulExtension"
   ],
   "note": ""
  },
  {
   "property": "C40",
   "status": "proved",
   "theorems": [
    "Verif.C40_cosetInterpolation",
    "Verif.C40_interpolant_exists"
   ],
   "note": ""
  },
  {
   "property": "C41",
   "status": "proved",
   "theorems": [
    "Verif.C41_poseidonMds"
   ],
   "note": ""
  },
  {
   "property": "C42",
   "status": "proved",
   "theorems": [
    "Verif.C42_computeFilter",
    "Verif.C42_selects"
   ],
   "note": "Group ends up to p for the exact value; C42_selects assumes the standard layout of selector columns."
  },
  {
   "property": "C43",
   "status": "proved",
   "theorems": [
    "Verif.C43_evaluateGateConstraints",
    "Verif.C43_generation",
    "Verif.C43_indices"
   ],
   "note": ""
  },
  {
   "property": "C44",
   "status": "proved",
   "theorems": [
    "Verif.C44_parses",
    "Verif.C44_reduced",
    "Verif.C44_unique",
    "Verif.C44_unknown",
    "Verif.C44_injective",
    "Verif.C44_gateInstances",
    "Verif.C44_order_dependent",
    "Verif.C44_no_weights"
   ],
   "note": "For identifiers as plonky2 writes them: interpolation gates with at least one weight (C44_no_weights covers none), weights printed as any machine words representing them (Identifies), as the test data contain words above p. Strings that are no identifier can be order dependent: C44_order_dependent."
  },
  {
   "property": "C45",
   "status": "proved",
   "theorems": [
    "Verif.C45_checkPartialProducts",
    "Verif.C45_accumulators",
    "Verif.C45_short"
   ],
   "note": "Chunk size at least 1; the two lists have exactly chunks times chunk size entries, fewer make the code run out of range (C45_short)."
  },
  {
   "property": "C46",
   "status": "proved",
   "theorems": [
    "Verif.C46_evalL0",
    "Verif.C46_evalL0_one",
    "Verif.C46_expPowerOf2"
   ],
   "note": "DegreeBits below 63 (1 << DegreeBits is an int in the code)."
  },
  {
   "property": "C47",
   "status": "proved",
   "theorems": [
    "Verif.C47_verify",
    "Verif.C47_terms",
    "Verif.C47_uneven_chunks"
   ],
   "note": "For lengths and parameters as in Shape; C47_uneven_chunks: nothing is accepted when NumRoutedWires < (NumPartialProducts+1)*QuotientDegreeFactor."
  },
  {
   "property": "C48",
   "status": "proved",
   "theorems": [
    "Verif.C48_expFromBits",
    "Verif.C48_expFromBits_root",
    "Verif.C48_queryPoint",
    "Verif.C48_omega",
    "Verif.C48_points_distinct"
   ],
   "note": "Bases of two-power order (all that the verifier uses): any number of bits. Other bases: up to 63 bits, beyond that Go's int64(1<<i) wraps."
  },
  {
   "property": "C49",
   "status": "proved",
   "theorems": [
    "Verif.C49_computeEvaluation",
    "Verif.C49_interpolant_exists",
    "Verif.C49_fold",
    "Verif.C49_beta_in_coset",
    "Verif.C49_own_position"
   ],
   "note": "Arity up to 128. beta in the coset makes the constraints unsatisfiable (C49_beta_in_coset)."
  },
  {
   "property": "C50",
   "status": "partial",
   "theorems": [
    "Verif.C50_arity8_diverges",
    "Verif.C50_terminates_partial"
   ],
   "note": "Violated at arityBits = 8 (C50_arity8_diverges)."
  },
  {
   "property": "C51",
   "status": "proved",
   "theorems": [
    "Verif.C51_friCombineInitial",
    "Verif.C51_point_hit",
    "Verif.C51_reducedOpenings"
   ],
   "note": ""
  },
  {
   "property": "C52",
   "status": "proved",
   "theorems": [
    "Verif.C52_finalPolyEval"
   ],
   "note": ""
  },
  {
   "property": "C53",
   "status": "proved",
   "theorems": [
    "Verif.C53_pow"
   ],
   "note": "Difficulty up to 64 bits; 0-bit range checks are taken to mean 'equals zero'."
  },
  {
   "property": "C54",
   "status": "proved",
   "theorems": [
    "Verif.C54_queryRound"
   ],
   "note": "For the sizes the code supports (arity 16, cap height 4, domain up to 2^32, rate bits up to 15), as spelled out in RoundFits; canonical proof data and index."
  },
  {
   "property": "C55",
   "status": "proved",
   "theorems": [
    "Verif.C55_verifyFriProof"
   ],
   "note": "For the parameters the code supports (Supported), every proof, well-shaped or not."
  },
  {
   "property": "C56",
   "status": "partial",
   "theorems": [
    "Verif.C56_validate",
    "Verif.C56_missing_caps",
    "Verif.C56_rounds_partial",
    "Verif.C56_generation",
    "Verif.C56_violated"
   ],
   "note": "The number of commit-phase caps is not validated: C56_violated exhibits a proof that passes validation and panics in a query round. Everything else is proved: C56_validate (exact validation), C56_rounds_partial (no panic in the rounds of a validated proof with enough caps and challenges), C56_generation (exactly when generation of the FRI circuit succeeds)."
  },
  {
   "property": "C57",
   "status": "proved",
   "theorems": [
    "Verif.C57_rangeCheckProof",
    "Verif.C57_typed"
   ],
   "note": ""
  },
  {
   "property": "C58",
   "status": "proved",
   "theorems": [
    "Verif.C58_exact",
    "Verif.C58_sat",
    "Verif.C58_honest",
    "Verif.C58_complete",
    "Verif.C58_define",
    "Verif.C58_define_unknown"
   ],
   "note": ""
  },
  {
   "property": "C59",
   "status": "proved",
   "theorems": [
    "Verif.C59_aliases",
    "Verif.C59_aliases_verify",
    "Verif.C59_add_p",
    "Verif.C59_canonical",
    "Verif.C59_too_large"
   ],
   "note": ""
  },
  {
   "property": "C60",
   "status": "proved",
   "theorems": [
    "Verif.C60_proof",
    "Verif.C60_verifierOnly",
    "Verif.C60_roundtrip",
    "Verif.C60_verifierOnly_roundtrip",
    "Verif.C60_injective",
    "Verif.C60_malformed"
   ],
   "note": "Starts from the decoded Go structs; failures (panic, or nil big integer rejected at witness creation) are `none`."
  },
  {
   "property": "C61",
   "status": "proved",
   "theorems": [
    "Verif.C61_readCommonCircuitData",
    "Verif.C61_newSelectorsInfo"
   ],
   "note": "Starts from the decoded Go struct."
  },
  {
   "property": "C62",
   "status": "proved",
   "theorems": [
    "Verif.C62_noncanonical",
    "Verif.C62_rounding"
   ],
   "note": "The model computes exactly; C62_rounding shows that floating-point rounding cannot change the outcome. From 64 rate bits on the guard is silent."
  },
  {
   "property": "C63",
   "status": "proved",
   "theorems": [
    "Verif.C63_instance",
    "Verif.C63_zeta_batch",
    "Verif.C63_next_batch",
    "Verif.C63_polys_in_oracles"
   ],
   "note": ""
  },
  {
   "property": "C64",
   "status": "proved",
   "theorems": [
    "Verif.C64_eval"
   ],
   "note": ""
  },
  {
   "property": "C65",
   "status": "proved",
   "theorems": [
    "Verif.C65_programs",
    "Verif.C65_backends",
    "Verif.C65_reject"
   ],
   "note": ""
  },
  {
   "property": "C66",
   "status": "proved",
   "theorems": [
    "Verif.C66_ceremony"
   ],
   "note": ""
  },
  {
   "property": "C67",
   "status": "proved",
   "theorems": [
    "Verif.C67_generation",
    "Verif.C67_values"
   ],
   "note": "Supported parameters: cap height 4, arities 2^4, domain of 2^4 to 2^32 points, rate at least 2^-15, at least one challenge, gates that fit the opened constants and wires. No hypothesis on any other size of the proof or the circuit."
  },
  {
   "property": "C68",
   "status": "partial",
   "theorems": [
    "Verif.C68_shaped_partial",
    "Verif.C68_openings_violated",
    "Verif.C68_inputs_violated"
   ],
   "note": "Violated: sizes of openings and the number of public inputs are not validated. C68_openings_violated: a mis-shaped proof, under the actual Poseidon transcript, satisfies the code's circuit although its committed wire violates the gate constraint. C68_inputs_violated: trailing zeros among the public inputs are invisible. C68_shaped_partial: for validated sizes the equivalence holds. The template proof fixes the sizes when the circuit is compiled."
  },
  {
   "property": "C69",
   "status": "partial",
   "theorems": [
    "Verif.C69_honest_partial",
    "Verif.C69_chosen",
    "Verif.C69_violated"
   ],
   "note": "Violated through the S-box (C19): C69_violated gives a proof that plonky2 rejects and the circuit accepts, under the actual Poseidon transcript. C69_chosen describes what a prover may choose; C69_honest_partial: the circuit accepts all proofs accepted by plonky2, and only those when hints are honest. Exact equivalence for an exact permutation is C58_exact. The exact set of accepted proofs is given by C70_exact."
  },
  {
   "property": "C70",
   "status": "proved",
   "theorems": [
    "Verif.C70_sbox",
    "Verif.C70_count",
    "Verif.C70_permutation",
    "Verif.C70_freedom",
    "Verif.C70_exact",
    "Verif.C70_function",
    "Verif.C70_repaired"
   ],
   "note": "Spec/Freedom.lean restates permutation, sponge, challenger and verifier with S-boxes as relations; C70_function shows that it is the usual verifier when the relation is x^7. C70_repaired is about a modified S-box that is not in the code."
  },
  {
   "property": "C71",
   "status": "proved",
   "theorems": [
    "Verif.C71_fri_complete",
    "Verif.C71_sizes"
   ],
   "note": "The two excluded cases are those where the code divides by zero (C49_beta_in_coset, C51_point_hit)."
  },
  {
   "property": "C72",
   "status": "proved",
   "theorems": [
    "Verif.C72_plonk_complete",
    "Verif.C72_denominators"
   ],
   "note": "The honest prover is existential: accumulators and quotients are shown to exist. Commitment and transcript are not part of this statement (C71, C58)."
  },
  {
   "property": "C73",
   "status": "proved",
   "theorems": [
    "Verif.C73_plonk_sound"
   ],
   "note": "About openings that are values of polynomials of low degree, which is what FRI enforces; the round structure is expressed by the order of quantifiers. Needs distinct names k_j * g^m, which plonky2 guarantees by its choice of k_is."
  },
  {
   "property": "C74",
   "status": "proved",
   "theorems": [
    "Verif.C74_complete",
    "Verif.C74_any_permutation"
   ],
   "note": "Combines C58, C71 and C72. Restricted to the parameters the code supports: all arities 16, cap height 4. The excluded challenges are those where plonky2's prover aborts or the code divides by zero."
  },
  {
   "property": "C75",
   "status": "proved",
   "theorems": [
    "Verif.C75_fri_sound",
    "Verif.C75_honest",
    "Verif.C75_false_claim"
   ],
   "note": "Round by round (each set of bad challenges is fixed before the challenge is drawn) and in the full unique decoding radius; not a probability statement, and the challenges are arbitrary rather than taken from the transcript. Collisions are excluded only among the evaluated inputs, and for leaves only between lists of equal length, since short leaves are packed without hashing."
  },
  {
   "property": "C76",
   "status": "proved",
   "theorems": [
    "Verif.C76_sound",
    "Verif.C76_circuit",
    "Verif.C76_code"
   ],
   "note": "Extraction from the caps by unique decoding; each exceptional set depends only on what precedes the challenge in the transcript. Not a probability statement about the hash used for the transcript. For the code's own circuit the transcript is one of those its S-box constraints admit (C69, C70)."
  },
  {
   "property": "C77",
   "status": "proved",
   "theorems": [
    "Verif.C77_error",
    "Verif.C77_step"
   ],
   "note": "For the interactive protocol with uniform challenges, not for challenges derived with the Poseidon sponge (no random-oracle model of the transcript)."
  },
  {
   "property": "C78",
   "status": "proved",
   "theorems": [
    "Verif.C78_functional",
    "Verif.C78_necessary",
    "Verif.C78_ambiguous"
   ],
   "note": "All fourteen gates. C78_ambiguous shows why base sums need B^n <= p."
  },
  {
   "property": "C79",
   "status": "proved",
   "theorems": [
    "Verif.C79_error",
    "Verif.C79_finite",
    "Verif.C79_transcript",
    "Verif.C79_step"
   ],
   "note": "The random oracle is an idealisation of the sponge over the Poseidon permutation; C79_transcript shows that the code's challenges have the form to which it applies. The Merkle hashes are as in C76 (no collision among the evaluated inputs)."
  },
  {
   "property": "C80",
   "status": "proved",
   "theorems": [
    "Verif.C80_merkle",
    "Verif.C80_initial",
    "Verif.C80_subgroup",
    "Verif.C80_instance",
    "Verif.C80_combine",
    "Verif.C80_interpolate",
    "Verif.C80_evaluation",
    "Verif.C80_lookup",
    "Verif.C80_partialInterpolate"
   ],
   "note": "Non-termination of the permutation loop for 256 values is modelled as a panic (see C50)."
  },
  {
   "property": "C81",
   "status": "partial",
   "theorems": [
    "Verif.C81_mulAddNoReduce",
    "Verif.C81_poseidon",
    "Verif.C81_hashNoPad",
    "Verif.C81_hashOrNoop",
    "Verif.C81_twoToOne",
    "Verif.C81_mulAdd_partial",
    "Verif.C81_remainder_overwritten"
   ],
   "note": "C81_mulAdd_partial assumes that the second MulAcc of MulAdd does not overwrite the hint output; without this the claim is false (C81_remainder_overwritten). Holds for gnark 0.9.1, where a sum of two terms does not fit into the slice of a hint output."
  },
  {
   "property": "C82",
   "status": "proved",
   "theorems": [
    "Verif.C82_toOpenings",
    "Verif.C82_deserialized",
    "Verif.C82_evalFiltered",
    "Verif.C82_challenger"
   ],
   "note": "The other slices of the code are local to one function and built by append from nil or make; they are lists in all models."
  },
  {
   "property": "C83",
   "status": "proved",
   "theorems": [
    "Verif.C83_proof",
    "Verif.C83_verifierOnly",
    "Verif.C83_common",
    "Verif.C83_roundtrip",
    "Verif.C83_witness",
    "Verif.C83_rejects",
    "Verif.C83_types",
    "Verif.C83_publicInputs",
    "Verif.C83_absent"
   ],
   "note": "The syntax of JSON and the case of a list key occurring twice (Go may reuse elements of the first list) are not modelled. C83_absent shows that absent keys are not reported."
  },
  {
   "property": "C84",
   "status": "proved",
   "theorems": [
    "Verif.C84_gate",
    "Verif.C84_same",
    "Verif.C84_all",
    "Verif.C84_all_same",
    "Verif.C84_read",
    "Verif.C84_range"
   ],
   "note": "Slices are at most 2^58 long (32 bytes per element); a longer make panics."
  },
  {
   "property": "C85",
   "status": "partial",
   "theorems": [
    "Verif.C85_roundtrip_partial",
    "Verif.C85_lost",
    "Verif.C85_plonky2",
    "Verif.C85_injective"
   ],
   "note": "C85_roundtrip_partial excludes interpolation, exponentiation and random-access gates, for which the claim is false (C85_lost)."
  },
  {
   "property": "C86",
   "status": "proved",
   "theorems": [
    "Verif.C86_all",
    "Verif.C86_powers",
    "Verif.C86_sound",
    "Verif.C86_short",
    "Verif.C86_blind",
    "Verif.C86_saved",
    "Verif.C86_zeros"
   ],
   "note": "Groups are abstract Fr-modules with a bilinear map; commit, open and verify of gnark-crypto's kzg package are described, not verified. Errors of the file system and the network are not modelled."
  },
  {
   "property": "C87",
   "status": "proved",
   "theorems": [
    "Verif.C87_success",
    "Verif.C87_verified",
    "Verif.C87_coordinates",
    "Verif.C87_dummy_save",
    "Verif.C87_flags",
    "Verif.C87_end_to_end"
   ],
   "note": "gnark (compile, setup, prove, verify) is abstract; C87_end_to_end assumes that compilation and proving succeed exactly when an honest run of the circuit does. Errors when writing artifacts are ignored by the code and left out."
  },
  {
   "property": "C88",
   "status": "proved",
   "theorems": [
    "Verif.C88_same",
    "Verif.C88_enforces",
    "Verif.C88_gates",
    "Verif.C88_wrapped",
    "Verif.C88_wrapped_generates",
    "Verif.C88_sigmas"
   ],
   "note": "Allocations beyond maxLen <= 2^58 elements panic; lengths of the slices in the proof are below maxLen. The number of challenges (GetNChallenges) is not limited by maxLen in either model."
  },
  {
   "property": "C89",
   "status": "proved",
   "theorems": [
    "Verif.C89_calls",
    "Verif.C89_define",
    "Verif.C89_panics"
   ],
   "note": "Additions and multiplications of the API are values in the model, not nodes, so their order is not part of the claim; sizes of all slices are. The benchmark program generates the circuit from the proof itself, so the claim is about reuse of the compiled circuit."
  },
  {
   "property": "C90",
   "status": "proved",
   "theorems": [
    "Verif.C90_widths",
    "Verif.C90_log",
    "Verif.C90_aborts",
    "Verif.C90_compiles",
    "Verif.C90_commit"
   ],
   "note": "The number of requests is a hypothesis (between 65536 and 2^50 for compilation); it is a function of the sizes by C89."
  },
  {
   "property": "C91",
   "status": "proved",
   "theorems": [
    "Verif.C91_template",
    "Verif.C91_sizes",
    "Verif.C91_calls",
    "Verif.C91_accepted",
    "Verif.C91_comment",
    "Verif.C91_maxArityBits",
    "Verif.C91_ldeSize",
    "Verif.C91_finalPolyLen",
    "Verif.C91_overflow"
   ],
   "note": "The template program (Spec/Template.lean) is what a user of the constructors would write; the repository itself compiles from deserialized proofs. The one documented length that is wrong is C91_comment. Sizes exceeding the memory are not modelled."
  },
  {
   "property": "C92",
   "status": "proved",
   "theorems": [
    "Verif.C92_decodeBlock_proper",
    "Verif.C92_step_proper",
    "Verif.C92_friOk",
    "Verif.C92_supported",
    "Verif.C92_ids",
    "Verif.C92_define",
    "Verif.C92_exact",
    "Verif.C92_interactive",
    "Verif.C92_oracle"
   ],
   "note": "Instances of C58, C68, C77 and C79 without hypotheses on parameters. The trace (constants, sigmas, selectors of the rows) is not in the repository, only its cap: the soundness theorems are for every trace of these sizes, and speak about the cap of that trace."
  },
  {
   "property": "C93",
   "status": "proved",
   "theorems": [
    "Verif.C93_rangeCheck",
    "Verif.C93_mulAdd_enforces",
    "Verif.C93_mulAdd",
    "Verif.C93_mulExtension_enforces",
    "Verif.C93_mulExtension",
    "Verif.C93_divExtension_enforces",
    "Verif.C93_divExtension",
    "Verif.C93_poseidonBN_enforces",
    "Verif.C93_poseidonBN",
    "Verif.C93_poseidonGL",
    "Verif.C93_poseidonGL_violated",
    "Verif.C93_publicInputsHash",
    "Verif.C93_gates_enforces",
    "Verif.C93_gates"
   ],
   "note": "The Goldilocks Poseidon test and the public input hash test are stated for honest hints; C93_poseidonGL_violated shows that no more holds."
  },
  {
   "property": "C94",
   "status": "proved",
   "theorems": [
    "Verif.C94_calls",
    "Verif.C94_sized",
    "Verif.C94_operations",
    "Verif.C94_testdata",
    "Verif.C94_commit",
    "Verif.C94_template"
   ],
   "note": "Counts calls with an effect in the model (hints, assertions, range-check requests), not R1CS constraints, which are gnark's."
  },
  {
   "property": "C95",
   "status": "proved",
   "theorems": [
    "Verif.C95_sound",
    "Verif.C95_complete",
    "Verif.C95_division",
    "Verif.C95_verifier"
   ],
   "note": "The code of gnark v0.9.1 (rangecheck_commit.go, logderivarg) is transcribed from knowledge of the library, which is not in /repo; the commitment is idealised as a uniform challenge drawn after the committed values."
  },
  {
   "property": "C96",
   "status": "proved",
   "theorems": [
    "Verif.C96_sboxes",
    "Verif.C96_matrices",
    "Verif.C96_goldilocks",
    "Verif.C96_bn254",
    "Verif.C96_circuit",
    "Verif.C96_inner",
    "Verif.C96_one_block",
    "Verif.C96_twoToOne",
    "Verif.C96_uniform",
    "Verif.C96_extension"
   ],
   "note": ""
  },
  {
   "property": "C97",
   "status": "partial",
   "theorems": [
    "Verif.C97_sbox_violated",
    "Verif.C97_permutation_violated",
    "Verif.C97_violated",
    "Verif.C97_example_violated",
    "Verif.C97_repaired_partial"
   ],
   "note": "Violated by the code: the S-box of poseidon/goldilocks.go reduces products of three 64-bit values with a quotient of 192 bits, so that multiples of r can be added; every value it admits for one argument it admits for another (x^7 is a bijection), hence every public input of every accepted proof can be replaced. C97_violated (all proofs), C97_example_violated (a concrete one, rejected by plonky2 for the second input). With a reduction after every multiplication the property holds in the sense of C97_repaired_partial."
  },
  {
   "property": "C98",
   "status": "partial",
   "theorems": [
    "Verif.C98_transcript_violated",
    "Verif.C98_violated",
    "Verif.C98_example_violated",
    "Verif.C98_repaired_partial"
   ],
   "note": "Violated by the code through the S-box freedom of C19/C70: C98_transcript_violated (every absorbed element of every transcript can be replaced if something is read later), C98_violated (the proof-of-work witness of every accepted proof), C98_example_violated (a concrete proof that plonky2 rejects). With a reduction after every multiplication of the S-box, and with honest hints, it holds in the sense of C98_repaired_partial."
  },
  {
   "property": "C99",
   "status": "partial",
   "theorems": [
    "Verif.C99_bigInts_partial",
    "Verif.C99_merkleProof_partial",
    "Verif.C99_merkleProof_violated"
   ],
   "note": "The part on DeserializeMerkleProof is violated (C99_merkleProof_violated): the type assertion fails on every value made by encoding/json, and the siblings stored are slices of Goldilocks variables, not BN254 hashes. The function is dead code. The part on StrArrayToBigIntArray holds (C99_bigInts_partial)."
  },
  {
   "property": "C100",
   "status": "proved",
   "theorems": [
    "Verif.C100_calls",
    "Verif.C100_commit",
    "Verif.C100_code",
    "Verif.C100_sbox",
    "Verif.C100_wide",
    "Verif.C100_verifier",
    "Verif.C100_honest"
   ],
   "note": ""
  },
  {
   "property": "C101",
   "status": "partial",
   "theorems": [
    "Verif.C101_arithmetic_violated",
    "Verif.C101_poseidon_violated",
    "Verif.C101_inputs_violated",
    "Verif.C101_backends_partial",
    "Verif.C101_exact_partial",
    "Verif.C101_forgery_violated",
    "Verif.C101_openings_violated",
    "Verif.C101_leaves_partial"
   ],
   "note": "Violated: rangeCheckerCheck does nothing for the native range checker (C16), so that quotients are free and every value is admitted as the result of Add, Sub, Mul, MulAdd, Reduce, Poseidon and HashNoPad. A proof accepted for some public inputs is accepted for all (C101_inputs_violated), also with arbitrary openings, final polynomial and proof-of-work witness of the same lengths (C101_openings_violated); from one opening of the constants of the circuit, which are public, such a proof is made up without a witness (C101_forgery_violated). What holds is that the leaves of every query round are opened in the commitments (C101_leaves_partial), and together with the sizes this is all (C101_exact_partial); with the other range checkers the circuit is what C70 and C90 describe (C101_backends_partial)."
  },
  {
   "property": "C102",
   "status": "partial",
   "theorems": [
    "Verif.C102_served_partial",
    "Verif.C102_violated"
   ],
   "note": "Violated: ExampleVerifierCircuit tags Proof and VerifierOnlyCircuitData with gnark:\"-\", so they are constants of the compiled circuit. C102_violated gives two proofs of one circuit, each accepted by plonky2 for its public input, such that the constraint system compiled from the first is not provable for the public input of the second. C102_served_partial says exactly what the system serves. The circuit with the proof as a witness has the same calls for all proofs of the same sizes (C89, C91)."
  },
  {
   "property": "C103",
   "status": "proved",
   "theorems": [
    "Verif.C103_returns",
    "Verif.C103_least",
    "Verif.C103_endless",
    "Verif.C103_length",
    "Verif.C103_absorb",
    "Verif.C103_overwrite"
   ],
   "note": "Model/HashLoop.lean has the loops as written, with a bound on the iterations of the endless loop; an iteration bound that is reached is the value none."
  }
 ]
}