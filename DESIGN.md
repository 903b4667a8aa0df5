# Formal model of gnark-plonky2-verifier in Lean 4

## 1. What is modelled and how

The repository is a library of *circuit generators*: Go functions that call a `frontend.API`
and thereby emit arithmetic constraints over the BN254 scalar field, create hint (advice) values,
and request range checks.  Three observers matter to a user:

* the **malicious prover**, who may put any value in place of any hint output: *soundness*;
* the **honest prover**, whose hint values are those computed by the Go hint functions: *completeness*;
* the **circuit compiler**, which runs the Go code on symbolic variables and may `panic`.

`Verif/Circ.lean` defines a free monad `Circ α` with the nodes `ret`, `hint` (an n-tuple of
advice values with the honest function's result attached), `require` (an equality constraint),
`check` (a request to the range checker: value, number of bits) and `panic`.
Every Go function is transcribed to a Lean function into `Circ`, in the same order of operations, with a
citation of file and lines.  Linear and multiplicative API calls (`Add`, `Mul`, `MulAcc`, ...) are
evaluated directly in `Fr = ZMod r` because their output wires are functions of their inputs.

Interpretations of a circuit (all defined by recursion on the tree in `Verif/Circ.lean`):

* `Sat c y`: some choice of all the hint values makes every constraint and every range check
  hold and the circuit return `y` (malicious prover; range checks enforced).
* `honest c`: the value returned when hints come from the Go hint functions, `none` if a
  hint function fails, a constraint or range check is violated or code panics.
* `Out c y log`: like `Sat` but with the range-check requests collected in `log` instead of
  enforced; the backends (native / bit decomposition / commit) are predicates on `log`.
* `Safe c Q`: whatever values variables have, code generation never panics and the
  result satisfies `Q` (compiler's view).

Property statements use the two small predicates `Computes c y` (`Sat c z <-> z = y` for all `z`, and
the honest run returns `y`) and `Enforces c P` (satisfiable iff `P`, honest run succeeds iff `P`), and mathematics
from Mathlib (`ZMod p`, `QuadraticAlgebra`, `Finset.sum/prod`, `Polynomial`, `Lagrange`), not the
helpers of the model.

Fields: `r` is the BN254 scalar modulus, `p = 2^64-2^32+1`; `Fr = ZMod r`, `Fp = ZMod p`
(primality of `p` and `r` proved by Lucas certificates), `QE = QuadraticAlgebra Fp 7 0`.
`emb : Fp -> Fr` sends an element to its canonical representative.

## 2. Trusted base

* Lean 4.33.0's kernel and Mathlib; the axioms of each theorem are at most `propext`,
  `Classical.choice`, `Quot.sound` (checked with `#print axioms`).
* gnark v0.9.1 semantics, modelled not verified: `Add/Sub/Mul/MulAcc/Neg` are field operations;
  `IsZero` returns 1 on 0 and 0 elsewhere; `AssertIsEqual` is equality; `Select`/`Lookup2` constrain their selectors
  to be boolean and return the selected operand; `ToBinary(x,n)` yields boolean little-endian bits
  recomposing to `x` and for the default width 254 they are the canonical bits;
  `NewHint` returns unconstrained values; `rangecheck.New(...).Check(v,n)` enforces `v < 2^n` (bit decomposition) or
  `v < 2^(16*ceil(n/16))` (commit checker with base width 16).
  `MulAcc` may overwrite its first argument; the models compute with values, and C81 shows for a model with references
  (`Model/MulAcc.lean`) that this makes no difference, except for one call in `MulAdd` (§4, item 19) where we trust gnark 0.9.1
  not to overwrite a hint output.
* gnark-crypto's `goldilocks.Element` arithmetic and `math/big` are modelled by `ZMod p` and `Nat`.  gnark is taken to convert an
  `Element` used as a variable (`goldilocks/quadratic_extension_algebra.go:107`) to its canonical value.
* `math.Pow(2, 32)` is exactly `2^32` (IEEE double).
* gnark-crypto's `kzg` package (`Commit`, `Open`, `Verify`), described over abstract groups with a bilinear pairing in `Model/Kzg.lean`.
* Transcription of the Go source into Lean (by hand; constant tables generated by script from the source text).

* `encoding/json`: absent keys and `null` keep the value, unknown keys are skipped, keys are compared up to case, values of the
  wrong type are errors.
* Regular expressions: the matcher of `Model/GateIds.lean` is taken to be Go's leftmost-first semantics on the patterns used
  (literals, `[0-9]+`, `[0-9, ]+`, a final `.*`).  A nil big integer as a witness value or constant is taken to fail.
* `RangeCheck` with 0 bits (proof-of-work of 64 bits) is taken to enforce `v = 0`.
* Go slices are lists (for the functions where sharing of memory could matter, C82 justifies it); slicing and indexing out of range panics.  Slicing between length and capacity (allowed by Go) is
  modelled as a panic.  Gate parameters and wire numbers are natural numbers in
  `Model/Gates.lean`, which also leaves out the index checks of the `wire...` accessors; `Model/Gates64.lean` has them as `uint64`
  with wrap-around and all checks, and C84 shows that the two agree.  Gate theorems assume `base < p` (BaseSum) and enough opened wires and constants.

Not modelled: the syntax of JSON (`Model/Json.lean` starts from the tree and models what `encoding/json` does with it), proving systems/backends (Groth16, PLONK; abstract in `Model/Benchmark.lean`),
the trusted-setup downloads and files (of the trusted setup: `eval`, the loop over the contributions, and the pairing check over an abstract pairing, C86), goroutine scheduling except in `New`, printing.

## 3. Properties, models, proofs

See the table in `MANIFEST.json` for theorem names. Plan per property:

| id | modelled | how proved |
|---|---|---|
| C01 | `RangeCheck`, `SplitLimbsHint` | integer case analysis on 32-bit limbs, no wrap below r |
| C02 | `MulAdd` and friends | both sides below r, uniqueness of quotient/remainder |
| C03 | `Reduce` | instance of C04 with n=144 |
| C04 | `ReduceWithMaxBits` | exact characterisation by lifting to naturals, counter-examples for n >= 190 |
| C05 | `Inverse` | from C02 and field inverse |
| C06 | extension ops | denotational rewriting: every operation is equal to `pure` of the field result |
| C07 | `InverseExtension`, `DivExtension` | norm is nonzero as 7 is a non-residue |
| C08 | `ExpExtension` | induction on bits |
| C09 | `ReduceWithPowers` | induction on list |
| C10 | `InnerProductExtension` | invariant bounding the unreduced accumulator |
| C11 | `Lookup`, `Lookup2` | case analysis |
| C12 | extension algebra | as C06 in `QuadraticAlgebra QE 7 0` |
| C13 | `PartialInterpolateExtAlgebra` | induction on list |
| C14 | root of unity functions | order of an element from power checks; induction |
| C15 | `optimalWidth` | induction over candidate range |
| C16 | range-check backends | `Out` semantics; native backend **violates** it: negation + `_partial` |
| C17 | `checkCollected` | log semantics; cost comparison lemma |
| C18 | `New` | transition system of goroutines with a mutex, inductive invariant |
| C19 | `sBoxMonomial` | **violated**: negation for every input, exact set of outputs, `_partial` for honest prover |
| C20 | GL Poseidon | honest = textbook via kernel-checked matrix identities; soundness **violated** |
| C21 | sponge | induction on chunks |
| C22 | `PoseidonGate` | denotational + sequential elimination of S-box wires |
| C23 | tables | generated tables, whole-table kernel check |
| C24 | BN254 Poseidon | matrix identities kernel-checked; Grain LFSR evaluated in kernel |
| C25 | packing | base-2^64 digits |
| C26 | `ToVec` | digits of canonical representative |
| C27 | Merkle | induction on path |
| C28 | Merkle binding | induction on path, collision extraction |
| C29, C30 | challenger | refinement relation to abstract sponge, invariant |
| C31 | transcript | transcript as event list |
| C32 | challenges | **violated** (consequence of C19), negation |
| C33-C41 | the 14 gates | circuit = constraint list (`Spec/Gates.lean`) by denotational rewriting, then vanishing iff semantic relation (`Proofs/GatesSem.lean`, `GatesInterp.lean`) |
| C42, C43 | filters, accumulation | product nonzero iff; induction over gate list |
| C44 | identifier parsing | model of the regexes on character lists |
| C45-C47 | PLONK check | denotational + algebra |
| C48-C55 | FRI | denotational + Lagrange interpolation |
| C56 | shape validation | `Safe` |
| C57 | `rangeCheckProof` | list induction |
| C58 | `Verify` | composition |
| C59 | public inputs | from C03 |
| C60, C61 | deserialisation | structure maps |
| C62 | `assertNoncanonicalIndicesOK` | rational arithmetic |
| C63 | openings order | list lemmas |
| C64 | `eval` | Horner |
| C65 | completeness | from `Computes` |
| C66 | contribution loop | induction on the participants |
| C67 | whole generator: exact panic condition | structural induction over the circuit monad, lengths as invariants |
| C68 | `Verify`, missing size validation | **violated**: mis-shaped proof evaluated in the kernel under the actual transcript; `_partial` from C58 |
| C69 | `Verify`, soundness | **violated**: forged proof (transcript evaluated in the kernel); inclusion of circuits for chosen permutation outputs |
| C70 | `Verify`, every witness | exact relational semantics: S-boxes as relations, pushed through rounds, sponge, challenger and verifier |
| C71 | `VerifyFriProof`, completeness | honest prover in `Spec/FriProver.lean`; folding and quotient identities over `Polynomial` |
| C72 | `PlonkChip.Verify`, completeness | trace semantics in `Spec/PlonkTrace.lean`; degree calculus for all gates, division by `X^n - 1`, interpolation of accumulators |
| C73 | `PlonkChip.Verify`, soundness | contrapositive round by round: roots of polynomials in `zeta`, `alpha`, `gamma`; telescoping products |
| C74 | `VerifierChip.Verify`, completeness | honest prover in `Spec/Prover.lean`, a strategy independent of hash, salts and digest; each challenge depends only on earlier messages; then C58, C71, C72 |
| C75 | `VerifyFriProof`, soundness | words extracted from collision-free Merkle openings (`Spec/FriWords.lean`); Berlekamp–Welch decoding with the challenge as an indeterminate (`Proofs/Proximity.lean`); induction over the layers; quotients by linear factors |
| C76 | `VerifierChip.Verify`, soundness | exceptional challenges in `Spec/Traps.lean`; polynomials extracted by C75 are opened correctly, hence C73; then C58 and C70 |
| C77 | soundness error of the interactive protocol | provers and challenges in `Spec/Interactive.lean`; union bound over the sets of C76 |
| C78 | the inputs of a gate determine its other wires | input wires in `Spec/GateWires.lean`; `triangular` systems (`Proofs/GateWires.lean`) |
| C79 | soundness error with challenges from a random oracle | queries and provers in `Spec/FiatShamir.lean`; a query is asked for the first time independently of its answer (`prob_run`), union bound over the sets of C76 |
| C80 | exactly when the functions of `fri.go` panic | `Generates` for each function and all arguments (`Proofs/Guards.lean`) |
| C81 | overwriting by `MulAcc` | cells and references in `Model/MulAcc.lean`, any subset of the calls overwrites; ownership of fresh cells (`Proofs/MulAcc.lean`) |
| C82 | slices that share memory | heap of arrays and windows in `Model/Slices.lean`; writes confined to spare capacity (`Proofs/Slices.lean`), simulation of the models with lists |
| C83 | JSON files | tables of keys in `Model/Json.lean`; format in `Spec/Json.lean`; one lemma for all tables (`struct_obj`), then table by table |
| C84 | 64-bit gates | `Model/Gates64.lean` accessor by accessor; sizes in `Spec/GateSizes.lean`; no intermediate value exceeds `2^64` before an access out of range |
| C85 | `Id()` of the gates | identifiers in `Model/GateIdStrings.lean`; for the three lost kinds no pattern can match since a character of every pattern's literal is missing |
| C86 | sanity check of the reference string | KZG described over abstract modules (`Model/Kzg.lean`); synthetic division identity reduces the check to a linear form in the coefficients; counting by translation |
| C87 | the command-line program | control flow in `Model/Benchmark.lean` over an abstract gnark; composition of C83, C60, C44 and C58 |
| C88 | wrap-around of sums and products of parameters | second model `Model/Verifier64.lean` with `u64`/`int64` arithmetic; step-by-step comparison, using that a program with large parameters panics at the latest in the shape checks |
| C89 | independence of values | relation `Same` between two runs of a generator (equal calls, results of equal sizes), `Proofs/Layout*.lean`, one lemma per function of the model; lists of calls in `Spec/Layout.lean` |
| C90 | widths requested by the verifier, commit-based checker | widths from the same induction; C17 |
| C91 | templates of proofs, constructors and helper functions for sizes | sizes of a proof determined by the circuit data (`sizes_eq`, `Properties/Template.lean`), then C89 |
| C92 | the two circuits in `testdata` | circuit data as generated constants (`Spec/Testdata.lean`, `tools/gen_testdata.py`), requirements of the theorems by kernel evaluation, then C58, C68, C77, C79 |
| C93 | the repository's unit tests | test circuits (`Model/Tests.lean`) and their expected values (`Spec/TestVectors.lean`, generated by `tools/gen_testvectors.py`) evaluated by the kernel; the tests that read a proof are covered by the runs of §5 |
| C94 | size of the verifier circuit | `Spec/Cost.lean` counts the calls of every operation; a counting logic (`Proofs/Cost.lean`, `CostGates.lean`, `CostVerifier.lean`) shows that the generator makes exactly these. Assertions are the `require` nodes of the model, not R1CS constraints: the translation of API calls to constraints is part of gnark |
| C95 | lookup argument behind the commit-based checker | `Model/Lookup.lean` transcribes `std/rangecheck/rangecheck_commit.go` and `std/internal/logderivarg` of gnark v0.9.1 (trusted, not part of /repo); the challenge is uniform and drawn after limbs and counts are fixed, which idealises the commitment |
| C96 | both Poseidon permutations are bijective | inverses of the MDS matrices are given as tables and checked in the kernel; `7 ∣ p + 1`, so the statement fails over the extension |
| C97 | public inputs are bound to the proof | violated: every accepted proof is accepted for at least `2^n` vectors of `n` public inputs (S-box freedom of C19/C70 applied to the hash of the public inputs); concrete proof accepted by plonky2 for the input 1 only, with an explicit second input that satisfies the circuit |
| C98 | the proof-of-work witness cannot be exchanged | violated: for every accepted proof a second witness exists (S-box freedom of C19/C70 at the coordinate the witness is absorbed into); the same for every element of every transcript that is followed by a read |
| C99 | helpers outside the verifier's path | second part violated: `DeserializeMerkleProof` (never called) panics on everything `encoding/json` decodes into `[]interface{}`, and otherwise stores slices of variables where hashes belong |
| C100 | which quotient widths make the S-box and the verifier exact | if and only if 128 ≤ n ≤ 189; the code has 192, `Reduce` would have 144. Both failing sides are shown on concrete proofs. An honest run then succeeds exactly for these proofs, and with 144 the same holds with the range checks of the commit-based checker |
| C101 | the verifier with native range checks | violated (consequence of item 2 below): every value is admitted as the result of every operation, of the permutation and of the hash, so an accepted proof is accepted for all public inputs, with all openings, final polynomials and proof-of-work witnesses (C101_openings_violated); from one opening of the constants a proof is made up that is accepted for all public inputs (C101_forgery_violated). What remains is that each query round opens leaves of the commitments at one position (C101_leaves_partial); for canonical elements, this and the sizes are all that is enforced (C101_exact_partial) |
| C102 | the constraint system compiled by the example program | violated (item 14 below): the plonky2 proof is a constant of the circuit. C102_served_partial: the system serves exactly the public inputs for which plonky2 accepts the proof it was compiled from; C102_violated: two accepted proofs of one circuit for two public inputs, the system compiled from one does not serve the other |
| C103 | loops of `HashNToMNoPad`, statement by statement, `nbOutputs` a Go `int` | C103_returns: for 0 < nbOutputs the loops as written are, as circuits, `hashNToMNoPadWith`; C103_least: fewer iterations do not return; C103_endless: for nbOutputs ≤ 0 it never returns (no caller in the repository does that); C103_length: only lists of that length are returned; C103_absorb, C103_overwrite: the absorbing phase |

## 4. Disagreements between the code and the properties

Found while reading; each is proved as a theorem about the model (see MANIFEST).

1. S-box (`poseidon/goldilocks.go:138-145`): `ReduceWithMaxBits(.,192)` admits quotients with q*p > r, so a
   malicious prover can return `(x^7 + k*r) mod p`, k>0.  Hence GL-Poseidon outputs, the public-input hash and all
   Fiat-Shamir challenges are not uniquely determined.  Widths from 128 to 189 in place of 192, for instance the 144 of
   `Reduce`, and no others make the verifier exact (C100).
2. Native range checker (`goldilocks/base.go:411-414`): the Go `switch` case is empty (no fallthrough), nothing is enforced.
   Consequences for the verifier: C101.
3. `computeEvaluation`'s `uint8` loop (`fri/fri.go:353`) never ends for arityBits = 8 although the guard admits it.
4. `interpolate`'s lookup branch is dead: `InverseExtension` already asserts non-zero.
5. Public inputs are only bound modulo p.
6. `GateInstanceFromId` (`plonk/gates/gates.go`) uses unanchored regexes, tried in map order: a string that is no
   identifier may be accepted, and as different gates in different runs (C44_order_dependent).
7. `validateFriProofShape` does not check the number of commit-phase caps.
8. `HashNToMNoPad(_, 0)` (`poseidon/goldilocks.go`) and the arity-8 loop above do not terminate.
9. `assertLeadingZeros` computes `64 - PoW bits` on unsigned integers and underflows above 64.
10. `FrontendTyper` in `goldilocks/base.go` never matches gnark's SCS builder (harmless: C17 covers both builders).
11. `ExponentiationGate` with zero power bits panics; `RandomAccessGate` with 64 or more bits always panics (C36, C37).
12. `checkPartialProducts` indexes `NumRoutedWires` factors as if `QuotientDegreeFactor` divided their number; with a
    remainder (plonky2 rounds the number of chunks up) it runs out of range (C45_short, C47_uneven_chunks).
13. `variables/deserialize.go` drops the success flag of `SetString`: a malformed hash becomes a nil big integer, which
    only fails later, when gnark uses it.  Extension elements with more than two components are accepted silently.
14. `ExampleVerifierCircuit` (`verifier/util.go`) tags `Proof` and `VerifierOnlyCircuitData` with `gnark:"-"`: they are
    compile-time constants of the circuit, only `PublicInputs` is a witness.  The model's `define` takes all three as values
    and the theorems hold for all of them.  Consequence: keys made by `benchmark.go` serve one plonky2 proof only (C102).
15. `Verify` compares neither `len(publicInputs)` with `NumPublicInputs` nor the two copies of the FRI configuration:
    challenges use `Config.FriConfig.NumQueryRounds`, the FRI verifier `FriParams.Config` (hypothesis of `Fits`).
    Public inputs are never range-checked (C59).
16. `Verify` validates neither the lengths of the lists of openings nor the number of public inputs (plonky2 does, in
    `validate_proof_shape`).  The openings are concatenated for FRI but indexed separately for the PLONK identity, so lists
    of wrong lengths shift openings from one list to the next: C68_openings_violated is a proof, accepted by the code's
    circuit, that commits to a wire violating the gate constraint.  Sizes are fixed by the template proof at compile time,
    so whoever compiles the circuit must supply a well-shaped template.  Public inputs are hashed without padding into a zero
    state: with at most eight of them, trailing zeros are invisible (C68_inputs_violated).
17. Consequence of item 1: C69_violated is a concrete proof of the right shape that plonky2 rejects (insufficient proof of
    work) and the code's circuit accepts, with another output for the last permutation of the transcript.
    C70_exact says exactly what a prover can achieve this way, and C70_repaired that an S-box with a reduction after every
    multiplication removes the disagreement.
18. FRI tests the degree of the quotients by `X - z`, with a final polynomial of full length: it enforces degree at most
    `2^DegreeBits`, not below it.  Both directions are proved: polynomials of degree exactly `2^DegreeBits` are accepted
    (C71), nothing beyond is (C75).  The soundness of the PLONK checks does not depend on it (C73).
19. `MulAdd` (`goldilocks/base.go:207`) passes `remainder.Limb` itself to `MulAcc` and uses it afterwards, while line 205 makes a
    copy of `c.Limb` for the same purpose.  gnark documents that `MulAcc` may overwrite its first argument; if it did here,
    the range check would apply to `a*b + c` unreduced and honest proofs would fail (C81_remainder_overwritten).  In gnark 0.9.1
    it does not happen: the sum has two terms and the slice of a hint output has capacity one.
20. Absent keys of the JSON files are read as zero values without an error (C83_absent): a proof file `{}` is accepted by
    `ReadProofWithPublicInputs`, and a circuit file without `fri_params.hiding` passes the check that rejects hiding
    (`types/common_data.go:123-126`).  The verifier circuit does not validate all lengths either (C68).
21. `GateInstanceFromId(g.Id())` panics for coset-interpolation, exponentiation and random-access gates (C85_lost): their `Id()` omits
    `_phantom: PhantomData<...>`, which the patterns demand.  `Id()` is not used by the verifier (the gates are read from
    the file and indexed by position), so this has no consequence for verification.
22. `sanityCheck` commits to polynomials of 60 coefficients only: an error in the reference string beyond the 60th point is not
    detected (C86_blind).  The ceremony's `Follows` checks are meant to cover it.
23. `benchmark.go` with `-proof-system groth16 -dummy -save` panics: `vk.ExportSolidity` (`:236`) is called on a nil interface
    (C87_dummy_save).
24. The check of the rate (`assertNoncanonicalIndicesOK`) is meant to reject large rates, but passes from 64 rate bits on (the
    shift gives 0 and the quotient +Inf).  `DegreeBits + RateBits` then can wrap around as `uint64`, and a circuit is
    generated whose query rounds hold for any values (C88_wrapped, C88_wrapped_generates).  The parameters are those
    of the circuit file, which the verifier has to trust anyway.
25. For numbers of proof-of-work bits that are not multiples of 16 the circuit cannot be compiled with the
    commit-based checker (C90): `RangeCheckWithMaxBits(powWitness, 64-ProofOfWorkBits)` collects a width that
    `checkCollected` refuses. plonky2 allows any number; the standard configurations use 16.
26. The comment on the Merkle proofs of the reduction steps (`variables/fri.go:49`, `regularSize - arityBit`) is wrong
    from the second reduction on (`C91_comment`): the depth is reduced by all arities so far, and
    `validateFriProofShape` refuses the documented lengths. The constructors are not called anywhere in the
    repository.
27. A proof is not bound to its public inputs (C97_violated): for every satisfying assignment there is, for each public input,
    another value with which the same proof satisfies the circuit, in all combinations.  It follows from the S-box freedom
    of C19: the first S-box applied to a public input admits the required value for another argument too.
    C97_example_violated gives a proof that plonky2 accepts for the public input 1 and rejects for 8446580567931850634, and
    that satisfies the circuit with both.
28. The proof-of-work witness of an accepted proof can be exchanged (C98_violated), and so can any element absorbed by the
    challenger as far as the transcript is concerned (C98_transcript_violated): the S-box freedom of C19 lets the first
    permutation after the absorption produce the same state from another element.
29. `DeserializeMerkleProof` cannot work (C99_merkleProof_violated): it asserts a struct type that decoding into
    `[]interface{}` never yields, and stores slices of Goldilocks variables as siblings.  Nothing calls it.

## 5. Runs on the repository's test data

The model can be executed (the BN254 permutation is compiled to a version that keeps its state in a list, proved equal in
`Model/PoseidonBN.lean`).  `tools/testdata/run.lean.txt` reads a directory of test data, passes it through the modelled
JSON decoding and deserialization and runs the modelled `Define` with the code's hint functions.  From `lean/`:

    lake env lean --run ../tools/testdata/run.lean.txt /repo/testdata/decode_block [pow|input]

Results (a test of the transcription, not a proof; the program is interpreted):

| run | result | hints | constraints | range checks |
|---|---|---|---|---|
| `decode_block` | accepted | 428762 | 945104 | 624689 |
| `step` | accepted | 448786 | 987312 | 653875 |
| `decode_block`, proof-of-work witness changed | a range check fails | | | |
| `step`, a public input changed | a constraint fails | | | |

The challenges printed for `decode_block` are those asserted in `fri/fri_test.go:36-64`.  The circuit data of both
directories are also Lean constants (`Spec/Testdata.lean`), about which C92 is proved.  This turned up an error in our
specification of identifiers, since corrected: the weights of the interpolation gate are printed as machine words that
need not be reduced modulo `p` (two of the sixteen in `testdata` are not), while the specification only had reduced ones.

## 6. Wrong programs

`seeded/LOG.jsonl` records edits of the model and what they broke.  In the records that have `failed_lemmas`, that field lists
the declarations whose own proof no longer checks after the edit, and `failed` lists the property theorems that depend
on one of them, computed from the dependencies of the unedited development.  So a name in `failed` says that the
theorem is no longer established, which is weaker than saying that its statement has become false: a proof can also break
because it follows the old definition step by step.  Where the expected property was not among the dependents of
the first failures, the failing proofs were removed one after the other until the theorem of the property itself was reached.
