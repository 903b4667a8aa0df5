import Verif.Circ
import Verif.Field
import Verif.Model.Base
import Verif.Model.Benchmark
import Verif.Model.Challenger
import Verif.Model.Deserialize
import Verif.Model.EvaluateGates
import Verif.Model.ExtAlgebra
import Verif.Model.Fri
import Verif.Model.GateIdStrings
import Verif.Model.GateIds
import Verif.Model.Gates
import Verif.Model.Gates64
import Verif.Model.Gnark
import Verif.Model.HashLoop
import Verif.Model.Helpers
import Verif.Model.Json
import Verif.Model.Kzg
import Verif.Model.Lookup
import Verif.Model.Merkle
import Verif.Model.MulAcc
import Verif.Model.NewChip
import Verif.Model.Plonk
import Verif.Model.PoseidonBN
import Verif.Model.PoseidonBNConsts
import Verif.Model.PoseidonGL
import Verif.Model.PoseidonGLConsts
import Verif.Model.QuadExt
import Verif.Model.RangeCheckUtils
import Verif.Model.Roots
import Verif.Model.Slices
import Verif.Model.Template
import Verif.Model.Tests
import Verif.Model.TrustedSetup
import Verif.Model.Types
import Verif.Model.Verifier
import Verif.Model.Verifier64
import Verif.Model.Words
import Verif.Proofs.Assert
import Verif.Proofs.Base
import Verif.Proofs.Benchmark
import Verif.Proofs.Bijective
import Verif.Proofs.Challenger
import Verif.Proofs.ChallengerHistory
import Verif.Proofs.ChallengerRuns
import Verif.Proofs.Challenges
import Verif.Proofs.Cost
import Verif.Proofs.CostGates
import Verif.Proofs.CostVerifier
import Verif.Proofs.Deserialize
import Verif.Proofs.EndToEnd
import Verif.Proofs.Evaluate
import Verif.Proofs.EvaluateGates
import Verif.Proofs.ExtAlgebra
import Verif.Proofs.FiatShamir
import Verif.Proofs.Forged
import Verif.Proofs.Freedom
import Verif.Proofs.FreedomRuns
import Verif.Proofs.FreedomVerifier
import Verif.Proofs.Fri64
import Verif.Proofs.FriComplete
import Verif.Proofs.FriExtract
import Verif.Proofs.FriFold
import Verif.Proofs.FriInstance
import Verif.Proofs.FriLaw
import Verif.Proofs.FriPoint
import Verif.Proofs.FriRound
import Verif.Proofs.FriShape
import Verif.Proofs.FriSound
import Verif.Proofs.GateDegree
import Verif.Proofs.GateIdStrings
import Verif.Proofs.GateIds
import Verif.Proofs.GateSizes
import Verif.Proofs.GateWires
import Verif.Proofs.Gates
import Verif.Proofs.Gates64
import Verif.Proofs.Gates64All
import Verif.Proofs.Gates64Params
import Verif.Proofs.GatesCoset
import Verif.Proofs.GatesInterp
import Verif.Proofs.GatesPoseidon
import Verif.Proofs.GatesRandom
import Verif.Proofs.GatesSem
import Verif.Proofs.Gnark
import Verif.Proofs.Guards
import Verif.Proofs.HashLoop
import Verif.Proofs.HonestProof
import Verif.Proofs.Interactive
import Verif.Proofs.Json
import Verif.Proofs.Kzg
import Verif.Proofs.Layout
import Verif.Proofs.LayoutGates
import Verif.Proofs.LayoutVerifier
import Verif.Proofs.Lookup
import Verif.Proofs.Malleable
import Verif.Proofs.Merkle
import Verif.Proofs.Misaligned
import Verif.Proofs.MulAcc
import Verif.Proofs.NativeFree
import Verif.Proofs.NewChip
import Verif.Proofs.NoPanic
import Verif.Proofs.NoPanicFri
import Verif.Proofs.NoPanicGates
import Verif.Proofs.NoPanicVerifier
import Verif.Proofs.Panics
import Verif.Proofs.Plonk
import Verif.Proofs.Plonk64
import Verif.Proofs.PlonkComplete
import Verif.Proofs.PlonkPoly
import Verif.Proofs.PlonkSound
import Verif.Proofs.PlonkTrace
import Verif.Proofs.PolyFn
import Verif.Proofs.PoseidonBN
import Verif.Proofs.PoseidonBNChecks
import Verif.Proofs.PoseidonBNGrain
import Verif.Proofs.PoseidonBNTables
import Verif.Proofs.PoseidonGL
import Verif.Proofs.PoseidonGLExt
import Verif.Proofs.PoseidonGLFast
import Verif.Proofs.PoseidonGLPerm
import Verif.Proofs.PoseidonGLSponge
import Verif.Proofs.PoseidonGLTables
import Verif.Proofs.Programs
import Verif.Proofs.Prover
import Verif.Proofs.Proximity
import Verif.Proofs.QuadExt
import Verif.Proofs.RandomOracle
import Verif.Proofs.RangeCheckUtils
import Verif.Proofs.Roots
import Verif.Proofs.ScalarField
import Verif.Proofs.Slices
import Verif.Proofs.SpongeBN
import Verif.Proofs.SpongeOracle
import Verif.Proofs.Template
import Verif.Proofs.TestVectors
import Verif.Proofs.Transcript
import Verif.Proofs.Verifier
import Verif.Proofs.Verifier64
import Verif.Proofs.Witness
import Verif.Proofs.WitnessInputs
import Verif.Proofs.WitnessPow
import Verif.Proofs.WitnessSecond
import Verif.Properties.Benchmark
import Verif.Properties.Binding
import Verif.Properties.Challenger
import Verif.Properties.Complete
import Verif.Properties.Cost
import Verif.Properties.Deserialize
import Verif.Properties.EndToEnd
import Verif.Properties.FiatShamir
import Verif.Properties.Freedom
import Verif.Properties.Fri
import Verif.Properties.FriSound
import Verif.Properties.GateIdStrings
import Verif.Properties.GateIds
import Verif.Properties.GateWires
import Verif.Properties.Gates
import Verif.Properties.Gates64
import Verif.Properties.Goldilocks
import Verif.Properties.Guards
import Verif.Properties.HashLoop
import Verif.Properties.Helpers
import Verif.Properties.Interactive
import Verif.Properties.Json
import Verif.Properties.Kzg
import Verif.Properties.Layout
import Verif.Properties.Lookup
import Verif.Properties.Malleable
import Verif.Properties.Merkle
import Verif.Properties.MulAcc
import Verif.Properties.Native
import Verif.Properties.NativeExact
import Verif.Properties.NativeForgery
import Verif.Properties.NativeOpenings
import Verif.Properties.OneProof
import Verif.Properties.Permutation
import Verif.Properties.Plonk
import Verif.Properties.PoseidonBN
import Verif.Properties.PoseidonGL
import Verif.Properties.Programs
import Verif.Properties.Prover
import Verif.Properties.Repaired
import Verif.Properties.Slices
import Verif.Properties.Soundness
import Verif.Properties.Template
import Verif.Properties.TestVectors
import Verif.Properties.Testdata
import Verif.Properties.Trace
import Verif.Properties.Verifier
import Verif.Properties.Width
import Verif.Properties.Words
import Verif.Spec.Benchmark
import Verif.Spec.Challenger
import Verif.Spec.ChallengerHistory
import Verif.Spec.Cost
import Verif.Spec.Deserialize
import Verif.Spec.FiatShamir
import Verif.Spec.Freedom
import Verif.Spec.Fri
import Verif.Spec.FriProver
import Verif.Spec.FriWords
import Verif.Spec.GateIds
import Verif.Spec.GateSizes
import Verif.Spec.GateWires
import Verif.Spec.Gates
import Verif.Spec.Interactive
import Verif.Spec.Json
import Verif.Spec.Layout
import Verif.Spec.Merkle
import Verif.Spec.Plonk
import Verif.Spec.PlonkTrace
import Verif.Spec.PoseidonBN
import Verif.Spec.PoseidonBNConsts
import Verif.Spec.PoseidonGL
import Verif.Spec.Programs
import Verif.Spec.Prover
import Verif.Spec.SpongeBN
import Verif.Spec.Template
import Verif.Spec.TestVectors
import Verif.Spec.Testdata
import Verif.Spec.Traps
import Verif.Spec.Verifier
import Verif.Spec.Words
