import Verif.Lemmas.Pratt
import Verif.Model.Fr
import Verif.Model.Compile
import Verif.Model.Interp
import Verif.Spec.BF
import Verif.Spec.Compiled
import Verif.Lemmas.Brackets
import Verif.Lemmas.CompileLemmas
import Verif.Lemmas.Word
import Verif.Lemmas.Run
import Verif.Lemmas.TraceLemmas
import Verif.Lemmas.SimLemmas
import Verif.Lemmas.InterpLemmas
import Verif.Props.Compile
import Verif.Props.Common
import Verif.Props.Run
import Verif.Model.Plonk
import Verif.Model.Circuit
import Verif.Model.Layout
import Verif.Model.Tables
import Verif.Spec.RowStep
import Verif.Lemmas.Gates
import Verif.Lemmas.Rules
import Verif.Lemmas.StepLemmas
import Verif.Lemmas.LayoutLemmas
import Verif.Lemmas.LoadLemmas
import Verif.Lemmas.TableLemmas
import Verif.Props.Gates
import Verif.Spec.Completes
import Verif.Model.Prover
import Verif.Lemmas.Filled
import Verif.Lemmas.Accs
import Verif.Lemmas.Finals
import Verif.Lemmas.HonestStep
import Verif.Lemmas.Honest
import Verif.Lemmas.Fits
import Verif.Lemmas.HonestCircuit
import Verif.Props.Circuit
import Verif.Spec.Accepts
import Verif.Lemmas.Forge
import Verif.Lemmas.ForgeLemmas
import Verif.Props.Soundness
import Verif.Spec.Arguments
import Verif.Spec.Repaired
import Verif.Lemmas.Arguments
import Verif.Lemmas.TableSound
import Verif.Lemmas.GenuineRows
import Verif.Lemmas.AcceptFacts
import Verif.Lemmas.Sound
import Verif.Lemmas.SoundRun
import Verif.Lemmas.HonestRepaired
import Verif.Props.Arguments
import Verif.Props.Repaired
import Verif.Model.Bytes
import Verif.Model.Limbs
import Verif.Model.Verifier
import Verif.Spec.Verifier
import Verif.Spec.Curve
import Verif.Spec.Shape
import Verif.Lemmas.BytesLemmas
import Verif.Lemmas.VerifierLemmas
import Verif.Lemmas.EntryLemmas
import Verif.Props.Verifier
import Verif.Props.Shape
import Verif.Spec.Regions
import Verif.Lemmas.RegionLemmas
import Verif.Props.Layout
import Verif.Model.Compress
import Verif.Spec.Selectors
import Verif.Lemmas.CompressLemmas
import Verif.Lemmas.CompressCS
import Verif.Lemmas.CompressSound
import Verif.Props.Compress
import Verif.Model.Domain
import Verif.Model.Arith
import Verif.Model.Kzg
import Verif.Spec.Domain
import Verif.Lemmas.FftLemmas
import Verif.Lemmas.DomainLemmas
import Verif.Lemmas.DomainRange
import Verif.Lemmas.PolyLemmas
import Verif.Lemmas.PolyArith
import Verif.Lemmas.KzgLemmas
import Verif.Props.Domain
import Verif.Model.VerifyingKey
import Verif.Spec.Key
import Verif.Lemmas.VkLemmas
import Verif.Lemmas.KeyLemmas
import Verif.Lemmas.KeySize
import Verif.Props.VerifyingKey
import Verif.Model.Permutation
import Verif.Spec.Copies
import Verif.Lemmas.PermLemmas
import Verif.Props.Permutation
import Verif.Model.Lookup
import Verif.Spec.Lookup
import Verif.Lemmas.LookupLemmas
import Verif.Props.Lookup
import Verif.Model.Evaluation
import Verif.Spec.Evaluation
import Verif.Lemmas.EvaluationLemmas
import Verif.Lemmas.MentionsLemmas
import Verif.Props.Evaluation
import Verif.Model.PlonkVerifier
import Verif.Model.Keygen
import Verif.Spec.Piop
import Verif.Lemmas.PiopExprs
import Verif.Lemmas.PiopModel
import Verif.Lemmas.GrandProduct
import Verif.Lemmas.PiopRows
import Verif.Lemmas.Labels
import Verif.Lemmas.PiopDegree
import Verif.Lemmas.PiopPoly
import Verif.Lemmas.PiopOpened
import Verif.Lemmas.PiopClaims
import Verif.Lemmas.PiopSound
import Verif.Lemmas.PiopClosed
import Verif.Lemmas.KeygenLemmas
import Verif.Lemmas.PiopCircuit
import Verif.Props.Piop
import Verif.Model.PlonkProver
import Verif.Spec.Honest
import Verif.Lemmas.ProverRows
import Verif.Lemmas.ProverVanish
import Verif.Lemmas.ProverH
import Verif.Lemmas.ProverPoly
import Verif.Lemmas.ProverQuotient
import Verif.Lemmas.ProverComplete
import Verif.Lemmas.ProverCreate
import Verif.Lemmas.ProverCircuit
import Verif.Props.Completeness
import Verif.Model.Shplonk
import Verif.Spec.Openings
import Verif.Lemmas.ShplonkSets
import Verif.Lemmas.ShplonkVerify
import Verif.Lemmas.ShplonkProver
import Verif.Lemmas.ShplonkComplete
import Verif.Lemmas.ShplonkSound
import Verif.Props.Openings
import Verif.Model.Transcript
import Verif.Model.ProverTranscript
import Verif.Spec.Transcript
import Verif.Lemmas.SyncLemmas
import Verif.Lemmas.ProveRun
import Verif.Lemmas.ClaimsNat
import Verif.Lemmas.ProveSync
import Verif.Lemmas.ProveClaims
import Verif.Lemmas.ProveAccept
import Verif.Lemmas.ProveColumns
import Verif.Lemmas.ProveTotal
import Verif.Lemmas.ProveDraws
import Verif.Lemmas.TrailingBytes
import Verif.Props.Transcript
import Verif.Spec.Messages
import Verif.Lemmas.Combined
import Verif.Lemmas.CombinedCircuit
import Verif.Props.Messages
import Verif.Lemmas.VerifyTotal
import Verif.Lemmas.ForgeBytes
import Verif.Spec.KeyShape
import Verif.Lemmas.KeyShape
import Verif.Lemmas.ReadCalm
import Verif.Props.Forge
import Verif.Model.FieldArith
import Verif.Spec.FieldArith
import Verif.Lemmas.FieldArith
import Verif.Lemmas.FieldValue
import Verif.Lemmas.PrattBase
import Verif.Props.FieldArith
import Verif.Model.Curve
import Verif.Spec.CurveGroup
import Verif.Lemmas.CurveGroup
import Verif.Lemmas.CurveMul
import Verif.Lemmas.CurveOrder
import Verif.Model.PointCodec
import Verif.Spec.PointCodec
import Verif.Lemmas.PointCodec
import Verif.Spec.StoredField
import Verif.Lemmas.StoredField
import Verif.Props.Curve
import Verif.Model.OnChain
import Verif.Spec.OnChain
import Verif.Lemmas.OnChain
import Verif.Props.OnChain
import Verif.Spec.Binding
import Verif.Lemmas.Binding
import Verif.Props.Binding
import Verif.Model.Tower
import Verif.Spec.Tower
import Verif.Lemmas.TowerRing
import Verif.Lemmas.TowerField
import Verif.Lemmas.TowerFrob
import Verif.Lemmas.TowerExp
import Verif.Props.Tower
import Verif.Model.Pairing
import Verif.Lemmas.PairLine
import Verif.Lemmas.PairStep
import Verif.Lemmas.PairGroup
import Verif.Lemmas.PairMiller
import Verif.Lemmas.PairLoop
import Verif.Lemmas.PairCayley
import Verif.Lemmas.PairLinear
import Verif.Lemmas.PrattCofactor
import Verif.Lemmas.PairOrder
import Verif.Lemmas.PairBilinear
import Verif.Spec.Pairing
import Verif.Props.Pairing
import Verif.Props.Deployed
import Verif.Lemmas.Fold
import Verif.Props.Fold
import Verif.Model.Asm
import Verif.Spec.Asm
import Verif.Lemmas.Asm
import Verif.Lemmas.AsmBlocks
import Verif.Lemmas.AsmProduct
import Verif.Lemmas.AsmReduce
import Verif.Lemmas.AsmChains
import Verif.Lemmas.AsmField
import Verif.Props.Asm
import Verif.Spec.Checks
import Verif.Lemmas.FetchLast
import Verif.Lemmas.Checks
import Verif.Lemmas.NeededChecks
import Verif.Props.Checks
import Verif.Model.Poseidon
import Verif.Model.Grain
import Verif.Spec.Poseidon
import Verif.Spec.Grain
import Verif.Lemmas.PoseidonInvert
import Verif.Lemmas.PoseidonPerm
import Verif.Lemmas.PoseidonCauchy
import Verif.Lemmas.PoseidonSponge
import Verif.Lemmas.GrainBits
import Verif.Lemmas.Grain
import Verif.Lemmas.GrainAll
import Verif.Props.Poseidon
import Verif.Props.Grain
import Verif.Model.MockProver
import Verif.Spec.MockProver
import Verif.Lemmas.MockValue
import Verif.Lemmas.MockScan
import Verif.Lemmas.MockRun
import Verif.Lemmas.MockVerdict
import Verif.Lemmas.MockChecks
import Verif.Lemmas.MockCircuit
import Verif.Lemmas.MockReport
import Verif.Props.MockProver
import Verif.Props.Assigned
import Verif.Props.Hiding
import Verif.Props.FloorPlanner
import Verif.Props.Batch
import Verif.Props.Gwc
import Verif.Props.Roots
import Verif.Props.G2Codec
import Verif.Props.Ipa
import Verif.Props.IpaOpen
import Verif.Props.Contradict
import Verif.Props.Gadget
import Verif.Props.Pow5
import Verif.Props.Ecc
import Verif.Props.EccMul
import Verif.Props.EccFixed
import Verif.Props.Secp
import Verif.Props.EccTables
import Verif.Props.Sinsemilla
import Verif.Props.Merkle
import Verif.Props.SinsemillaCommit
