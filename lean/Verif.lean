import Verif.Basic.Pratt
import Verif.Basic.Field
import Verif.Basic.Pallas
import Verif.Basic.PallasOrder
import Verif.Basic.Bytes
import Verif.Basic.Encoding
import Verif.Model.Constants
import Verif.Props.Constants
import Verif.Model.Value
import Verif.Lemmas.Value
import Verif.Props.Value
import Verif.Model.Prims
import Verif.Model.Sinsemilla
import Verif.Model.Spec
import Verif.Lemmas.Spec
import Verif.Props.Spec
import Verif.Model.RedPallas
import Verif.Model.Keys
import Verif.Lemmas.Keys
import Verif.Spec.Keys
import Verif.Examples.Prims
import Verif.Props.Keys
import Verif.Props.Note
import Verif.Props.Tree
import Verif.Props.Encodings
import Verif.Props.Zip32
import Verif.Props.NoteEncryption
import Verif.Props.Bundle
import Verif.Props.Batch
import Verif.Props.Builder
import Verif.Props.Build
import Verif.Props.Signing
import Verif.Props.Circuit
import Verif.Props.ActionCircuit
import Verif.Props.Protocol
import Verif.Props.EndToEnd
import Verif.Props.BatchDecryption
import Verif.Props.Layout
import Verif.Props.Generators
import Verif.Props.FixedBase
import Verif.Props.Shuffle
import Verif.Props.Nonces
import Verif.Props.Hiding
import Verif.Props.Wnaf
import Verif.Props.EmptyRoots
import Verif.Props.Pinned
import Verif.Model.Regions
import Verif.Lemmas.TableGates
import Verif.Lemmas.SinsemillaGates
import Verif.Lemmas.RegionHash
import Verif.Lemmas.RegionMerkle
import Verif.Lemmas.RegionPoseidon
import Verif.Lemmas.RegionMulFixed
import Verif.Lemmas.MulVarGates
import Verif.Lemmas.RegionMulVar
import Verif.Lemmas.RegionCalls
import Verif.Lemmas.Patch
import Verif.Lemmas.PatchBasic
import Verif.Lemmas.PatchMulFixed
import Verif.Lemmas.PatchPoseidon
import Verif.Lemmas.PatchHash
import Verif.Lemmas.PatchMerkle
import Verif.Lemmas.PatchMulVar
import Verif.Lemmas.PatchSites
import Verif.Lemmas.PatchPack
import Verif.Lemmas.PatchCircuit
import Verif.Props.Gadgets
import Verif.Spec.Complete
import Verif.Lemmas.FirstGenerator
import Verif.Lemmas.Complete
import Verif.Examples.Regions
import Verif.Props.Complete
import Verif.Model.Order
import Verif.Spec.RedPallas
import Verif.Props.RedPallas
import Verif.Props.Order
import Verif.Props.Ledger
import Verif.Props.LedgerHonest
import Verif.Props.Views
import Verif.Props.DynamicUsage
import Verif.Vectors.Keys
import Verif.Vectors.Merkle
import Verif.Vectors.NoteEncryption
import Verif.Props.Wallet
import Verif.Examples.Payment
import Verif.Props.Payment
import Verif.Lemmas.Signers
import Verif.Props.Signers
import Verif.Model.Rng
import Verif.Spec.Rng
import Verif.Lemmas.Rng
import Verif.Lemmas.RngBuild
import Verif.Lemmas.RngFuel
import Verif.Props.Rng
import Verif.Spec.Fair
import Verif.Lemmas.Fair
import Verif.Lemmas.FairBuild
import Verif.Props.Fair
import Verif.Model.Testing
import Verif.Model.Tests
import Verif.Spec.Testing
import Verif.Spec.Tests
import Verif.Lemmas.Testing
import Verif.Props.Testing
import Verif.Lemmas.TestingBundle
import Verif.Props.TestingBundle
import Verif.Lemmas.TestingBuilder
import Verif.Lemmas.Tests
import Verif.Props.TestingBuilder
import Verif.Props.Tests
import Verif.Model.Tables.ProofTestCase
import Verif.Model.ProofTestCase
import Verif.Props.ProofTestCase
import Verif.Model.UnitTests
import Verif.Lemmas.UnitTests
import Verif.Props.UnitTests
import Verif.Model.ProofSize
import Verif.Props.ProofSize
import Verif.Model.Frontier
import Verif.Lemmas.Frontier
import Verif.Props.Frontier
import Verif.Model.Display
import Verif.Props.Display
import Verif.Model.Stream
import Verif.Props.Stream
import Verif.Model.Arrays
import Verif.Props.Arrays
