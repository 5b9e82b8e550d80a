import Verif.Field
import Verif.Enums
import Verif.Query
import Verif.ConstraintBuilder
import Verif.BuilderSemantics
import Verif.Spec.Bytes
import Verif.Lagrange
import Verif.Gadgets.IsZero
import Verif.Gadgets.OneHot
import Verif.Gadgets.Tables
import Verif.Gadgets.TableSound
import Verif.Gadgets.LookupSound
import Verif.Gadgets.MptUpdate
import Verif.Gadgets.UpdateRows
import Verif.Gadgets.UpdateProofRows
import Verif.Accepted
import Verif.Spec.Openings
import Verif.TrieSegment
import Verif.Runs
import Verif.SegCases
import Verif.Spec.Claims
import Verif.AccountRows
import Verif.AccountLeaf
import Verif.ClaimsAccount
import Verif.ClaimsStorage
import Verif.RunShape
import Verif.Exposed
import Verif.Props.Claims
import Verif.Props.Builder
import Verif.Assign.ByteRep
import Verif.Assign.Canonical
import Verif.Assign.KeyBit
import Verif.Completion
import Verif.Assign.Layout
import Verif.Assign.Fixed
import Verif.Props.Tables
import Verif.Props.LayoutPanics
import Verif.Types.Serde
import Verif.Props.Serde
import Verif.Types.Util
import Verif.Props.Util
import Verif.Types.Trie
import Verif.Types.Claim
import Verif.Types.Storage
import Verif.Types.Proof
import Verif.Spec.Paths
import Verif.Props.Trie
import Verif.Props.Trace
import Verif.Assign.Witness
import Verif.Assign.Runs
import Verif.Assign.Update
import Verif.Assign.Requests
import Verif.Props.Layout
import Verif.Assign.Place
import Verif.Assign.Demo
import Verif.Assign.RowSat
import Verif.Assign.DemoRuns
import Verif.Assign.DemoRuns2
import Verif.Spec.Tries
import Verif.Spec.TrieInsert
import Verif.Props.Content
import Verif.Props.Negative
import Verif.Assign.Circuit
import Verif.Props.Rows
import Verif.Props.Circuit
import Verif.Spec.Honest
import Verif.Assign.HonestRows
import Verif.Assign.HonestTrace
import Verif.Props.NegativeTables
import Verif.Props.Requests
import Verif.Assign.HonestRun
import Verif.Assign.HonestLeaf
import Verif.Assign.HonestProof
import Verif.Assign.HonestAbsent
import Verif.Assign.HonestNew
import Verif.Assign.HonestFrame
import Verif.Assign.HonestNewRun
import Verif.Assign.HonestUpdate
import Verif.Assign.HonestStorage
import Verif.Assign.HonestSlot
import Verif.Assign.HonestSlotRun
import Verif.Assign.HonestSlotEmpty
import Verif.Assign.HonestAccepted
import Verif.Assign.HonestNoPanic
import Verif.Props.HonestInput
import Verif.Assign.HonestParse
import Verif.Assign.HonestReady
import Verif.Assign.HonestScenario
import Verif.Props.Complete
import Verif.Spec.Zktrie
import Verif.Props.ZkPaths
import Verif.Spec.World
import Verif.Props.WorldTraces
import Verif.Props.World
import Verif.Props.Exposure
import Verif.Props.Operations
import Verif.Props.OperationsDemo
import Verif.Props.WorldSound
import Verif.Props.WorldSoundDemo
import Verif.Props.NegativeParse
import Verif.Props.RoundTrip
import Verif.Props.ClaimsDemo
import Verif.Props.Degree
import Verif.Props.NegativeForge
import Verif.Props.HonestCheck
import Verif.Poseidon
import Verif.Fixtures.Traces
import Verif.Fixtures.Eval
import Verif.Fixtures.Checks
import Verif.Fixtures.World
import Verif.Assign.TestCircuit
import Verif.Props.TestCircuit
import Verif.Fixtures.ManyHashes
import Verif.Types.Json
import Verif.Spec.JsonFormat
import Verif.Props.Json
import Verif.Props.JsonText
import Verif.Props.JsonContent
import Verif.Props.JsonFormat
import Verif.Spec.JsonGrammar
import Verif.Props.JsonReader
import Verif.Fixtures.JsonCheck
import Verif.Fixtures.JsonFiles1
import Verif.Fixtures.JsonFiles2
import Verif.Fixtures.JsonFiles3
import Verif.Assign.Phases
import Verif.Spec.StateClaims
import Verif.Props.Challenge
import Verif.Props.ChallengeDemo
import Verif.Props.TrieOps
import Verif.Props.Patched
import Verif.Props.PatchedHistory
import Verif.Props.StrictPaths
import Verif.Props.StrictRows
import Verif.Props.PatchedRows
import Verif.Props.PatchedRun
import Verif.Props.PatchedOps
import Verif.Props.PatchedComplete
import Verif.Props.PatchedDemo
import Verif.Assign.RowCheck
import Verif.Assign.Force
import Verif.Props.Gaps
import Verif.Props.GapCheck
import Verif.Props.Scene
import Verif.Props.Scenes
import Verif.Props.Attacks
import Verif.Types.Check
import Verif.Props.ParserCheck
import Verif.Props.ParserCheckDemo
import Verif.Props.Capacity
import Verif.Props.CapacityDemo
import Verif.Props.Creation
import Verif.Spec.Agreement
import Verif.Props.Agreement
import Verif.Props.PatchedAgreement
import Verif.Props.AgreementDemo
import Verif.Spec.Changes
import Verif.Props.Determined
import Verif.Props.PatchedDetermined
import Verif.Props.DeterminedDemo
import Verif.Spec.HaloTable
import Verif.Halo
import Verif.Props.HaloTable
import Verif.Spec.Proving
import Verif.Props.Proving
import Verif.Props.PatchedProving
import Verif.Props.ProvingDemo
import Verif.Spec.Chain
import Verif.Props.Chain
import Verif.Props.ChainDemo
import Verif.Props.NegativeHidden
import Verif.Props.NegativeAbsence
