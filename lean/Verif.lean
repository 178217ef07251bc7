import Verif.Model.Arena
import Verif.Model.ArenaIter
import Verif.Model.ArenaWord
import Verif.Model.Baseline
import Verif.Model.BuildScript
import Verif.Model.CApi
import Verif.Model.Channel
import Verif.Model.CircleGame
import Verif.Model.Clients
import Verif.Model.Codegen
import Verif.Model.Contract
import Verif.Model.CreateIter
import Verif.Model.Deserializer
import Verif.Model.DynHandle
import Verif.Model.Engine
import Verif.Model.FbAccess
import Verif.Model.FbBytes
import Verif.Model.FbRead
import Verif.Model.FbTypes
import Verif.Model.FfiHeap
import Verif.Model.FfiValue
import Verif.Model.Flatbuffer
import Verif.Model.Float
import Verif.Model.Fs
import Verif.Model.Gc
import Verif.Model.Gradle
import Verif.Model.Macro
import Verif.Model.Mangle
import Verif.Model.MutSwap
import Verif.Model.Outcome
import Verif.Model.Pinvoke
import Verif.Model.Profile
import Verif.Model.SerBytes
import Verif.Model.Serializer
import Verif.Model.Setup
import Verif.Model.Substitute
import Verif.Model.Time
import Verif.Model.TimeFloat
import Verif.Model.Types
import Verif.Model.UnityColor
import Verif.Model.UnitySync
import Verif.Model.Utf
import Verif.Model.Wrapper
import Verif.Model.WrapperRace
import Verif.Spec.BorrowRules
import Verif.Spec.Buffer
import Verif.Spec.Built
import Verif.Spec.Bytes
import Verif.Spec.Commute
import Verif.Spec.CsObjects
import Verif.Spec.Database
import Verif.Spec.FileLife
import Verif.Spec.FloatValue
import Verif.Spec.Gradle
import Verif.Spec.HandleMap
import Verif.Spec.KeepAlive
import Verif.Spec.KeptContracts
import Verif.Spec.Part
import Verif.Spec.Program
import Verif.Spec.Rename
import Verif.Spec.RoundTrip
import Verif.Spec.SameFile
import Verif.Spec.SaveRestore
import Verif.Spec.Shared
import Verif.Spec.Text
import Verif.Spec.Transparent
import Verif.Spec.Values
import Verif.Proofs.Apart
import Verif.Proofs.Arena
import Verif.Proofs.Baseline
import Verif.Proofs.BaselineApi
import Verif.Proofs.BaselineInv
import Verif.Proofs.BiMap
import Verif.Proofs.BuildScript
import Verif.Proofs.Builder
import Verif.Proofs.Bytes
import Verif.Proofs.Channel
import Verif.Proofs.Clients
import Verif.Proofs.Codegen
import Verif.Proofs.Commute
import Verif.Proofs.CommuteCalls
import Verif.Proofs.Contract
import Verif.Proofs.Database
import Verif.Proofs.DesFinish
import Verif.Proofs.DesResult
import Verif.Proofs.DesRun
import Verif.Proofs.DesSuccess
import Verif.Proofs.DesTidy
import Verif.Proofs.Deserializer
import Verif.Proofs.DeserializerRun
import Verif.Proofs.DeserializerStep
import Verif.Proofs.Determinism
import Verif.Proofs.Engine
import Verif.Proofs.FbAccess
import Verif.Proofs.FbBytes
import Verif.Proofs.FbCreate
import Verif.Proofs.FbCut
import Verif.Proofs.FbMono
import Verif.Proofs.FbTable
import Verif.Proofs.FbVec
import Verif.Proofs.FfiContracts
import Verif.Proofs.FfiExact
import Verif.Proofs.FfiHeap
import Verif.Proofs.FfiNoState
import Verif.Proofs.FfiReadback
import Verif.Proofs.FfiRun
import Verif.Proofs.FfiSound
import Verif.Proofs.FfiTyped
import Verif.Proofs.FfiValue
import Verif.Proofs.FinishBytes
import Verif.Proofs.FloatValue
import Verif.Proofs.Gc
import Verif.Proofs.Genuine
import Verif.Proofs.LastWrite
import Verif.Proofs.Ledger
import Verif.Proofs.Listed
import Verif.Proofs.Matched
import Verif.Proofs.MutSwap
import Verif.Proofs.Packed
import Verif.Proofs.Pinvoke
import Verif.Proofs.Rename
import Verif.Proofs.Repeat
import Verif.Proofs.Replay
import Verif.Proofs.SerBuffer
import Verif.Proofs.SerBytes
import Verif.Proofs.SerFinish
import Verif.Proofs.SerRemoved
import Verif.Proofs.SerRename
import Verif.Proofs.SerSuccess
import Verif.Proofs.Serializer
import Verif.Proofs.Sim
import Verif.Proofs.SimRun
import Verif.Proofs.SimStep
import Verif.Proofs.SizeBytes
import Verif.Proofs.Split
import Verif.Proofs.Store
import Verif.Proofs.Time
import Verif.Proofs.TimeFloat
import Verif.Proofs.Types
import Verif.Props.Access
import Verif.Props.Arena
import Verif.Props.ArenaIter
import Verif.Props.ArenaWord
import Verif.Props.Baseline
import Verif.Props.Bound
import Verif.Props.BuildScript
import Verif.Props.Bytes
import Verif.Props.CApi
import Verif.Props.Channel
import Verif.Props.CircleGame
import Verif.Props.Clients
import Verif.Props.Codegen
import Verif.Props.Commute
import Verif.Props.Contract
import Verif.Props.CreateIter
import Verif.Props.CycleIff
import Verif.Props.Database
import Verif.Props.Deserialize
import Verif.Props.Determinism
import Verif.Props.DynHandle
import Verif.Props.Engine
import Verif.Props.FailedSave
import Verif.Props.FfiHeap
import Verif.Props.FfiValue
import Verif.Props.FileLife
import Verif.Props.FloatValue
import Verif.Props.Gc
import Verif.Props.Genuine
import Verif.Props.Gradle
import Verif.Props.LastWrite
import Verif.Props.Ledger
import Verif.Props.Lost
import Verif.Props.Macro
import Verif.Props.Mangle
import Verif.Props.MutSwap
import Verif.Props.Part
import Verif.Props.Pinvoke
import Verif.Props.Profile
import Verif.Props.Removed
import Verif.Props.Repeat
import Verif.Props.Replay
import Verif.Props.RepoTests
import Verif.Props.Restore
import Verif.Props.RestoreIff
import Verif.Props.Restored
import Verif.Props.RoundTripTest
import Verif.Props.SameFile
import Verif.Props.SaveLimit
import Verif.Props.SaveRestore
import Verif.Props.SavedProgram
import Verif.Props.Separate
import Verif.Props.Serialize
import Verif.Props.SerializeErr
import Verif.Props.Setup
import Verif.Props.Shared
import Verif.Props.SharedRef
import Verif.Props.SignedZero
import Verif.Props.Split
import Verif.Props.StaysSavable
import Verif.Props.Substitute
import Verif.Props.Text
import Verif.Props.Time
import Verif.Props.TimeFloat
import Verif.Props.Transparent
import Verif.Props.Types
import Verif.Props.UnityColor
import Verif.Props.UnitySync
import Verif.Props.Utf
import Verif.Props.WarpChain
import Verif.Props.Wrapper
import Verif.Props.WrapperRace
