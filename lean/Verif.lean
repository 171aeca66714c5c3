import Verif.Props.Wire
import Verif.Props.V2Parse
import Verif.Props.V2Parse2
import Verif.Props.V2Parse3
import Verif.Props.CombineAgain
import Verif.Props.CombineOrder
import Verif.Props.CombineGroup
import Verif.Props.Sequences
import Verif.Props.Lost
import Verif.Props.ExactLocks
import Verif.Props.V2Format
import Verif.Props.V2LockTime
import Verif.Props.V2Roles
import Verif.Props.V2Combine
import Verif.Props.V2Extract
import Verif.Props.V2Sighash
import Verif.Props.V2Sign
import Verif.Props.SighashType
import Verif.Props.V0Parse
import Verif.Props.V0Format
import Verif.Props.V0Combine
import Verif.Props.V0Extract
import Verif.Props.Weight
import Verif.Props.SighashOnly
import Verif.Props.V0Sign
import Verif.Props.V0Taproot
import Verif.Props.V0Checks
import Verif.Props.V2Finalize
import Verif.Props.V2Satisfy
import Verif.Props.V0Finalize
import Verif.Props.V0SighashMsg
import Verif.Props.V0Update
import Verif.Props.Text
import Verif.Props.Serde
import Verif.Props.V2Parallel
import Verif.Props.V0Parallel
import Verif.Props.V2HandOver
import Verif.Props.V0HandOver
import Verif.Props.V2Lifecycle
import Verif.Props.V2Interp
import Verif.Props.V2InterpTap
import Verif.Props.V0Complete
import Verif.Props.V0Messages
import Verif.Props.SighashCache
import Verif.Props.V2Build
import Verif.Props.V0FromDescriptor
import Verif.Props.V0Signers
import Verif.Spec.V2Complete
import Verif.Props.V2Complete
import Verif.Model.Report
import Verif.Spec.Report
import Verif.Props.Report
import Verif.Props.Versions
import Verif.Spec.Encoding
import Verif.Lemmas.Encoding
import Verif.Spec.RawMap
import Verif.Lemmas.RawMap
import Verif.Model.TapBuilder
import Verif.Spec.TapTree
import Verif.Lemmas.TapBuilder
import Verif.Spec.TapRoot
import Verif.Lemmas.TapRoot
import Verif.Spec.TapSpend
import Verif.Props.TapTree
import Verif.Props.TapSpend
import Verif.Spec.Shared
import Verif.Props.V0Shared
import Verif.Props.Truncated
import Verif.Props.V2Extend
import Verif.Props.SignAgain
import Verif.Spec.WholePsbt
import Verif.Props.WholePsbt
import Verif.Props.Amounts
import Verif.Props.Precedence
import Verif.Props.Ignored
import Verif.Props.Local
import Verif.Props.Reserve
import Verif.Props.V2Resequence
import Verif.Props.Basic
import Verif.Props.BothVersions
import Verif.Props.BothVersionsRoles
import Verif.Props.BothVersionsCombine
import Verif.Spec.BothVersionsFinalize
import Verif.Props.BothVersionsFinalize
import Verif.Model.ReportParts
import Verif.Spec.ReportCause
import Verif.Props.ReportCause
import Verif.Spec.Retry
import Verif.Props.Retry
import Verif.Model.World
import Verif.Model.V0.SignWorld
import Verif.Model.V2.SignWorld
import Verif.Spec.World
import Verif.Lemmas.World
import Verif.Lemmas.V0World
import Verif.Lemmas.V2World
import Verif.Props.World
import Verif.Spec.TxId
import Verif.Spec.SighashText
import Verif.Props.TxidKnown
import Verif.Spec.ScriptPath
import Verif.Props.V0ScriptPath
import Verif.Spec.Refused
import Verif.Lemmas.RefusedPsbt
import Verif.Props.Refused
import Verif.Spec.SignTold
import Verif.Lemmas.SignTold
import Verif.Props.SignTold
import Verif.Spec.ReportAbout
import Verif.Lemmas.ReportAbout
import Verif.Props.ReportAbout
import Verif.Spec.CombineTold
import Verif.Lemmas.CombineTold
import Verif.Props.CombineTold
import Verif.Spec.MsgTold
import Verif.Props.MsgTold
import Verif.Spec.Gather
import Verif.Lemmas.SameRecords
import Verif.Lemmas.Gather
import Verif.Props.Gather
import Verif.Spec.Sessions
import Verif.Lemmas.Sessions
import Verif.Lemmas.V0Sessions
import Verif.Props.Sessions
import Verif.Vectors.Real
import Verif.Vectors.Parse
import Verif.Vectors.Roles
import Verif.Vectors.V2Roles
import Verif.Spec.Feature
import Verif.Lemmas.Feature
import Verif.Props.Feature
import Verif.Spec.FeatureSerde
import Verif.Props.FeatureSerde
import Verif.Spec.ExtractTold
import Verif.Props.ExtractTold
import Verif.Spec.V2Sessions
import Verif.Props.V2Sessions
import Verif.Spec.Locked
import Verif.Props.V0Locked
import Verif.Spec.V2Locked
import Verif.Props.V2Locked
import Verif.Spec.FinalizeTold
import Verif.Props.FinalizeTold
import Verif.Spec.Divided
import Verif.Props.Divided
import Verif.Props.V2Divided
import Verif.Props.V2ExtendLost
import Verif.Spec.SerdeAbsent
import Verif.Props.SerdeAbsent
import Verif.Spec.V0Crash
import Verif.Spec.V2Crash
import Verif.Props.V0Crash
import Verif.Props.V2Crash
import Verif.Spec.FeatureCombine
import Verif.Props.FeatureCombine
import Verif.Spec.Updaters
import Verif.Spec.V2Updaters
import Verif.Props.Updaters
import Verif.Props.V2Updaters
import Verif.Cases.V0Basics
import Verif.Cases.V0Roles
import Verif.Cases.V2Roles
import Verif.Cases.Parse
import Verif.Cases.Whole
