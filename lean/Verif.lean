import Verif.Model.Attributes
import Verif.Model.Bits
import Verif.Model.Body
import Verif.Model.Core
import Verif.Model.Crc
import Verif.Model.Data
import Verif.Model.Debug
import Verif.Model.DebugFloat
import Verif.Model.Display
import Verif.Model.Equal
import Verif.Model.ErrorSource
import Verif.Model.Examples
import Verif.Model.Float
import Verif.Model.FloatText
import Verif.Model.Fnv
import Verif.Model.FrameDecoder
import Verif.Model.Header
import Verif.Model.Json
import Verif.Model.NetModels
import Verif.Model.Network
import Verif.Model.ObjectIndex
import Verif.Model.Parser
import Verif.Model.Prim
import Verif.Model.Serde
import Verif.Model.Text
import Verif.Model.Types
import Verif.Proofs.Alive
import Verif.Proofs.AttrCost
import Verif.Proofs.AttrErr
import Verif.Proofs.AttrFail
import Verif.Proofs.AttrLength
import Verif.Proofs.AttrNames
import Verif.Proofs.AttrSpec
import Verif.Proofs.AttrSpec2
import Verif.Proofs.AttrTable
import Verif.Proofs.BSpec
import Verif.Proofs.Binary
import Verif.Proofs.BitLeaf
import Verif.Proofs.BitModels
import Verif.Proofs.CacheTable
import Verif.Proofs.Crc
import Verif.Proofs.CrcOrder
import Verif.Proofs.CrcPoly
import Verif.Proofs.CutBody
import Verif.Proofs.CutLast
import Verif.Proofs.CutNet
import Verif.Proofs.CutShort
import Verif.Proofs.Damage
import Verif.Proofs.DebugFloat
import Verif.Proofs.DebugRead
import Verif.Proofs.DebugSize
import Verif.Proofs.DebugTypes
import Verif.Proofs.Decimal
import Verif.Proofs.ESpec
import Verif.Proofs.Encode
import Verif.Proofs.Enough
import Verif.Proofs.Equal
import Verif.Proofs.ErrorChain
import Verif.Proofs.Examples
import Verif.Proofs.File
import Verif.Proofs.FileFail
import Verif.Proofs.Float
import Verif.Proofs.FloatDecimal
import Verif.Proofs.FloatNearest
import Verif.Proofs.FloatOps
import Verif.Proofs.FloatOrder
import Verif.Proofs.FloatText
import Verif.Proofs.Fnv
import Verif.Proofs.FnvSign
import Verif.Proofs.FrameFail
import Verif.Proofs.FrameSpec
import Verif.Proofs.FramesSpec
import Verif.Proofs.Grammar
import Verif.Proofs.HeaderSer
import Verif.Proofs.History
import Verif.Proofs.Json
import Verif.Proofs.JsonReplay
import Verif.Proofs.JsonSize
import Verif.Proofs.JsonText
import Verif.Proofs.Lines
import Verif.Proofs.Literals
import Verif.Proofs.Local
import Verif.Proofs.LocalMove
import Verif.Proofs.Message
import Verif.Proofs.MessageSize
import Verif.Proofs.NetFail
import Verif.Proofs.NetworkFail
import Verif.Proofs.NetworkSpec
import Verif.Proofs.PSpec
import Verif.Proofs.Pack
import Verif.Proofs.Plain
import Verif.Proofs.Possible
import Verif.Proofs.Quat
import Verif.Proofs.Rdict
import Verif.Proofs.Replay
import Verif.Proofs.Reserve
import Verif.Proofs.Rewrite
import Verif.Proofs.Run
import Verif.Proofs.Schema
import Verif.Proofs.Section
import Verif.Proofs.SegArray
import Verif.Proofs.Serde
import Verif.Proofs.Size
import Verif.Proofs.SpawnTable
import Verif.Proofs.Stream
import Verif.Proofs.Text
import Verif.Proofs.Tree
import Verif.Proofs.Unknown
import Verif.Proofs.Utf8
import Verif.Proofs.ValueFail
import Verif.Proofs.ValueOf
import Verif.Proofs.Work
import Verif.Proofs.WorkNet
import Verif.Proofs.WorkParse
import Verif.Proofs.WorkSkip
import Verif.Proofs.WorkTables
import Verif.Props.Alive
import Verif.Props.Attr
import Verif.Props.AttrFail
import Verif.Props.AttrTable
import Verif.Props.Binary
import Verif.Props.Bits
import Verif.Props.Build
import Verif.Props.Classes
import Verif.Props.Crc
import Verif.Props.CrcAccept
import Verif.Props.CrcCount
import Verif.Props.CrcErrors
import Verif.Props.CrcForge
import Verif.Props.Cut
import Verif.Props.CutBody
import Verif.Props.CutNet
import Verif.Props.CutShort
import Verif.Props.Damage
import Verif.Props.Debug
import Verif.Props.Depends
import Verif.Props.DocProps
import Verif.Props.Docs
import Verif.Props.Equal
import Verif.Props.ErrorChain
import Verif.Props.Examples
import Verif.Props.Extend
import Verif.Props.Failure
import Verif.Props.File
import Verif.Props.FileFail
import Verif.Props.Fixed
import Verif.Props.FloatText
import Verif.Props.Fnv
import Verif.Props.Frames
import Verif.Props.Header
import Verif.Props.HeaderSer
import Verif.Props.Json
import Verif.Props.JsonSize
import Verif.Props.KeyFrames
import Verif.Props.LeaveOut
import Verif.Props.Lines
import Verif.Props.Message
import Verif.Props.MessageSize
import Verif.Props.NetData
import Verif.Props.NetSample
import Verif.Props.NoPanic
import Verif.Props.NumFrames
import Verif.Props.Overflow
import Verif.Props.ParentIds
import Verif.Props.PlayerSample
import Verif.Props.Policy
import Verif.Props.Possible
import Verif.Props.Probe
import Verif.Props.Quat
import Verif.Props.Ranges
import Verif.Props.Reassign
import Verif.Props.References
import Verif.Props.Rename
import Verif.Props.Reserve
import Verif.Props.Rewrite
import Verif.Props.Sample
import Verif.Props.Schema
import Verif.Props.SegArray
import Verif.Props.Serde
import Verif.Props.Size
import Verif.Props.Skip
import Verif.Props.Stream
import Verif.Props.TableSize
import Verif.Props.Tables
import Verif.Props.Text
import Verif.Props.Times
import Verif.Props.Told
import Verif.Props.TwoTexts
import Verif.Props.Unique
import Verif.Props.UnitTests
import Verif.Props.Unused
import Verif.Props.Values
import Verif.Props.Version
import Verif.Props.Work
import Verif.Spec.Alive
import Verif.Spec.Attr
import Verif.Spec.AttrFail
import Verif.Spec.Binary
import Verif.Spec.Bits
import Verif.Spec.Build
import Verif.Spec.Classes
import Verif.Spec.Collide
import Verif.Spec.Crc
import Verif.Spec.CrcPoly
import Verif.Spec.CutNet
import Verif.Spec.CutShort
import Verif.Spec.Damage
import Verif.Spec.Debug
import Verif.Spec.Decimal
import Verif.Spec.Depends
import Verif.Spec.DocProps
import Verif.Spec.Docs
import Verif.Spec.Encode
import Verif.Spec.Equal
import Verif.Spec.ErrorChain
import Verif.Spec.Examples
import Verif.Spec.Extend
import Verif.Spec.Failure
import Verif.Spec.File
import Verif.Spec.FileFail
import Verif.Spec.Float
import Verif.Spec.Frames
import Verif.Spec.HeaderSer
import Verif.Spec.History
import Verif.Spec.Json
import Verif.Spec.LeaveOut
import Verif.Spec.Lines
import Verif.Spec.Message
import Verif.Spec.MessageSize
import Verif.Spec.Network
import Verif.Spec.Pack
import Verif.Spec.ParentIds
import Verif.Spec.Possible
import Verif.Spec.Quat
import Verif.Spec.Reassign
import Verif.Spec.Rename
import Verif.Spec.Reserve
import Verif.Spec.Schema
import Verif.Spec.Size
import Verif.Spec.Stream
import Verif.Spec.Tables
import Verif.Spec.Text
import Verif.Spec.Told
import Verif.Spec.Unique
import Verif.Spec.Unknown
import Verif.Spec.Unused
import Verif.Spec.Values
import Verif.Spec.Work
